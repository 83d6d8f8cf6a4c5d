import Verif.Props.UserThrow
import Verif.Props.UserAbortExamples

/-! # C115: the program of `UserExamples` when its solver and its own classes throw -/

namespace Copra
open Spec

set_option linter.unusedSectionVars false
set_option maxRecDepth 100000

section
variable {K S : Type} [Field K] [LinearOrder K] [IsStrictOrderedRing K]

namespace UWorld

theorem xhist_of_auhist {d : Dims} {dmax : K} {X : UWorld K S} {g : Ghost} {n : Nat × Nat} (h : AUHist d dmax X g n) :
    XHist d dmax X g n := by
  induction h with
  | start h => exact .start h
  | ok _ o hs hr ih => exact .ok ih o hs hr
  | thrown _ o hs ih => exact .thrown ih o hs
  | aborted _ ha ih => exact .aborted ih ha

theorem xhist_after {d : Dims} {dmax : K} {X : UWorld K S} {g : Ghost} {n : Nat × Nat} {op : UOp K S}
    (h : XHist d dmax X g n) (ho : UOk d X g op) (hk : uokB dmax X op = true)
    (hr : RowsFit (countRows n X (uafter dmax X op) op) op) :
    XHist d dmax (uafter dmax X op) (unext g X True op) (countRows n X (uafter dmax X op) op) := .ok h ho (uokB_step hk) hr

end UWorld
end

namespace Ex.User
open UWorld

/-- The client calls `solve`; its solver throws. -/
def rt : UWorld ℚ ℚ × QP ℚ := (X10.solveThrow (env xU true)).getD (X10, q13)
def Xt : UWorld ℚ ℚ := rt.1

theorem Xt_eq : X10.solveThrow (env xU true) = some (Xt, rt.2) := getD_of_isSome (a := (X10, q13)) (by decide +kernel)

/-- It initializes its costs anew (C27), ... -/
def Xi : UWorld ℚ ℚ := uafter 1000 Xt (.api (.initCost 0 0 jk))
def Xj : UWorld ℚ ℚ := uafter 1000 Xi (.api (.initCost 1 0 jk))

/-- ... and calls `solve` again; now the `update` of the budget throws. -/
def Xk : UWorld ℚ ℚ := (Xj.solveUserThrow jk (.constr 2 spoiled)).getD Xj

theorem Xk_eq : Xj.solveUserThrow jk (.constr 2 spoiled) = some Xk := getD_of_isSome (by decide +kernel)

/-- What the client knows. -/
def gt : Ghost :=
  unext (unext (unext gX X10 True (.api (.solve (env xU true)))) Xt True (.api (.initCost 0 0 jk))) Xi True (.api (.initCost 1 0 jk))

theorem hxX10 : ∃ n, XHist d 1000 X10 gX n := haX10.imp fun _ h => xhist_of_auhist h

theorem hxXt : ∃ n, XHist d 1000 Xt (unext gX X10 True (.api (.solve (env xU true)))) n := by
  obtain ⟨n, h⟩ := hxX10
  exact ⟨_, .solverThrew h oU Xt_eq⟩

theorem hxXj : ∃ n, XHist d 1000 Xj gt n := by
  obtain ⟨n, h⟩ := hxXt
  have h1 := xhist_after (op := .api (.initCost 0 0 jk)) h ⟨show HasSystem Xt.world 0 by unfold HasSystem; decide +kernel, trivial⟩
    (by decide +kernel) trivial
  exact ⟨_, xhist_after (op := .api (.initCost 1 0 jk)) h1 ⟨show HasSystem Xi.world 0 by unfold HasSystem; decide +kernel, trivial⟩
    (by decide +kernel) trivial⟩

theorem hxXk : ∃ n, XHist d 1000 Xk gt n := by
  obtain ⟨n, h⟩ := hxXj
  exact ⟨n, .aborted h Xk_eq⟩

/-- C115, what a solver that throws leaves untouched, applies. -/
example := hxX10.elim fun _ h => c115_keeps h Xt_eq psU

/-- C115, no new states, applies. -/
example := hxXk.elim fun _ h => c115_no_new_states h

def rk : UWorld ℚ ℚ × Bool × QP ℚ := (Xk.solve (env xU true)).getD (Xk, false, q13)

theorem sk : Xk.solve (env xU true) = some (rk.1, true, rk.2.2) := by
  have e : (Xk.solve (env xU true)).isSome = true := by decide +kernel
  obtain ⟨r, hr⟩ := Option.isSome_iff_exists.1 e
  have h1 : rk = r := by unfold rk; rw [hr]; rfl
  have h2 : rk.2.1 = true := by decide +kernel
  rw [hr, ← h2, h1]

theorem ok : UOk d Xk gt (.api (.solve (env xU true))) :=
  ⟨⟨(by decide +kernel : Xk.world.ctl.ps ≠ none), contract rfl
    (fun h => absurd (congrArg Option.isSome h) (by decide +kernel : Xk.world.ctl.sol.isSome ≠ false)) (by decide +kernel)⟩, trivial⟩

theorem classk : Xk.consClass = X0.consClass ∧ Xk.costClass = X0.costClass := by
  obtain ⟨n, h⟩ := hxX10
  obtain ⟨-, -, -, -, -, -, -, -, ⟨-, -, e1, e2⟩, -⟩ := c115_keeps h Xt_eq psU
  exact ⟨e1, e2⟩

theorem confk : Conforming d Xk := conforming_of classk.1 classk.2 (by decide +kernel) (by decide +kernel)

theorem honestk : ∀ i ∈ Xk.world.ctl.spConstr, Xk.consClass i = none → (Xk.world.cons i).userData.Honest := by
  intro i hi hn
  rw [(by decide +kernel : Xk.world.ctl.spConstr = [0, 2, 10])] at hi
  simp only [List.mem_cons, List.not_mem_nil, or_false] at hi
  have : (Xk.world.cons i).kind ≠ .trajBound := by rcases hi with rfl | rfl | rfl <;> decide +kernel
  unfold Constr.userData
  cases h : (Xk.world.cons i).kind <;> simp only <;> first | trivial | exact absurd h this | (split <;> trivial)

theorem freshk : ∀ i ∈ Xk.world.ctl.spCost, Xk.costClass i = none → (Xk.world.costs i).userData.PerStepState d →
    gt.fresh i ∧ Xk.world.ctl.spCost.count i = 1 := by
  intro i hi hn _
  rw [(by decide +kernel : Xk.world.ctl.spCost = [0, 1, 10])] at hi ⊢
  simp only [List.mem_cons, List.not_mem_nil, or_false] at hi
  rcases hi with rfl | rfl | rfl
  · exact ⟨.inl (.inr ⟨trivial, rfl⟩), rfl⟩
  · exact ⟨.inr ⟨trivial, rfl⟩, rfl⟩
  · exact absurd (congrArg Option.isSome hn) (by rw [classk.2]; decide +kernel)

theorem cleank : Xk.world.ctl.spBoundConstr = [] → gt.clean := fun h => absurd h (by decide +kernel)

/-- C115, the next solve is defined: applies. -/
example := hxXk.elim fun _ h => c115_defined h confk (returning_of classk.1 classk.2) (by unfold RowsCount; decide +kernel) ok

/-- C115, the constraints and the objective of the next solve: apply. -/
example : Feasible rk.2.2 (fun _ => 1 / 2) ∧ ¬ Feasible rk.2.2 (fun _ => 1) ∧
    ∀ U, Feasible rk.2.2 U ↔ AllHold d Xk rk.1 0 U ∧ (Xk.world.ctl.spBoundConstr = [] → ∀ j < d.m * d.N, -1000 ≤ U j ∧ U j ≤ 1000) :=
  ⟨by decide +kernel, by decide +kernel, hxXk.elim fun _ h =>
    c115_feasible h confk ok (by decide +kernel) cleank honestk sk (by decide +kernel)⟩

example := hxXk.elim fun _ h => c115_objective (p := 0) h confk ok (by decide +kernel) freshk sk (by decide +kernel)

theorem optk : IsOptimal rk.2.2 ((env xU true).answer rk.2.2).2.e := by
  refine optimal_of_stationary ⟨by unfold Spec.Symmetric; decide +kernel, fun x => ?_⟩ (by decide +kernel) (by decide +kernel)
  rw [(by decide +kernel : rk.2.2.c.rows = 2)]
  simp only [Finset.sum_range_succ, Finset.sum_range_zero, (by decide +kernel : rk.2.2.Q.e 0 0 = 6000001 / 1000000),
    (by decide +kernel : rk.2.2.Q.e 0 1 = -1), (by decide +kernel : rk.2.2.Q.e 1 0 = -1),
    (by decide +kernel : rk.2.2.Q.e 1 1 = 4000001 / 1000000)]
  nlinarith [sq_nonneg (x 0 - x 1), sq_nonneg (x 0), sq_nonneg (x 1)]

/-- C115, end to end, applies, with every back end. -/
example (k : SolverKind) (junk : Junk ℚ) := hxXk.elim fun _ h =>
  c115_end_to_end (p := 0) (k := k) (junk := junk) h confk ok (by decide +kernel) cleank honestk freshk sk (by decide +kernel)
    (by decide +kernel) (backEndOptimal_of (by decide +kernel) (by decide +kernel) (by decide +kernel) optk)

/-- C115, end to end for an `InitialStateLMPC`, applies, with every back end. -/
example (k : SolverKind) (junk : Junk ℚ) : True := by
  obtain ⟨n0, h0⟩ := haY9
  obtain ⟨B, u1, u2, -, -, -, -, -, e1, e2⟩ := c99_keeps h0 Ya_eq
  obtain ⟨n, h⟩ := haYa
  have := c115_end_to_end_from (p := 0) (k := k) (junk := junk) (xhist_of_auhist h)
    (conforming_of e1 e2 (by decide +kernel) (by decide +kernel))
    (⟨⟨by decide +kernel, contractI rfl (by decide +kernel) (by decide +kernel)⟩, trivial⟩ : UOk d Ya gY (.api (.solve (envI yU true))))
    (by decide +kernel) (fun _ => trivial)
    (fun i hi hn => by rw [e1] at hn; rw [u1 i hn]; exact honestY i (B.spConstr ▸ hi) hn)
    (fun i hi hn hq => by
      rw [e2] at hn; rw [u2 i hn] at hq; rw [B.spCost] at hi ⊢; exact freshY i hi hn hq)
    sYa (by decide +kernel) (by decide +kernel)
    (backEndOptimal_of (by decide +kernel) (by decide +kernel) (by decide +kernel) optYa)
  trivial

/-- Without the new initialization the per-step trajectory cost would count twice, as after any other `solve` (C27). -/
example : ((Xt.solve (env xU true)).map fun r => r.2.2.Q.e 0 0) ≠ (X10.solve (env xU true)).map fun r => r.2.2.Q.e 0 0 := by
  decide +kernel

end Ex.User
end Copra
