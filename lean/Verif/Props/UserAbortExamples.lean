import Verif.Props.UserAbort
import Verif.Props.UserExamples

/-! # C99: the program of `UserExamples` when its own classes throw -/

namespace Copra
open Spec

set_option linter.unusedSectionVars false
set_option maxRecDepth 100000

section
variable {K S : Type} [Field K]

namespace UWorld

theorem auhist_after {d : Dims} {dmax : K} {X : UWorld K S} {g : Ghost} {n : Nat × Nat} {op : UOp K S}
    (h : AUHist d dmax X g n) (ho : UOk d X g op) (hk : uokB dmax X op = true)
    (hr : RowsFit (countRows n X (uafter dmax X op) op) op) :
    AUHist d dmax (uafter dmax X op) (unext g X True op) (countRows n X (uafter dmax X op) op) := .ok h ho (uokB_step hk) hr

end UWorld
end

namespace Ex.User
open UWorld

/-- What the throwing `update` of the budget left in its object: a half-written matrix. -/
def spoiled : Rows ℚ × ℚ := (⟨1, ⟨1, 1, fun _ _ => 77⟩, ⟨0, fun _ => .fin 0⟩, ⟨0, 0, fun _ _ => 0⟩, ⟨0, fun _ => .fin 0⟩⟩, 3/2)

/-- What the throwing `update` of the smoothness cost left. -/
def spoiledK : Terms ℚ × ℚ := (⟨⟨1, 1, fun _ _ => 77⟩, Vec.zero 5, Mat.zero 0 0, Vec.zero 0, Vec.zero 0⟩, 2)

/-- The client calls `solve`; the `update` of the budget, the third constraint, throws. -/
def Xa := (X10.solveUserThrow jk (.constr 2 spoiled)).getD X10
/-- It calls `solve` again; now the `update` of the smoothness cost, the third cost, throws. -/
def Xb := (X10.solveUserThrow jk (.cost 2 spoiledK)).getD X10

theorem getD_of_isSome {α : Type} {o : Option α} {a : α} (h : o.isSome = true) : o = some (o.getD a) := by
  cases o with
  | none => cases h
  | some x => rfl

theorem Xa_eq : X10.solveUserThrow jk (.constr 2 spoiled) = some Xa := getD_of_isSome (by decide +kernel)
theorem Xb_eq : X10.solveUserThrow jk (.cost 2 spoiledK) = some Xb := getD_of_isSome (by decide +kernel)

theorem haX10 : ∃ n, AUHist d 1000 X10 gX n := by
  have a1 := auhist_after (d := d) (dmax := 1000) (op := .api opSys) (.start X0_init) ⟨⟨rfl, rfl, rfl⟩, trivial⟩ (by decide +kernel) trivial
  have a2 := auhist_after (op := .api opCtl) a1 ⟨show HasSystem X1.world 0 by unfold HasSystem; decide +kernel, trivial⟩
    (by decide +kernel : uokB 1000 X1 _ = true) trivial
  have a3 := auhist_after (op := .api (.addConstraint 0 jk)) a2 ⟨fun _ => (by decide +kernel : X2.world.ctl.spBoundConstr = []), trivial⟩
    (by decide +kernel : uokB 1000 X2 _ = true) (show _ ≤ intMax ∧ _ ≤ intMax by decide +kernel)
  have a4 := auhist_after (op := .api (.addConstraint 2 jk)) a3 ⟨fun _ => (by decide +kernel : X3.world.ctl.spBoundConstr = []), trivial⟩
    (by decide +kernel : uokB 1000 X3 _ = true) (show _ ≤ intMax ∧ _ ≤ intMax by decide +kernel)
  have a5 := auhist_after (op := .api (.addConstraint 10 jk)) a4
    ⟨fun h => absurd h (by decide +kernel : (X4.world.cons 10).kind ≠ .ctrlBound), trivial⟩ (by decide +kernel : uokB 1000 X4 _ = true)
    (show _ ≤ intMax ∧ _ ≤ intMax by decide +kernel)
  have a6 := auhist_after (op := .api (.addConstraint 11 jk)) a5
    ⟨fun h => absurd h (by decide +kernel : (X5.world.cons 11).kind ≠ .ctrlBound), trivial⟩ (by decide +kernel : uokB 1000 X5 _ = true)
    (show _ ≤ intMax ∧ _ ≤ intMax by decide +kernel)
  have a7 := auhist_after (op := .api (.addCost 0 jk)) a6 ⟨trivial, trivial⟩ (by decide +kernel : uokB 1000 X6 _ = true) trivial
  have a8 := auhist_after (op := .api (.addCost 1 jk)) a7 ⟨trivial, trivial⟩ (by decide +kernel : uokB 1000 X7 _ = true) trivial
  have a9 := auhist_after (op := .api (.addCost 10 jk)) a8 ⟨trivial, trivial⟩ (by decide +kernel : uokB 1000 X8 _ = true) trivial
  exact ⟨_, auhist_after (op := .callConstr 10 fun o => (o.1, 3/2)) a9 trivial (by decide +kernel : uokB 1000 X9 _ = true) trivial⟩

theorem haXa : ∃ n, AUHist d 1000 Xa gX n := by
  obtain ⟨n, h⟩ := haX10
  exact ⟨n, .aborted h Xa_eq⟩

/-- What the client knows in `Xb`: the costs 0 and 1 were updated. -/
theorem haXb : ∃ n, AUHist d 1000 Xb (abortGhost gX X10 (.cost 2 spoiledK)) n := by
  obtain ⟨n, h⟩ := haX10
  exact ⟨n, .aborted h Xb_eq⟩

/-- The object is in the state the exception left it in. -/
example : (constrObj Xa 10).1.A.e 0 0 = 77 ∧ (constrObj Xa 10).1.A.cols = 1 := by decide +kernel

/-- C99, no new states, applies. -/
example : ∃ X1, UHist d 1000 X1 gX ∧ AlikeButProblem Xa X1 :=
  haXa.elim fun _ h => let ⟨X1, a, b, _⟩ := c99_no_new_states h; ⟨X1, a, b⟩

/-- C99, what is left untouched, applies to both exceptions. -/
example := haX10.elim fun _ h => c99_keeps h Xa_eq
example := haX10.elim fun _ h => c99_keeps h Xb_eq

/-- C99, the objects of the authors, applies to both. -/
example := c99_updates Xa_eq psU
example := c99_updates Xb_eq psU

def ra : UWorld ℚ ℚ × Bool × QP ℚ := (Xa.solve (env xU true)).getD (Xa, false, q13)

theorem sa : Xa.solve (env xU true) = some (ra.1, true, ra.2.2) := by
  have e : (Xa.solve (env xU true)).isSome = true := by decide +kernel
  obtain ⟨r, hr⟩ := Option.isSome_iff_exists.1 e
  have h1 : ra = r := by unfold ra; rw [hr]; rfl
  have h2 : ra.2.1 = true := by decide +kernel
  rw [hr, ← h2, h1]

theorem oa : UOk d Xa gX (.api (.solve (env xU true))) :=
  ⟨⟨(by decide +kernel : Xa.world.ctl.ps ≠ none), contract rfl
    (fun h => absurd (congrArg Option.isSome h) (by decide +kernel : Xa.world.ctl.sol.isSome ≠ false)) (by decide +kernel)⟩, trivial⟩

theorem keptClass : Xa.consClass = X0.consClass ∧ Xa.costClass = X0.costClass := by
  obtain ⟨n, h⟩ := haX10
  obtain ⟨-, -, -, -, -, -, -, -, e1, e2⟩ := c99_keeps h Xa_eq
  exact ⟨e1, e2⟩

theorem confa : Conforming d Xa := conforming_of keptClass.1 keptClass.2 (by decide +kernel) (by decide +kernel)

theorem honesta : ∀ i ∈ Xa.world.ctl.spConstr, Xa.consClass i = none → (Xa.world.cons i).userData.Honest := by
  intro i hi hn
  obtain ⟨n, h⟩ := haX10
  obtain ⟨B, u, -, -, -, -, -, -, e1, -⟩ := c99_keeps h Xa_eq
  rw [e1] at hn
  rw [u i hn]
  exact honestU i (B.spConstr ▸ hi) hn

theorem fresha : ∀ i ∈ Xa.world.ctl.spCost, Xa.costClass i = none → (Xa.world.costs i).userData.PerStepState d →
    gX.fresh i ∧ Xa.world.ctl.spCost.count i = 1 := by
  intro i hi hn hq
  obtain ⟨n, h⟩ := haX10
  obtain ⟨B, -, u, -, -, -, -, -, -, e2⟩ := c99_keeps h Xa_eq
  rw [e2] at hn
  rw [u i hn] at hq
  rw [B.spCost] at hi ⊢
  exact freshU i hi hn hq

/-- C99, the next solve is defined: applies. -/
example := haXa.elim fun _ h => c99_defined h confa (returning_of keptClass.1 keptClass.2) (by unfold RowsCount; decide +kernel) oa

/-- C99, the constraints and the objective of the next solve: apply, and the budget is imposed again. -/
example : Feasible ra.2.2 (fun _ => 1 / 2) ∧ ¬ Feasible ra.2.2 (fun _ => 1) ∧
    ∀ U, Feasible ra.2.2 U ↔ AllHold d Xa ra.1 0 U ∧ (Xa.world.ctl.spBoundConstr = [] → ∀ j < d.m * d.N, -1000 ≤ U j ∧ U j ≤ 1000) :=
  ⟨by decide +kernel, by decide +kernel, haXa.elim fun _ h =>
    c99_feasible h confa oa (by decide +kernel) (fun _ => trivial) honesta sa (by decide +kernel)⟩

example := haXa.elim fun _ h => c99_objective (p := 0) h confa oa (by decide +kernel) fresha sa (by decide +kernel)

theorem opta : IsOptimal ra.2.2 ((env xU true).answer ra.2.2).2.e := by
  refine optimal_of_stationary ⟨by unfold Spec.Symmetric; decide +kernel, fun x => ?_⟩ (by decide +kernel) (by decide +kernel)
  rw [(by decide +kernel : ra.2.2.c.rows = 2)]
  simp only [Finset.sum_range_succ, Finset.sum_range_zero, (by decide +kernel : ra.2.2.Q.e 0 0 = 6000001 / 1000000),
    (by decide +kernel : ra.2.2.Q.e 0 1 = -1), (by decide +kernel : ra.2.2.Q.e 1 0 = -1),
    (by decide +kernel : ra.2.2.Q.e 1 1 = 4000001 / 1000000)]
  nlinarith [sq_nonneg (x 0 - x 1), sq_nonneg (x 0), sq_nonneg (x 1)]

/-- C99, end to end, applies, with every back end. -/
example (k : SolverKind) (junk : Junk ℚ) := haXa.elim fun _ h =>
  c99_end_to_end (p := 0) (k := k) (junk := junk) h confa oa (by decide +kernel) (fun _ => trivial) honesta fresha sa (by decide +kernel)
    (by decide +kernel) (backEndOptimal_of (by decide +kernel) (by decide +kernel) (by decide +kernel) opta)

/-- Why an exception from a cost makes the costs of the library in front of it stale: the client solves again after `Xb`,
and the trajectory cost given per step counts twice (the defect of C27). -/
example : (((Xb.solve (env xU true)).map fun r => r.2.2.Q.e 0 0) ≠ (X10.solve (env xU true)).map fun r => r.2.2.Q.e 0 0) ∧
    ((Xa.solve (env xU true)).map fun r => r.2.2.Q.e 0 0) = (X10.solve (env xU true)).map fun r => r.2.2.Q.e 0 0 := by
  decide +kernel

/-- ... and the ghost knows it. -/
example : ¬ (abortGhost gX X10 (.cost 2 spoiledK)).fresh 0 := by
  rintro ⟨-, h⟩
  apply h
  rw [(by decide +kernel : X10.world.ctl.spCost = [0, 1, 10])]
  decide +kernel

/-! ## An initial-state controller -/

def Ya := (Y9.solveUserThrow jk (.constr 2 spoiled)).getD Y9

theorem Ya_eq : Y9.solveUserThrow jk (.constr 2 spoiled) = some Ya := getD_of_isSome (by decide +kernel)

theorem haY9 : ∃ n, AUHist d 1000 Y9 gY n := by
  have a1 := auhist_after (d := d) (dmax := 1000) (op := .api opSys) (.start X0_init) ⟨⟨rfl, rfl, rfl⟩, trivial⟩ (by decide +kernel) trivial
  have a2 := auhist_after (op := .api (.constructPs true solver 0 jk)) a1
    ⟨show HasSystem X1.world 0 by unfold HasSystem; decide +kernel, trivial⟩ (by decide +kernel : uokB 1000 X1 _ = true) trivial
  have a3 := auhist_after (op := .api (.addConstraint 0 jk)) a2 ⟨fun _ => (by decide +kernel : Y2.world.ctl.spBoundConstr = []), trivial⟩
    (by decide +kernel : uokB 1000 Y2 _ = true) (show _ ≤ intMax ∧ _ ≤ intMax by decide +kernel)
  have a4 := auhist_after (op := .api (.addConstraint 2 jk)) a3 ⟨fun _ => (by decide +kernel : Y3.world.ctl.spBoundConstr = []), trivial⟩
    (by decide +kernel : uokB 1000 Y3 _ = true) (show _ ≤ intMax ∧ _ ≤ intMax by decide +kernel)
  have a5 := auhist_after (op := .api (.addConstraint 10 jk)) a4
    ⟨fun h => absurd h (by decide +kernel : (Y4.world.cons 10).kind ≠ .ctrlBound), trivial⟩ (by decide +kernel : uokB 1000 Y4 _ = true)
    (show _ ≤ intMax ∧ _ ≤ intMax by decide +kernel)
  have a6 := auhist_after (op := .api (.addCost 0 jk)) a5 ⟨trivial, trivial⟩ (by decide +kernel : uokB 1000 Y5 _ = true) trivial
  have a7 := auhist_after (op := .api (.addCost 10 jk)) a6 ⟨trivial, trivial⟩ (by decide +kernel : uokB 1000 Y6 _ = true) trivial
  have a8 := auhist_after (op := .api (.resetInitialStateCost (mat 2 2 [[1, 0], [0, 1]]) (vec [1/10, 1/5]))) a7 ⟨trivial, trivial⟩
    (by decide +kernel : uokB 1000 Y7 _ = true) trivial
  exact ⟨_, auhist_after (op := .api (.resetInitialStateBounds (evec [.fin (-5), .fin (-5)]) (evec [.fin 5, .fin 5]))) a8 ⟨trivial, trivial⟩
    (by decide +kernel : uokB 1000 Y8 _ = true) trivial⟩

theorem haYa : ∃ n, AUHist d 1000 Ya gY n := by
  obtain ⟨n, h⟩ := haY9
  exact ⟨n, .aborted h Ya_eq⟩

def rYa : UWorld ℚ ℚ × Bool × QP ℚ := (Ya.solve (envI yU true)).getD (Ya, false, q13)

theorem sYa : Ya.solve (envI yU true) = some (rYa.1, true, rYa.2.2) := by
  have e : (Ya.solve (envI yU true)).isSome = true := by decide +kernel
  obtain ⟨r, hr⟩ := Option.isSome_iff_exists.1 e
  have h1 : rYa = r := by unfold rYa; rw [hr]; rfl
  have h2 : rYa.2.1 = true := by decide +kernel
  rw [hr, ← h2, h1]

/-- The problem of the next solve is the one the client would have got without the exception: same entries. -/
theorem rYa_same : (∀ i < 4, ∀ j < 4, rYa.2.2.Q.e i j = rY.2.2.Q.e i j) ∧ (∀ i < 4, rYa.2.2.c.e i = rY.2.2.c.e i) ∧
    rYa.2.2.c.rows = 4 := by decide +kernel

theorem optYa : IsOptimal rYa.2.2 ((envI yU true).answer rYa.2.2).2.e := by
  refine optimal_of_stationary ⟨by unfold Spec.Symmetric; decide +kernel, fun x => ?_⟩ (by decide +kernel) (by decide +kernel)
  rw [(by decide +kernel : rYa.2.2.c.rows = 4)]
  have e : ∀ i < 4, ∀ j < 4, rYa.2.2.Q.e i j = (mat 4 4 [[17000009000001 / 14000008000001, 13000004000000 / 14000008000001, 1, 0],
      [13000004000000 / 14000008000001, 75000025000001 / 14000008000001, 4, 1], [1, 4, 5000001 / 1000000, -1],
      [0, 1, -1, 3000001 / 1000000]]).e i j := by decide +kernel
  simp only [Finset.sum_range_succ, Finset.sum_range_zero, e _ (by decide : 0 < 4) _ (by decide : 0 < 4), e _ (by decide : 0 < 4) _ (by decide : 1 < 4),
    e _ (by decide : 0 < 4) _ (by decide : 2 < 4), e _ (by decide : 0 < 4) _ (by decide : 3 < 4), e _ (by decide : 1 < 4) _ (by decide : 0 < 4),
    e _ (by decide : 1 < 4) _ (by decide : 1 < 4), e _ (by decide : 1 < 4) _ (by decide : 2 < 4), e _ (by decide : 1 < 4) _ (by decide : 3 < 4),
    e _ (by decide : 2 < 4) _ (by decide : 0 < 4), e _ (by decide : 2 < 4) _ (by decide : 1 < 4), e _ (by decide : 2 < 4) _ (by decide : 2 < 4),
    e _ (by decide : 2 < 4) _ (by decide : 3 < 4), e _ (by decide : 3 < 4) _ (by decide : 0 < 4), e _ (by decide : 3 < 4) _ (by decide : 1 < 4),
    e _ (by decide : 3 < 4) _ (by decide : 2 < 4), e _ (by decide : 3 < 4) _ (by decide : 3 < 4)]
  simp only [mat, List.getD_cons_zero, List.getD_cons_succ]
  have s1 := sq_nonneg (x 0 + 4 * x 1 + 5000001 / 1000000 * x 2 - x 3)
  have s2 := sq_nonneg (x 1 - x 2 + 3000001 / 1000000 * x 3)
  have s3 := sq_nonneg ((x 0 + 4 * x 1 + 5000001 / 1000000 * x 2 - x 3) + (x 1 - x 2 + 3000001 / 1000000 * x 3))
  have s4 := sq_nonneg (x 0)
  have s5 := sq_nonneg (x 1)
  nlinarith

/-- C99, end to end for an `InitialStateLMPC`, applies, with every back end. -/
example (k : SolverKind) (junk : Junk ℚ) : True := by
  obtain ⟨n0, h0⟩ := haY9
  obtain ⟨B, u1, u2, -, -, -, -, -, e1, e2⟩ := c99_keeps h0 Ya_eq
  obtain ⟨n, h⟩ := haYa
  have := c99_end_to_end_from (p := 0) (k := k) (junk := junk) h (conforming_of e1 e2 (by decide +kernel) (by decide +kernel))
    (⟨⟨by decide +kernel, contractI rfl (by decide +kernel) (by decide +kernel)⟩, trivial⟩ : UOk d Ya gY (.api (.solve (envI yU true))))
    (by decide +kernel) (fun _ => trivial)
    (fun i hi hn => by rw [e1] at hn; rw [u1 i hn]; exact honestY i (B.spConstr ▸ hi) hn)
    (fun i hi hn hq => by
      rw [e2] at hn; rw [u2 i hn] at hq; rw [B.spCost] at hi ⊢; exact freshY i hi hn hq)
    sYa (by decide +kernel) (by decide +kernel)
    (backEndOptimal_of (by decide +kernel) (by decide +kernel) (by decide +kernel) optYa)
  trivial

end Ex.User
end Copra
