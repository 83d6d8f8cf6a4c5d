import Verif.Props.BackTol
import Verif.Props.EndToEndExamples

/-! # C113 on concrete programs -/

namespace Copra
open Spec

set_option linter.unusedSectionVars false
set_option maxRecDepth 100000

section
variable {K : Type} [Field K] [LinearOrder K] [IsStrictOrderedRing K]

/-- A nearly optimal point of the QP given to `SI_solve` is one of the back end's problem (for OSQP: if its rows do not
underflow). -/
theorem backEndNear_of {dmax δ ε : K} {junk : Junk K} {k : SolverKind} {q : QP K} {x : Nat → K} (hw : WellSized q)
    (hi : q.nrEq + q.nrIneq + 2 * q.nrVar ≤ intMax) (hr : ∀ i < q.Aineq.rows, -dmax ≤ rowValue q.Aineq x i + δ)
    (h : NearOptimal δ ε q x) : BackEndNear dmax junk k δ ε q x := by
  refine ⟨(c113_residuals hw hi).2 ⟨h.1, fun _ => hr⟩, ?_⟩
  cases k
  case quadProgDense =>
    obtain ⟨p, hp, _, _, F, O⟩ := c41_quadProg junk hw (by omega)
    exact ⟨p, hp, fun y hy => by rw [O, O]; exact h.2 y ((F y).1 hy)⟩
  case lssol =>
    obtain ⟨p, hp, _, _, F, O⟩ := c42_lssol junk hw (by omega)
    exact ⟨p, hp, fun y hy => by rw [O, O]; exact h.2 y ((F y).1 hy)⟩
  case osqp =>
    obtain ⟨p, hp, _, _, F, O⟩ := c42_osqp dmax junk hw (by omega)
    exact ⟨p, hp, fun y hy => by rw [O, O]; exact h.2 y ((F y).1 hy).1⟩
  case qld => exact h.2
  case userDefined => exact h.2
  case gurobi => exact h.2
end

namespace Ex
open World

theorem near_of_opt {δ ε : ℚ} (hδ : 0 ≤ δ) (hε : 0 ≤ ε) {q : QP ℚ} {x : Nat → ℚ} (h : IsOptimal q x) :
    NearOptimal δ ε q x := by
  obtain ⟨f1, f2, f3, f4⟩ := feasibleWithin_zero.2 h.1
  have up : ∀ {a a' : ℚ} {b : Ext ℚ}, a' ≤ a → Ext.fin a ≤ b → Ext.fin a' ≤ b := by
    intro a a' b le h
    cases b with
    | ninf => exact h
    | pinf => trivial
    | fin t => exact le_trans le (show a ≤ t from h)
  have dn : ∀ {a a' : ℚ} {b : Ext ℚ}, a ≤ a' → b ≤ Ext.fin a → b ≤ Ext.fin a' := by
    intro a a' b le h
    cases b with
    | ninf => trivial
    | pinf => exact h
    | fin t => exact le_trans (show t ≤ a from h) le
  refine ⟨⟨fun i hi => ?_, fun i hi => up (by linarith) (f2 i hi), fun i hi => dn (by linarith) (f3 i hi),
    fun i hi => up (by linarith) (f4 i hi)⟩, fun y hy => by have := h.2 y hy; linarith⟩
  obtain ⟨t, e, a⟩ := f1 i hi
  exact ⟨t, e, le_trans a hδ⟩

/-- C113 applies with every back end, with the answer `yV` that violates the control bounds `0 <= u <= 0` by `1/1000`. -/
example (k : SolverKind) (junk : Junk ℚ) :
    ∀ i ∈ tw4.ctl.spConstr, (tw4.cons i).userData.HoldsWithin d (1 / 1000) (Spec.traj d tw4 0 rV.1.ctl.control.e) rV.1.ctl.control.e := by
  obtain ⟨g1, h1, f1, c1⟩ := htw4
  have o1 : OpOk d tw4 g1 (.solve (env yV true)) :=
    ⟨(by decide +kernel : tw4.ctl.ps ≠ none), contract rfl
      (fun h => absurd (congrArg Option.isSome h) (by decide +kernel : tw4.ctl.sol.isSome ≠ false)) (by decide +kernel)⟩
  have fw : FeasibleWithin (1 / 1000) rV.2.2 ((env yV true).answer rV.2.2).2.e := by
    refine ⟨?_, by decide +kernel, by decide +kernel, by decide +kernel⟩
    rw [(by decide +kernel : rV.2.2.Aeq.rows = 0)]
    intro i hi; omega
  have near : NearOptimal (1 / 1000) 1 rV.2.2 ((env yV true).answer rV.2.2).2.e := by
    refine ⟨fw, fun y hy => ?_⟩
    have lo := hy.2.2.1
    have up := hy.2.2.2
    have e0 : ∀ j < 2, y j = 0 := by
      intro j hj
      have a := lo j (by rw [(by decide +kernel : rV.2.2.lb.rows = 2)]; exact hj)
      have b := up j (by rw [(by decide +kernel : rV.2.2.ub.rows = 2)]; exact hj)
      rw [(by decide +kernel : ∀ j < 2, rV.2.2.lb.e j = .fin 0) j hj] at a
      rw [(by decide +kernel : ∀ j < 2, rV.2.2.ub.e j = .fin 0) j hj] at b
      exact le_antisymm b a
    have z : objective rV.2.2 y = 0 := by
      unfold objective quadValue
      rw [(by decide +kernel : rV.2.2.c.rows = 2)]
      simp only [Finset.sum_range_succ, Finset.sum_range_zero, e0 0 (by omega), e0 1 (by omega)]
      ring
    have b : objective rV.2.2 ((env yV true).answer rV.2.2).2.e ≤ 1 := by decide +kernel
    linarith
  refine (c113_end_to_end (k := k) (junk := junk) (δ := 1 / 1000) (ε := 1) h1 (fun _ _ h => h.1) o1 (by decide +kernel)
    (fun _ => c1) ?_ ?_ sV (by decide +kernel) (by decide +kernel)
    (backEndNear_of (by decide +kernel) (by decide +kernel) (by decide +kernel) near)).1
  · intro i hi
    rw [(by decide +kernel : tw4.ctl.spConstr = [5])] at hi
    simp only [List.mem_cons, List.not_mem_nil, or_false] at hi
    subst hi; exact trivial
  · intro i hi hps
    rw [(by decide +kernel : tw4.ctl.spCost = [0])] at hi ⊢
    simp only [List.mem_cons, List.not_mem_nil, or_false] at hi
    subst hi; exact ⟨f1, rfl⟩

/-- C113 applies to an `InitialStateLMPC`, with every back end. -/
example (k : SolverKind) (junk : Junk ℚ) := c113_end_to_end_init (k := k) (junk := junk) (δ := 1 / 1000) (ε := 1 / 1000) hj7
  (fun _ _ h => h.1) oJ7 (by decide +kernel) (fun _ => trivial) honestJ7 freshJ7 sJ (by decide +kernel : j7.ctl.ps = some 0)
  (by decide +kernel) (backEndNear_of (by decide +kernel) (by decide +kernel) (by decide +kernel)
    (near_of_opt (by norm_num) (by norm_num) optJ))

end Ex
end Copra
