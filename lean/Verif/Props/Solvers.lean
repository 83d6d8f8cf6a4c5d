import Verif.SpecSolvers
import Verif.Proofs.Base
import Mathlib.Tactic.Linarith
import Mathlib.Algebra.Order.Ring.Rat
import Mathlib.Algebra.Field.Rat
import Mathlib.Tactic.FinCases
import Mathlib.Tactic.IntervalCases

/-! # The solver wrappers (C41, C42, C43, C55) -/

namespace Copra
open Spec
variable {K : Type} [Field K]

set_option linter.unusedSectionVars false

/-- A block of rows of a matrix copied from another one: the row value. -/
theorem rowValue_congr {A B : Mat K} {i j : Nat} (hc : A.cols = B.cols) (h : ∀ c < A.cols, A.e i c = B.e j c) (x : Nat → K) :
    rowValue A x i = rowValue B x j := by
  unfold rowValue
  rw [← hc]
  exact Finset.sum_congr rfl fun c hcc => by rw [h c (Finset.mem_range.1 hcc)]

variable [LinearOrder K] [IsStrictOrderedRing K]

theorem Ext.neg_le_neg_iff (a : K) (b : Ext K) : Ext.fin (-a) ≤ b.neg ↔ b ≤ Ext.fin a := by
  cases b with
  | ninf => exact ⟨fun _ => trivial, fun _ => trivial⟩
  | pinf => exact ⟨fun h => h.elim, fun h => h.elim⟩
  | fin k => exact ⟨fun h => by simpa [Ext.neg, LE.le, Ext.le] using h, fun h => by simpa [Ext.neg, LE.le, Ext.le] using h⟩

/-- Splitting a quantifier over stacked rows. -/
theorem forall_lt_add {P : Nat → Prop} {a b : Nat} : (∀ i < a + b, P i) ↔ (∀ i < a, P i) ∧ ∀ i < b, P (a + i) := by
  refine ⟨fun h => ⟨fun i hi => h i (by omega), fun i hi => h _ (by omega)⟩, fun h i hi => ?_⟩
  by_cases hi' : i < a
  · exact h.1 i hi'
  · have := h.2 (i - a) (by omega)
    rwa [Nat.add_sub_cancel' (by omega)] at this

theorem rowValue_unit {A : Mat K} {i j : Nat} (s : K) (hj : j < A.cols) (h : ∀ c < A.cols, A.e i c = if j = c then s else 0) (x : Nat → K) :
    rowValue A x i = s * x j := by
  unfold rowValue
  rw [Finset.sum_eq_single j]
  · rw [h j hj, if_pos rfl]
  · intro c hc hne; rw [h c (Finset.mem_range.1 hc), if_neg (Ne.symm hne), zero_mul]
  · intro hn; exact absurd (Finset.mem_range.2 hj) hn

/-- C41: for every well-dimensioned problem (with any infinite right-hand sides and bounds) the QuadProg
wrapper performs only in-range operations, and the problem it hands to QuadProg has the announced sizes,
the same feasible set and the same objective, whatever the contents of uninitialised memory. -/
theorem c41_quadProg (junk : Junk K) {q : QP K} (hw : WellSized q) (hi : q.nrIneq + 2 * q.nrVar ≤ intMax) :
    ∃ p, quadProg junk q = some p ∧ QuadProgProblem.WellSized p ∧ p.nrVar = q.nrVar ∧
      (∀ x, QuadProgProblem.Feasible p x ↔ Feasible q x) ∧
      ∀ x, QuadProgProblem.objective p x = objective q x := by
  obtain ⟨h1, h2, h3, h4, h5, h6, h7, h8, h9, h10, h11⟩ := hw
  unfold quadProg
  apply Ok.bind; apply Ok.chkInt hi
  simp only
  apply Ok.bind; apply Ok.setBlock? (by simp) (by simp) rfl (by simp)
  apply Ok.bind; apply Ok.setBlock? (by simp; omega) (by simp [h8, h10]) (by simp) (by simp)
  apply Ok.bind; apply Ok.setBlock? (by simp; omega) (by simp [h8, h10]) (by simp) (by simp)
  apply Ok.bind; apply Ok.setSegment? (by simp) (by rw [h9, h7])
  apply Ok.bind; apply Ok.setSegment? (by simp; omega) (by rw [h11, h10])
  apply Ok.bind; apply Ok.setSegment? (by simp; omega) (by rfl)
  apply Ok.pure
  refine ⟨⟨h1, h2, h3, h4, h5, h6, ?_, h8, ?_⟩, rfl, ?_, ?_⟩
  · simp [h7, h10]
  · simp [h7, h10]
  · intro x
    simp only [QuadProgProblem.Feasible, Feasible, h4]
    refine and_congr Iff.rfl ?_
    rw [show q.nrIneq + 2 * q.nrVar = q.Aineq.rows + (q.nrVar + q.nrVar) by omega, forall_lt_add, forall_lt_add]
    refine and_congr ?_ ?_
    · refine forall₂_congr fun i hi => ?_
      refine iff_of_eq (congrArg₂ (· ≤ ·) (congrArg Ext.fin (rowValue_congr (by rfl) ?_ x)) ?_)
      · intro c hc
        simp only [Mat.setBlock_cols, Mat.resize_cols] at hc
        simp only [Mat.setBlock_e, Mat.resize_cols]
        rw [if_neg (by omega), if_neg (by omega), if_pos (by omega)]; simp
      · simp only [Vec.setSegment_e, Vec.setSegment_rows, Vec.resize_rows, h10]
        rw [if_neg (by omega), if_neg (by omega), if_pos (by omega)]; simp
    · rw [h10, h11, and_comm]
      refine and_congr (forall₂_congr fun i hi => ?_) (forall₂_congr fun i hi => ?_)
      · rw [rowValue_unit (-1) (j := i) (by simpa [h8] using hi)]
        · simp only [Vec.setSegment_e, Vec.setSegment_rows, Vec.resize_rows]
          rw [if_pos (by omega), show q.Aineq.rows + (q.nrVar + i) - (q.Aineq.rows + 2 * q.nrVar - q.nrVar) = i by omega]
          simp only [Vec.negExt, neg_one_mul]
          exact Ext.neg_le_neg_iff _ _
        · intro c hc
          simp only [Mat.setBlock_cols, Mat.resize_cols, h8] at hc
          simp only [Mat.setBlock_e]
          rw [if_pos (by omega)]
          simp only [Mat.neg_e, Mat.identity_e]
          rw [show q.Aineq.rows + (q.nrVar + i) - (q.Aineq.rows + q.nrVar) = i by omega, Nat.sub_zero]
          split <;> simp
      · rw [rowValue_unit 1 (j := i) (by simpa [h8] using hi)]
        · simp only [Vec.setSegment_e, Vec.setSegment_rows, Vec.resize_rows]
          rw [if_neg (by omega), if_pos (by omega), Nat.add_sub_cancel_left, one_mul]
        · intro c hc
          simp only [Mat.setBlock_cols, Mat.resize_cols, h8] at hc
          simp only [Mat.setBlock_e]
          rw [if_neg (by omega), if_pos (by omega)]
          simp only [Mat.identity_e]
          rw [Nat.add_sub_cancel_left, Nat.sub_zero]
  · intro x; simp only [QuadProgProblem.objective, objective, h3]

theorem Ext.le_antisymm_iff' (a : K) (b : Ext K) : (b ≤ Ext.fin a ∧ Ext.fin a ≤ b) ↔ Ext.fin a = b := by
  cases b with
  | ninf => exact ⟨fun h => h.2.elim, fun h => by cases h⟩
  | pinf => exact ⟨fun h => h.1.elim, fun h => by cases h⟩
  | fin k =>
    constructor
    · rintro ⟨h1, h2⟩
      exact congrArg _ (le_antisymm h2 h1)
    · rintro h; injection h with h; subst h; exact ⟨le_refl a, le_refl a⟩

instance {q : QP K} : Decidable (WellSized q) := by unfold WellSized; infer_instance

/-- Feasibility of a two-sided problem whose rows are the equalities followed by the inequalities. -/
theorem twoSided_feasible {q : QP K} (hw : WellSized q) {p : TwoSidedProblem K} {x : Nat → K} {lo : Ext K}
    (hn : p.nrConstr = q.nrEq + q.nrIneq) (hv : p.nrVar = q.nrVar) (hA : p.A.cols = q.nrVar)
    (a1 : ∀ i < q.nrEq, ∀ c < q.nrVar, p.A.e i c = q.Aeq.e i c)
    (a2 : ∀ i < q.nrIneq, ∀ c < q.nrVar, p.A.e (q.nrEq + i) c = q.Aineq.e i c)
    (l1 : ∀ i < q.nrEq, p.bl.e i = q.beq.e i) (l2 : ∀ i < q.nrIneq, p.bl.e (q.nrEq + i) = lo)
    (u1 : ∀ i < q.nrEq, p.bu.e i = q.beq.e i) (u2 : ∀ i < q.nrIneq, p.bu.e (q.nrEq + i) = q.bineq.e i)
    (xl : p.xl = q.lb) (xu : p.xu = q.ub) : TwoSidedProblem.Feasible p x ↔
      Feasible q x ∧ ∀ i < q.nrIneq, lo ≤ Ext.fin (rowValue q.Aineq x i) := by
  obtain ⟨h1, h2, h3, h4, h5, h6, h7, h8, h9, h10, h11⟩ := hw
  have e1 : ∀ i < q.nrEq, rowValue p.A x i = rowValue q.Aeq x i := fun i hi =>
    rowValue_congr (by rw [hA, h5]) (fun c hc => a1 i hi c (by rwa [hA] at hc)) x
  have e2 : ∀ i < q.nrIneq, rowValue p.A x (q.nrEq + i) = rowValue q.Aineq x i := fun i hi =>
    rowValue_congr (by rw [hA, h8]) (fun c hc => a2 i hi c (by rwa [hA] at hc)) x
  simp only [TwoSidedProblem.Feasible, Feasible, hn, hv, xl, xu, forall_lt_add, h4, h7, h10, h11, and_assoc]
  refine and_congr (forall₂_congr fun i hi => ?_) ?_
  · rw [e1 i hi, l1 i hi, u1 i hi]; exact Ext.le_antisymm_iff' _ _
  · constructor
    · rintro ⟨h, hb⟩
      refine ⟨fun i hi => ?_, fun j hj => (hb j hj).1, fun j hj => (hb j hj).2, fun i hi => ?_⟩
      · have := (h i hi).2; rwa [e2 i hi, u2 i hi] at this
      · have := (h i hi).1; rwa [e2 i hi, l2 i hi] at this
    · rintro ⟨h, hl, hu, hlo⟩
      exact ⟨fun i hi => by rw [e2 i hi, l2 i hi, u2 i hi]; exact ⟨hlo i hi, h i hi⟩, fun j hj => ⟨hl j hj, hu j hj⟩⟩

/-- C42, LSSOL: for every well-dimensioned problem the wrapper performs only in-range operations, and the
problem handed to LSSOL has the announced sizes, the same feasible set and the same objective. -/
theorem c42_lssol (junk : Junk K) {q : QP K} (hw : WellSized q) (hi : q.nrEq + q.nrIneq ≤ intMax) :
    ∃ p, lssol junk q = some p ∧ TwoSidedProblem.WellSized p ∧ p.nrVar = q.nrVar ∧
      (∀ x, TwoSidedProblem.Feasible p x ↔ Feasible q x) ∧
      ∀ x, TwoSidedProblem.objective p x = objective q x := by
  have hw' := hw
  obtain ⟨h1, h2, h3, h4, h5, h6, h7, h8, h9, h10, h11⟩ := hw
  unfold lssol
  apply Ok.bind; apply Ok.chkInt hi
  simp only
  apply Ok.bind; apply Ok.setBlock? (by simp [h4]) (by simp [h5]) rfl rfl
  apply Ok.bind; apply Ok.setBlock? (by simp [h4, h7]) (by simp [h5]) rfl (by rw [h8, h5])
  apply Ok.bind; apply Ok.setSegment? (by simp [h4]) (by rw [h6, h4])
  apply Ok.bind; refine ⟨q.nrEq, ?_, ?_⟩
  · unfold LMPC.cornerOff
    refine (if_pos ?_).trans (congrArg some ?_) <;> simp only [Vec.setSegment_rows, Vec.resize_rows] <;> omega
  apply Ok.bind; apply Ok.setSegment? (by simp [h7]) (by rfl)
  apply Ok.bind; apply Ok.setSegment? (by simp [h4]) (by rw [h6, h4])
  apply Ok.bind; apply Ok.setSegment? (by simp [h7]) (by rw [h9, h7])
  apply Ok.pure
  refine ⟨⟨h1, h2, h3, rfl, rfl, rfl, rfl, h10, h11⟩, rfl, fun x => ?_, fun x => ?_⟩
  · refine (twoSided_feasible hw' (lo := .ninf) rfl rfl rfl ?_ ?_ ?_ ?_ ?_ ?_ rfl rfl).trans
      (and_iff_left fun _ _ => trivial)
    all_goals
      intro i hi
      try intro c hc
      simp only [Mat.setBlock_e, Vec.setSegment_e, h4, h5, h7]
      repeat first | rw [if_pos (by omega)] | rw [if_neg (by omega)]
      simp only [Nat.add_sub_cancel_left, Nat.sub_zero, Vec.const_e]
  · simp only [TwoSidedProblem.objective, objective, h3]

/-- C42, OSQP: likewise; the feasible set is that of the given problem, minus the points one of whose inequality rows is
below `-DBL_MAX`, i.e. overflows. -/
theorem c42_osqp (dmax : K) (junk : Junk K) {q : QP K} (hw : WellSized q) (hi : q.nrEq + q.nrIneq ≤ intMax) :
    ∃ p, osqp dmax junk q = some p ∧ TwoSidedProblem.WellSized p ∧ p.nrVar = q.nrVar ∧
      (∀ x, TwoSidedProblem.Feasible p x ↔ Feasible q x ∧ ∀ i < q.Aineq.rows, -dmax ≤ rowValue q.Aineq x i) ∧
      ∀ x, TwoSidedProblem.objective p x = objective q x := by
  have hw' := hw
  obtain ⟨h1, h2, h3, h4, h5, h6, h7, h8, h9, h10, h11⟩ := hw
  unfold osqp
  apply Ok.bind; apply Ok.chkInt hi
  simp only
  apply Ok.bind; apply Ok.setBlock? (by simp) (by simp) rfl rfl
  apply Ok.bind; apply Ok.setBlock? (by simp) (by simp) rfl (by simp [h8, h5])
  apply Ok.bind; apply Ok.setSegment? (by simp) (by rw [h6, h4])
  apply Ok.bind; apply Ok.setSegment? (by simp) (by rfl)
  apply Ok.bind; apply Ok.setSegment? (by simp) (by rw [h6, h4])
  apply Ok.bind; apply Ok.setSegment? (by simp) (by rw [h9, h7])
  apply Ok.pure
  refine ⟨⟨h1, h2, h3, by simp [h4, h7], h5, by simp [h4, h7], by simp [h4, h7], h10, h11⟩, rfl, fun x => ?_, fun x => ?_⟩
  · rw [h7]
    refine twoSided_feasible hw' (lo := .fin (-dmax)) rfl rfl h5 ?_ ?_ ?_ ?_ ?_ ?_ rfl rfl
    all_goals
      intro i hi
      try intro c hc
      simp only [Mat.setBlock_e, Vec.setSegment_e, Mat.setBlock_rows, Mat.setBlock_cols, Vec.setSegment_rows, Mat.resize_rows,
        Mat.resize_cols, Vec.resize_rows, h4, h5, h7, Nat.add_sub_cancel]
      repeat first | rw [if_pos (by omega)] | rw [if_neg (by omega)]
      simp only [Nat.add_sub_cancel_left, Nat.sub_zero, Vec.const_e]
  · simp only [TwoSidedProblem.objective, objective, h3]

/-! A concrete problem with an equality, an inequality, an infinite right-hand side and half-infinite bounds. -/

/-- Two variables, one equality, two inequalities (one vacuous), bounds `0 <= x_0`, `x_1 <= 3`. -/
def exQP : QP ℚ where
  nrVar := 2
  nrEq := 1
  nrIneq := 2
  Q := .identity 2 2
  c := .zero 2
  Aeq := ⟨1, 2, fun _ _ => 1⟩
  beq := ⟨1, fun _ => .fin 1⟩
  Aineq := ⟨2, 2, fun i j => if i = j then 1 else 0⟩
  bineq := ⟨2, fun i => if i = 0 then .fin 2 else .pinf⟩
  lb := ⟨2, fun i => if i = 0 then .fin 0 else .ninf⟩
  ub := ⟨2, fun i => if i = 0 then .pinf else .fin 3⟩

theorem exQP_wellSized : WellSized exQP := by decide

/-- Uninitialised memory full of sevens. -/
def exSevens : Junk ℚ := ⟨fun _ _ _ => 7, fun _ _ => 7, fun _ _ => .fin 7⟩

example : ∃ p, quadProg exSevens exQP = some p ∧ p.nrIneq = 6 ∧
    (∀ x, QuadProgProblem.Feasible p x ↔ Feasible exQP x) := by
  obtain ⟨p, h, w, v, f, _⟩ := c41_quadProg exSevens exQP_wellSized (by decide)
  refine ⟨p, h, ?_, f⟩
  obtain ⟨h1, _⟩ : p.nrIneq = exQP.nrIneq + 2 * exQP.nrVar ∧ True := by
    revert h; simp only [quadProg]
    intro h
    simp only [Option.bind_eq_bind, Option.bind_eq_some_iff, Option.pure_def, Option.some.injEq] at h
    obtain ⟨n, hn, h⟩ := h
    have : n = exQP.nrIneq + 2 * exQP.nrVar := by
      unfold chkInt at hn; split at hn <;> simp_all
    obtain ⟨_, _, _, _, _, _, _, _, _, _, _, _, rfl⟩ := h
    exact ⟨this, trivial⟩
  rw [h1]; rfl

example : ∃ p, lssol exSevens exQP = some p ∧ ∀ x, TwoSidedProblem.Feasible p x ↔ Feasible exQP x := by
  obtain ⟨p, h, _, _, f, _⟩ := c42_lssol exSevens exQP_wellSized (by decide)
  exact ⟨p, h, f⟩

example : ∃ p, osqp 1000 exSevens exQP = some p ∧
    ∀ x, TwoSidedProblem.Feasible p x ↔ Feasible exQP x ∧ ∀ i < exQP.Aineq.rows, -1000 ≤ rowValue exQP.Aineq x i := by
  obtain ⟨p, h, _, _, f, _⟩ := c42_osqp 1000 exSevens exQP_wellSized (by decide)
  exact ⟨p, h, f⟩

/-! ## C43 -/

/-- C43: in every build configuration and for every flag that exists in it, both factories return the solver
the flag names. -/
theorem c43_factories (cfg : BuildConfig) (flag : SolverFlag) (h : flag.available cfg = true) :
    solverFactory cfg flag = namedSolver flag ∧ pythonSolverFactory cfg flag = namedSolver flag := by
  cases flag <;> simp_all [SolverFlag.available, solverFactory, pythonSolverFactory, namedSolver]

/-- C43 (which flags exist): no flag is missing from a build whose factories could return the solver it names. -/
theorem c43_flags_exist (cfg : BuildConfig) (flag : SolverFlag) :
    (solverFactory cfg flag = namedSolver flag → flag.available cfg = true) ∧
    (pythonSolverFactory cfg flag = namedSolver flag → flag.available cfg = true) := by
  obtain ⟨a, b, c, e⟩ := cfg
  cases flag <;> cases a <;> cases b <;> cases c <;> cases e <;> exact ⟨by decide, by decide⟩

example : (SolverFlag.OSQP).available ⟨false, false, true, true⟩ = true ∧
    solverFactory ⟨false, false, true, true⟩ .OSQP = .osqp := by decide

/-! ## C55 -/

/-- C55 (partial): iteration limits and warm-start flags can be read back from every wrapper that lets them be
set, that is, whose setter ever changes its settings; the feasibility tolerance from the LSSOL wrapper; QLD uses the tolerance it
was given.  Missing: the tolerance of the QLD and OSQP wrappers (`c55_false`). -/
theorem c55_settings_partial (k : SolverKind) (s : Settings K) :
    ((∃ n, setMaxIter k s n ≠ s) → ∀ n, getMaxIter k (setMaxIter k s n) = n) ∧
    ((∃ b, setWarm k s b ≠ s) → ∀ b, getWarm k (setWarm k s b) = b) ∧
    (supportsMaxIter k = true ↔ ∃ n, setMaxIter k s n ≠ s) ∧
    (supportsWarm k = true ↔ ∃ b, setWarm k s b ≠ s) ∧
    (∀ t : K, getFeasTol .lssol (setFeasTol .lssol s t) = t) ∧
    (∀ t : K, qldSolveTol (setFeasTol .qld s t) = t) := by
  refine ⟨fun h n => ?_, fun h b => ?_, ⟨fun h => ?_, fun h => ?_⟩, ⟨fun h => ?_, fun h => ?_⟩, fun t => rfl, fun t => rfl⟩
  · obtain ⟨_, h⟩ := h; cases k <;> first | rfl | exact absurd rfl h
  · obtain ⟨_, h⟩ := h; cases k <;> first | rfl | exact absurd rfl h
  · refine ⟨s.optMaxIter + 1, fun e => ?_⟩
    have := congrArg Settings.optMaxIter e
    cases k <;> first | exact absurd this (Int.ne_of_gt (Int.lt_succ _)) | cases h
  · obtain ⟨_, h⟩ := h; cases k <;> first | rfl | exact absurd rfl h
  · refine ⟨!s.warm, fun e => ?_⟩
    have := congrArg Settings.warm e
    cases k <;> first | exact absurd this (Bool.not_ne_self s.warm) | cases h
  · obtain ⟨_, h⟩ := h; cases k <;> first | rfl | exact absurd rfl h

/-- C55 for tolerances is false of the code: the QLD and OSQP wrappers have a setter but inherit the getter that
returns -1 (include/QLDSolver.h 33-41, include/OSQPSolver.h 45-59), so no tolerance other than -1 is ever read back. -/
theorem c55_false (s : Settings K) (t : K) :
    supportsFeasTol .qld = true ∧ supportsFeasTol .osqp = true ∧
    (getFeasTol .qld (setFeasTol .qld s t) = t ↔ t = -1) ∧ (getFeasTol .osqp (setFeasTol .osqp s t) = t ↔ t = -1) := by
  refine ⟨rfl, rfl, ?_, ?_⟩ <;> exact eq_comm

end Copra
