import Verif.SpecBackTol
import Verif.Props.EndToEnd
import Verif.Props.InitVariants

/-! # C113: the tolerance of a back end, through its wrapper, to the declared problem -/

namespace Copra
open Spec

set_option linter.unusedSectionVars false
set_option maxRecDepth 100000

section
variable {K : Type} [Field K] [LinearOrder K] [IsStrictOrderedRing K]

/-- The rows of the problem handed to QuadProg, under any relation: the inequalities, then the upper bounds, then the
negated lower bounds. -/
theorem quadProg_rows (junk : Junk K) {q : QP K} (hw : WellSized q) (hi : q.nrIneq + 2 * q.nrVar ≤ intMax)
    (R : K → Ext K → Prop) (x : Nat → K) :
    ∃ p, quadProg junk q = some p ∧ p.nrEq = q.nrEq ∧ p.Aeq = q.Aeq ∧ p.beq = q.beq ∧
      ((∀ i < p.nrIneq, R (rowValue p.Aineq x i) (p.bineq.e i)) ↔
        (∀ i < q.Aineq.rows, R (rowValue q.Aineq x i) (q.bineq.e i)) ∧
        (∀ j < q.ub.rows, R (x j) (q.ub.e j)) ∧ ∀ j < q.lb.rows, R (-x j) (q.lb.e j).neg) := by
  obtain ⟨h1, h2, h3, h4, h5, h6, h7, h8, h9, h10, h11⟩ := hw
  unfold quadProg
  apply Ok.bind; apply Ok.chkInt hi
  simp only
  apply Ok.bind; apply Ok.setBlock? (by simp) (by simp) rfl (by simp)
  apply Ok.bind; apply Ok.setBlock? (by simp; omega) (by simp [h8, h10]) (by simp) (by simp)
  apply Ok.bind; apply Ok.setBlock? (by simp; omega) (by simp [h8, h10]) (by simp) (by simp)
  apply Ok.bind; apply Ok.setSegment? (by simp) (by rw [h9, h7])
  apply Ok.bind; apply Ok.setSegment? (by simp; omega) (by rw [h11, h10])
  apply Ok.bind; apply Ok.setSegment? (by simp; omega) (by rfl)
  apply Ok.pure
  refine ⟨rfl, rfl, rfl, ?_⟩
  rw [show q.nrIneq + 2 * q.nrVar = q.Aineq.rows + (q.nrVar + q.nrVar) by omega, forall_lt_add, forall_lt_add]
  refine and_congr ?_ ?_
  · refine forall₂_congr fun i hi => ?_
    refine iff_of_eq (congrArg₂ R (rowValue_congr (by rfl) ?_ x) ?_)
    · intro c hc
      simp only [Mat.setBlock_cols, Mat.resize_cols] at hc
      simp only [Mat.setBlock_e, Mat.resize_cols]
      rw [if_neg (by omega), if_neg (by omega), if_pos (by omega)]; simp
    · simp only [Vec.setSegment_e, Vec.setSegment_rows, Vec.resize_rows, h10]
      rw [if_neg (by omega), if_neg (by omega), if_pos (by omega)]; simp
  · rw [h10, h11]
    refine and_congr (forall₂_congr fun i hi => ?_) (forall₂_congr fun i hi => ?_)
    · rw [rowValue_unit 1 (j := i) (by simpa [h8] using hi)]
      · simp only [Vec.setSegment_e, Vec.setSegment_rows, Vec.resize_rows]
        rw [if_neg (by omega), if_pos (by omega), Nat.add_sub_cancel_left, one_mul]
      · intro c hc
        simp only [Mat.setBlock_cols, Mat.resize_cols, h8] at hc
        simp only [Mat.setBlock_e]
        rw [if_neg (by omega), if_pos (by omega)]
        simp only [Mat.identity_e]
        rw [Nat.add_sub_cancel_left, Nat.sub_zero]
    · rw [rowValue_unit (-1) (j := i) (by simpa [h8] using hi)]
      · simp only [Vec.setSegment_e, Vec.setSegment_rows, Vec.resize_rows]
        rw [if_pos (by omega), show q.Aineq.rows + (q.nrVar + i) - (q.Aineq.rows + 2 * q.nrVar - q.nrVar) = i by omega]
        simp only [Vec.negExt, neg_one_mul]
      · intro c hc
        simp only [Mat.setBlock_cols, Mat.resize_cols, h8] at hc
        simp only [Mat.setBlock_e]
        rw [if_pos (by omega)]
        simp only [Mat.neg_e, Mat.identity_e]
        rw [show q.Aineq.rows + (q.nrVar + i) - (q.Aineq.rows + q.nrVar) = i by omega, Nat.sub_zero]
        split <;> simp

theorem within_neg {δ a : K} {b : Ext K} : RelWithin δ true (-a) b.neg ↔ b ≤ Ext.fin (a + δ) := by
  unfold RelWithin
  rw [if_pos rfl, show -a - δ = -(a + δ) by ring]
  exact Ext.neg_le_neg_iff _ _

theorem boundWithin_same {δ a : K} {b : Ext K} : BoundWithin δ b a b ↔ RelWithin δ false a b := by
  unfold BoundWithin RelWithin
  simp only [Bool.false_eq_true, if_false]
  cases b with
  | ninf => exact ⟨fun h => h.2.elim, fun ⟨t, h, _⟩ => by cases h⟩
  | pinf => exact ⟨fun h => h.1.elim, fun ⟨t, h, _⟩ => by cases h⟩
  | fin k =>
    constructor
    · rintro ⟨h1, h2⟩
      have h1' : k ≤ a + δ := h1
      have h2' : a - δ ≤ k := h2
      exact ⟨k, rfl, abs_le.2 ⟨by linarith, by linarith⟩⟩
    · rintro ⟨t, h, h2⟩
      injection h with h
      subst h
      obtain ⟨h1, h2⟩ := abs_le.1 h2
      exact ⟨show k ≤ a + δ by linarith, show a - δ ≤ k by linarith⟩

/-- Feasibility up to a tolerance of a two-sided problem whose rows are the equalities followed by the inequalities. -/
theorem twoSided_within {δ : K} {q : QP K} (hw : WellSized q) {p : TwoSidedProblem K} {x : Nat → K} {lo : Ext K}
    (hn : p.nrConstr = q.nrEq + q.nrIneq) (hv : p.nrVar = q.nrVar) (hA : p.A.cols = q.nrVar)
    (a1 : ∀ i < q.nrEq, ∀ c < q.nrVar, p.A.e i c = q.Aeq.e i c)
    (a2 : ∀ i < q.nrIneq, ∀ c < q.nrVar, p.A.e (q.nrEq + i) c = q.Aineq.e i c)
    (l1 : ∀ i < q.nrEq, p.bl.e i = q.beq.e i) (l2 : ∀ i < q.nrIneq, p.bl.e (q.nrEq + i) = lo)
    (u1 : ∀ i < q.nrEq, p.bu.e i = q.beq.e i) (u2 : ∀ i < q.nrIneq, p.bu.e (q.nrEq + i) = q.bineq.e i)
    (xl : p.xl = q.lb) (xu : p.xu = q.ub) : TwoSidedProblem.FeasibleWithin δ p x ↔
      FeasibleWithin δ q x ∧ ∀ i < q.nrIneq, lo ≤ Ext.fin (rowValue q.Aineq x i + δ) := by
  obtain ⟨h1, h2, h3, h4, h5, h6, h7, h8, h9, h10, h11⟩ := hw
  have e1 : ∀ i < q.nrEq, rowValue p.A x i = rowValue q.Aeq x i := fun i hi =>
    rowValue_congr (by rw [hA, h5]) (fun c hc => a1 i hi c (by rwa [hA] at hc)) x
  have e2 : ∀ i < q.nrIneq, rowValue p.A x (q.nrEq + i) = rowValue q.Aineq x i := fun i hi =>
    rowValue_congr (by rw [hA, h8]) (fun c hc => a2 i hi c (by rwa [hA] at hc)) x
  simp only [TwoSidedProblem.FeasibleWithin, FeasibleWithin, hn, hv, xl, xu, forall_lt_add, h4, h7, h10, h11, and_assoc]
  refine and_congr (forall₂_congr fun i hi => ?_) ?_
  · rw [e1 i hi, l1 i hi, u1 i hi, boundWithin_same]
    unfold RelWithin
    simp only [Bool.false_eq_true, if_false]
  · constructor
    · rintro ⟨h, hb⟩
      refine ⟨fun i hi => ?_, fun j hj => (hb j hj).1, fun j hj => (hb j hj).2, fun i hi => ?_⟩
      · have := (h i hi).2; rwa [e2 i hi, u2 i hi] at this
      · have := (h i hi).1; rwa [e2 i hi, l2 i hi] at this
    · rintro ⟨h, hl, hu, hlo⟩
      exact ⟨fun i hi => by rw [e2 i hi, l2 i hi, u2 i hi]; exact ⟨hlo i hi, h i hi⟩, fun j hj => ⟨hl j hj, hu j hj⟩⟩

theorem lssol_within (junk : Junk K) {q : QP K} (hw : WellSized q) (hi : q.nrEq + q.nrIneq ≤ intMax) (δ : K) (x : Nat → K) :
    ∃ p, lssol junk q = some p ∧ (TwoSidedProblem.FeasibleWithin δ p x ↔ FeasibleWithin δ q x) := by
  have hw' := hw
  obtain ⟨h1, h2, h3, h4, h5, h6, h7, h8, h9, h10, h11⟩ := hw
  unfold lssol
  apply Ok.bind; apply Ok.chkInt hi
  simp only
  apply Ok.bind; apply Ok.setBlock? (by simp [h4]) (by simp [h5]) rfl rfl
  apply Ok.bind; apply Ok.setBlock? (by simp [h4, h7]) (by simp [h5]) rfl (by rw [h8, h5])
  apply Ok.bind; apply Ok.setSegment? (by simp [h4]) (by rw [h6, h4])
  apply Ok.bind; refine ⟨q.nrEq, ?_, ?_⟩
  · unfold LMPC.cornerOff
    refine (if_pos ?_).trans (congrArg some ?_) <;> simp only [Vec.setSegment_rows, Vec.resize_rows] <;> omega
  apply Ok.bind; apply Ok.setSegment? (by simp [h7]) (by rfl)
  apply Ok.bind; apply Ok.setSegment? (by simp [h4]) (by rw [h6, h4])
  apply Ok.bind; apply Ok.setSegment? (by simp [h7]) (by rw [h9, h7])
  apply Ok.pure
  refine (twoSided_within hw' (lo := .ninf) rfl rfl rfl ?_ ?_ ?_ ?_ ?_ ?_ rfl rfl).trans
    (and_iff_left fun _ _ => trivial)
  all_goals
    intro i hi
    try intro c hc
    simp only [Mat.setBlock_e, Vec.setSegment_e, h4, h5, h7]
    repeat first | rw [if_pos (by omega)] | rw [if_neg (by omega)]
    simp only [Nat.add_sub_cancel_left, Nat.sub_zero, Vec.const_e]

theorem osqp_within (dmax : K) (junk : Junk K) {q : QP K} (hw : WellSized q) (hi : q.nrEq + q.nrIneq ≤ intMax) (δ : K)
    (x : Nat → K) :
    ∃ p, osqp dmax junk q = some p ∧ (TwoSidedProblem.FeasibleWithin δ p x ↔
      FeasibleWithin δ q x ∧ ∀ i < q.Aineq.rows, -dmax ≤ rowValue q.Aineq x i + δ) := by
  have hw' := hw
  obtain ⟨h1, h2, h3, h4, h5, h6, h7, h8, h9, h10, h11⟩ := hw
  unfold osqp
  apply Ok.bind; apply Ok.chkInt hi
  simp only
  apply Ok.bind; apply Ok.setBlock? (by simp) (by simp) rfl rfl
  apply Ok.bind; apply Ok.setBlock? (by simp) (by simp) rfl (by simp [h8, h5])
  apply Ok.bind; apply Ok.setSegment? (by simp) (by rw [h6, h4])
  apply Ok.bind; apply Ok.setSegment? (by simp) (by rfl)
  apply Ok.bind; apply Ok.setSegment? (by simp) (by rw [h6, h4])
  apply Ok.bind; apply Ok.setSegment? (by simp) (by rw [h9, h7])
  apply Ok.pure
  rw [h7]
  refine twoSided_within hw' (lo := .fin (-dmax)) rfl rfl h5 ?_ ?_ ?_ ?_ ?_ ?_ rfl rfl
  all_goals
    intro i hi
    try intro c hc
    simp only [Mat.setBlock_e, Vec.setSegment_e, Mat.setBlock_rows, Mat.setBlock_cols, Vec.setSegment_rows, Mat.resize_rows,
      Mat.resize_cols, Vec.resize_rows, h4, h5, h7, Nat.add_sub_cancel]
    repeat first | rw [if_pos (by omega)] | rw [if_neg (by omega)]
    simp only [Nat.add_sub_cancel_left, Nat.sub_zero, Vec.const_e]

/-- **C113** (residuals): for every back end, a point violates the problem the wrapper hands over by at most `δ` exactly
when it violates the problem the wrapper was given by at most `δ` (for OSQP: and no inequality row is more than `δ` below
`-DBL_MAX`). -/
theorem c113_residuals {dmax δ : K} {junk : Junk K} {k : SolverKind} {q : QP K} {x : Nat → K} (hw : WellSized q)
    (hi : q.nrEq + q.nrIneq + 2 * q.nrVar ≤ intMax) :
    BackEndResidual dmax junk k δ q x ↔
      FeasibleWithin δ q x ∧ (k = .osqp → ∀ i < q.Aineq.rows, -dmax ≤ rowValue q.Aineq x i + δ) := by
  cases k
  case quadProgDense =>
    obtain ⟨p, hp, n, a, b, R⟩ := quadProg_rows junk hw (by omega) (RelWithin δ true) x
    have h4 : q.Aeq.rows = q.nrEq := hw.2.2.2.1
    have key : QuadProgProblem.FeasibleWithin δ p x ↔ FeasibleWithin δ q x := by
      unfold QuadProgProblem.FeasibleWithin FeasibleWithin
      rw [R, n, a, b, h4]
      simp only [within_neg]
      refine and_congr ?_ (and_congr ?_ and_comm)
      · refine forall₂_congr fun i _ => ?_
        unfold RelWithin
        simp only [Bool.false_eq_true, if_false]
      · refine forall₂_congr fun i _ => ?_
        unfold RelWithin
        rw [if_pos rfl]
    constructor
    · rintro ⟨p', hp', H⟩
      rw [hp] at hp'; cases hp'
      exact ⟨key.1 H, fun h => by cases h⟩
    · rintro ⟨H, _⟩
      exact ⟨p, hp, key.2 H⟩
  case lssol =>
    obtain ⟨p, hp, key⟩ := lssol_within junk hw (by omega) δ x
    constructor
    · rintro ⟨p', hp', H⟩
      rw [hp] at hp'; cases hp'
      exact ⟨key.1 H, fun h => by cases h⟩
    · rintro ⟨H, _⟩
      exact ⟨p, hp, key.2 H⟩
  case osqp =>
    obtain ⟨p, hp, key⟩ := osqp_within dmax junk hw (by omega) δ x
    constructor
    · rintro ⟨p', hp', H⟩
      rw [hp] at hp'; cases hp'
      exact ⟨(key.1 H).1, fun _ => (key.1 H).2⟩
    · rintro ⟨H, H'⟩
      exact ⟨p, hp, key.2 ⟨H, H' rfl⟩⟩
  case qld => exact ⟨fun h => ⟨h, fun e => by cases e⟩, fun h => h.1⟩
  case userDefined => exact ⟨fun h => ⟨h, fun e => by cases e⟩, fun h => h.1⟩
  case gurobi => exact ⟨fun h => ⟨h, fun e => by cases e⟩, fun h => h.1⟩

/-- What a nearly optimal point of the back end's problem is for the QP given to `SI_solve`. -/
theorem BackEndNear.spec {dmax δ ε : K} {junk : Junk K} {k : SolverKind} {q : QP K} {x : Nat → K} (hw : WellSized q)
    (hi : q.nrEq + q.nrIneq + 2 * q.nrVar ≤ intMax) (h : BackEndNear dmax junk k δ ε q x) :
    FeasibleWithin δ q x ∧ ∀ y, Feasible q y → (k = .osqp → ∀ i < q.Aineq.rows, -dmax ≤ rowValue q.Aineq y i) →
      objective q x ≤ objective q y + ε := by
  refine ⟨((c113_residuals hw hi).1 h.1).1, ?_⟩
  have m := h.2
  cases k
  case quadProgDense =>
    obtain ⟨p, hp, hm⟩ := m
    obtain ⟨p', hp', _, _, F, O⟩ := c41_quadProg junk hw (by omega)
    rw [hp] at hp'; cases hp'
    exact fun y hy _ => by rw [← O, ← O]; exact hm y ((F y).2 hy)
  case lssol =>
    obtain ⟨p, hp, hm⟩ := m
    obtain ⟨p', hp', _, _, F, O⟩ := c42_lssol junk hw (by omega)
    rw [hp] at hp'; cases hp'
    exact fun y hy _ => by rw [← O, ← O]; exact hm y ((F y).2 hy)
  case osqp =>
    obtain ⟨p, hp, hm⟩ := m
    obtain ⟨p', hp', _, _, F, O⟩ := c42_osqp dmax junk hw (by omega)
    rw [hp] at hp'; cases hp'
    exact fun y hy hr => by rw [← O, ← O]; exact hm y ((F y).2 ⟨hy, hr rfl⟩)
  case qld => exact fun y hy _ => m y hy
  case userDefined => exact fun y hy _ => m y hy
  case gurobi => exact fun y hy _ => m y hy

namespace World
variable {d : Dims} {dmax : K} {E : World K → Op K → Prop} {w w' : World K} {g : Ghost} {env : SolveEnv K}

/-- **C113**: if the third-party back end of the controller's solver reports success with a point that violates the problem
its wrapper handed to it by at most `δ`, at a cost at most `ε` above the best of that problem, then the plan violates every
declared constraint by at most `δ`, `trajectory()` is the simulation under `control()`, and no admissible control sequence
is cheaper by more than `ε`. -/
theorem c113_end_to_end {q : QP K} {p : Nat} {k : SolverKind} {junk : Junk K} {δ ε : K} (h : Hist d dmax E w g)
    (hE : ∀ w op, E w op → NoBoundSpan w op)
    (ho : OpOk d w g (.solve env)) (hi : w.ctl.isInit = false) (hb : w.ctl.spBoundConstr = [] → g.clean)
    (hh : ∀ i ∈ w.ctl.spConstr, (w.cons i).userData.Honest) (hf : CostsFresh d w g)
    (hs : w.solve env = some (w', true, q)) (hp : w.ctl.ps = some p)
    (hn : q.nrEq + q.nrIneq + 2 * q.nrVar ≤ intMax)
    (hnear : BackEndNear dmax junk k δ ε q (env.answer q).2.e) :
    (∀ i ∈ w.ctl.spConstr,
      (w.cons i).userData.HoldsWithin d δ (Spec.traj d w p w'.ctl.control.e) w'.ctl.control.e) ∧
    (w.ctl.spBoundConstr = [] → ∀ j < d.m * d.N, -dmax ≤ w'.ctl.control.e j + δ ∧ w'.ctl.control.e j - δ ≤ dmax) ∧
    IsStacked d (Spec.traj d w p w'.ctl.control.e) w'.ctl.trajectory ∧
    ∀ V : Nat → K, (∀ i ∈ w.ctl.spConstr, (w.cons i).userData.Holds d (Spec.traj d w p V) V) →
      (∀ j < d.m * d.N, -dmax ≤ V j ∧ V j ≤ dmax) →
      (k = .osqp → ∀ i < q.Aineq.rows, -dmax ≤ rowValue q.Aineq V i) →
      totalCost d w p w'.ctl.control.e ≤ totalCost d w p V + ε := by
  obtain ⟨w'', b'', q'', hs'', _, hw, _⟩ := c50_solve_defined h ho
  rw [hs] at hs''
  obtain ⟨rfl, rfl, rfl⟩ : w' = w'' ∧ true = b'' ∧ q = q'' := by
    injection hs'' with e; injection e with e1 e2; injection e2 with e2 e3; exact ⟨e1, e2, e3⟩
  obtain ⟨hx, hm⟩ := BackEndNear.spec hw hn hnear
  have F := c30_feasible_set h hE ho hi hb hh hs hp
  obtain ⟨κ, O⟩ := c32_objective h ho hi hf hs hp
  have hc := c40_control_is_answer hi hs
  rw [← hc] at hx hm
  obtain ⟨r1, r2⟩ := (c71_residuals h hE ho hi hb hh hs hp δ _).1 hx
  refine ⟨r1, r2, ((c40_success h ho hs hp).2.1 hi).2, fun V hV hr ho => ?_⟩
  have := hm V ((F V).2 ⟨hV, fun _ => hr⟩) ho
  rw [O, O] at this
  linarith

/-- **C113** for an `InitialStateLMPC`: the returned initial state violates its bounds by at most `δ`, the plan from it
every declared constraint by at most `δ`; when that state respects its bounds, no controls admissible from it are cheaper
by more than `ε`. -/
theorem c113_end_to_end_init {q : QP K} {p : Nat} {k : SolverKind} {junk : Junk K} {δ ε : K} (h : Hist d dmax E w g)
    (hE : ∀ w op, E w op → NoBoundSpan w op)
    (ho : OpOk d w g (.solve env)) (hi : w.ctl.isInit = true) (hb : w.ctl.spBoundConstr = [] → g.clean)
    (hh : ∀ i ∈ w.ctl.spConstr, (w.cons i).userData.Honest) (hf : CostsFresh d w g)
    (hs : w.solve env = some (w', true, q)) (hp : w.ctl.ps = some p)
    (hn : q.nrEq + q.nrIneq + 2 * q.nrVar ≤ intMax)
    (hnear : BackEndNear dmax junk k δ ε q (env.answer q).2.e) :
    ∃ x : Vec K, w'.ctl.initialState (w'.pss p) = some x ∧ InitBoundsWithin d δ w.ctl x.e ∧
      IsStacked d (Spec.trajFrom d w p x.e w'.ctl.control.e) w'.ctl.trajectory ∧
      (∀ i ∈ w.ctl.spConstr,
        (w.cons i).userData.HoldsWithin d δ (Spec.trajFrom d w p x.e w'.ctl.control.e) w'.ctl.control.e) ∧
      (InitBounds d w.ctl x.e → ∀ V : Nat → K,
        (∀ i ∈ w.ctl.spConstr, (w.cons i).userData.Holds d (Spec.trajFrom d w p x.e V) V) →
        (∀ j < d.m * d.N, -dmax ≤ V j ∧ V j ≤ dmax) →
        (k = .osqp → ∀ i < q.Aineq.rows, -dmax ≤ rowValue q.Aineq (joined d x.e V) i) →
        totalCostFrom d w p x.e w'.ctl.control.e ≤ totalCostFrom d w p x.e V + ε) := by
  obtain ⟨w'', b'', q'', hs'', _, hw, hnv⟩ := c50_solve_defined h ho
  rw [hs] at hs''
  obtain ⟨rfl, rfl, rfl⟩ : w' = w'' ∧ true = b'' ∧ q = q'' := by
    injection hs'' with e; injection e with e1 e2; injection e2 with e2 e3; exact ⟨e1, e2, e3⟩
  obtain ⟨hx, hm⟩ := BackEndNear.spec hw hn hnear
  obtain ⟨x, h1, h2, h3, h4, _, h6⟩ := c47_initial_state_partial h ho hi hs hp
  have hc := ((c40_success h ho hs hp).2.2 hi).1
  obtain ⟨κ, O⟩ := c58_objective_per_state h ho hi hf hs hp x.e
  have nv : q.nrVar = d.n + d.m * d.N := by rw [hnv]; unfold numVars; rw [hi]; rfl
  have agree : ∀ j < q.nrVar, (env.answer q).2.e j = joined d x.e w'.ctl.control.e j := by
    intro j hj
    unfold joined
    split
    · next hlt => exact (h3 j hlt).symm
    · next hge =>
      rw [hc (j - d.n) (by omega)]
      congr 1; omega
  obtain ⟨a1, a2, _⟩ := (c71_residuals_init h hE ho hi hb hh hs hp δ _ _).1 ((FeasibleWithin.congr hw agree).1 hx)
  refine ⟨x, h1, a2, h4, a1, fun hxb V hV hr hos => ?_⟩
  have := hm _ ((c44_joint_feasible h hE ho hi hb hh hs hp x.e V).2 ⟨hV, hxb, fun _ => hr⟩) hos
  rw [objective.congr hw agree, O, O] at this
  linarith

end World
end
end Copra
