import Verif.SpecScale
import Verif.Props.MeaningInit
import Verif.Props.Representation

/-! # C104: a change of units -/

namespace Copra
open Spec

set_option linter.unusedSectionVars false
set_option maxRecDepth 100000

section
variable {K : Type} [Field K] [LinearOrder K] [IsStrictOrderedRing K]

variable {d : Dims} {s : K}

/-- `s` times a vector. -/
def timesV (s : K) (x : Nat → K) (j : Nat) : K := s * x j

theorem fin_le_times (hs : 0 < s) (a : K) (b : Ext K) : Ext.fin (s * a) ≤ timesExt s b ↔ Ext.fin a ≤ b := by
  cases b with
  | ninf => exact Iff.rfl
  | pinf => exact Iff.rfl
  | fin b => exact mul_le_mul_iff_of_pos_left hs

theorem times_le_fin (hs : 0 < s) (a : K) (b : Ext K) : timesExt s b ≤ Ext.fin (s * a) ↔ b ≤ Ext.fin a := by
  cases b with
  | ninf => exact Iff.rfl
  | pinf => exact Iff.rfl
  | fin b => exact mul_le_mul_iff_of_pos_left hs

theorem rel_times (hs : 0 < s) (q : Bool) (a : K) (b : Ext K) : Spec.Rel q (s * a) (timesExt s b) ↔ Spec.Rel q a b := by
  unfold Spec.Rel
  split
  · exact fin_le_times hs a b
  · cases b with
    | ninf => exact ⟨fun h => (by cases h), fun h => (by cases h)⟩
    | pinf => exact ⟨fun h => (by cases h), fun h => (by cases h)⟩
    | fin b =>
      refine ⟨fun h => ?_, fun h => ?_⟩
      · injection h with h
        rw [mul_left_cancel₀ hs.ne' h]
      · injection h with h
        rw [h]; rfl

theorem sum_timesV (s : K) (t : Finset Nat) (e x : Nat → K) : ∑ c ∈ t, e c * timesV s x c = s * ∑ c ∈ t, e c * x c := by
  rw [Finset.mul_sum]
  exact Finset.sum_congr rfl fun c _ => by unfold timesV; ring

theorem sum2_timesV (s : K) (t t' : Finset Nat) (e X : Nat → Nat → K) :
    ∑ k ∈ t, ∑ c ∈ t', e k c * timesV s (X k) c = s * ∑ k ∈ t, ∑ c ∈ t', e k c * X k c := by
  rw [Finset.mul_sum]
  exact Finset.sum_congr rfl fun k _ => sum_timesV s t' _ _

theorem ctrl_timesV (d : Dims) (s : K) (U : Nat → K) (k : Nat) : ctrl d (timesV s U) k = timesV s (ctrl d U k) := rfl

theorem sim_timesV {A B : Mat K} {b1 b2 : Vec K} (hb : TimesUpTo s d.n b1 b2) {x1 x2 : Nat → K} (hx : ∀ r < d.n, x2 r = s * x1 r)
    (U : Nat → K) (k : Nat) : ∀ r < d.n, sim d A B b2 x2 (timesV s U) k r = s * sim d A B b1 x1 U k r := by
  induction k with
  | zero => exact hx
  | succ k ih =>
    intro r hr
    rw [sim, sim, ctrl_timesV, sum_timesV, hb r hr,
      Finset.sum_congr rfl fun c hc => show A.e r c * sim d A B b2 x2 (timesV s U) k c =
        A.e r c * timesV s (sim d A B b1 x1 U k) c by rw [ih c (Finset.mem_range.1 hc)]; rfl,
      sum_timesV]
    ring

theorem entry_lt {N m k c : Nat} (hk : k < N) (hc : c < m) : k * m + c < N * m := by
  calc k * m + c < k * m + m := by omega
    _ = (k + 1) * m := by ring
    _ ≤ N * m := Nat.mul_le_mul_right _ hk

theorem holds_times (hs : 0 < s) {X : Nat → Nat → K} {U : Nat → K} {D1 D2 : ConstrData K} (h : D1.TimesS d s D2) :
    D2.Holds d (fun k => timesV s (X k)) (timesV s U) ↔ D1.Holds d X U := by
  cases D1 <;> cases D2 <;> simp only [ConstrData.TimesS] at h
  case trajectory.trajectory q1 E1 f1 q2 E2 f2 =>
    obtain ⟨rfl, rfl, hf⟩ := h
    simp only [ConstrData.Holds]
    split
    · refine forall₂_congr fun k hk => forall₂_congr fun r hr => ?_
      rw [sum_timesV, hf r hr, rel_times hs]
    · refine forall₂_congr fun r hr => ?_
      rw [sum2_timesV s _ _ (fun k c => E2.e r (k * d.n + c)), hf r hr, rel_times hs]
  case control.control q1 G1 f1 q2 G2 f2 =>
    obtain ⟨rfl, rfl, hf⟩ := h
    simp only [ConstrData.Holds]
    split
    · refine forall₂_congr fun k hk => forall₂_congr fun r hr => ?_
      rw [ctrl_timesV, sum_timesV, hf r hr, rel_times hs]
    · refine forall₂_congr fun r hr => ?_
      simp only [ctrl_timesV]
      rw [sum2_timesV s _ _ (fun k c => G2.e r (k * d.m + c)), hf r hr, rel_times hs]
  case mixed.mixed q1 E1 G1 f1 q2 E2 G2 f2 =>
    obtain ⟨rfl, rfl, rfl, hf⟩ := h
    simp only [ConstrData.Holds]
    split
    · refine forall₂_congr fun k hk => forall₂_congr fun r hr => ?_
      rw [ctrl_timesV, sum_timesV, sum_timesV, hf r hr, ← mul_add, rel_times hs]
    · refine forall₂_congr fun r hr => ?_
      simp only [ctrl_timesV]
      rw [sum2_timesV s _ _ (fun k c => E2.e r (k * d.n + c)), sum2_timesV s _ _ (fun k c => G2.e r (k * d.m + c)), hf r hr,
        ← mul_add, rel_times hs]
  case trajBound.trajBound l1 u1 l2 u2 =>
    obtain ⟨e, hl, hu⟩ := h
    simp only [ConstrData.Holds]
    rw [e]
    unfold boundEntries at hl hu
    by_cases hc : l1.rows = d.n
    · rw [if_pos hc] at hl hu ⊢
      rw [if_pos hc]
      refine forall₂_congr fun k hk => forall₂_congr fun r hr => ?_
      rw [hl r hr, hu r hr]
      exact and_congr (times_le_fin hs _ _) (fin_le_times hs _ _)
    · rw [if_neg hc] at hl hu ⊢
      rw [if_neg hc]
      refine forall₂_congr fun k hk => forall₂_congr fun r hr => ?_
      have := entry_lt (Nat.lt_succ_of_le hk) hr
      rw [hl _ this, hu _ this]
      exact and_congr (times_le_fin hs _ _) (fin_le_times hs _ _)
  case ctrlBound.ctrlBound l1 u1 l2 u2 =>
    obtain ⟨e, hl, hu⟩ := h
    simp only [ConstrData.Holds]
    rw [e]
    unfold boundEntries at hl hu
    by_cases hc : l1.rows = d.m
    · rw [if_pos hc] at hl hu ⊢
      rw [if_pos hc]
      refine forall₂_congr fun k hk => forall₂_congr fun r hr => ?_
      rw [hl r hr, hu r hr]
      exact and_congr (times_le_fin hs _ _) (fin_le_times hs _ _)
    · rw [if_neg hc] at hl hu ⊢
      rw [if_neg hc]
      refine forall₂_congr fun k hk => forall₂_congr fun r hr => ?_
      have := entry_lt hk hr
      rw [hl _ this, hu _ this]
      exact and_congr (times_le_fin hs _ _) (fin_le_times hs _ _)

theorem wsq_times {n : Nat} {w p1 p2 : Vec K} (hp : TimesUpTo s n p1 p2) {y1 y2 : Nat → K} (hy : ∀ r < n, y2 r = s * y1 r) :
    wsq n w p2 y2 = s ^ 2 * wsq n w p1 y1 := by
  unfold wsq
  rw [Finset.mul_sum]
  refine Finset.sum_congr rfl fun r hr => ?_
  rw [hp r (Finset.mem_range.1 hr), hy r (Finset.mem_range.1 hr)]
  ring

theorem value_times {X : Nat → Nat → K} {U : Nat → K} {D1 D2 : CostData K} (h : D1.TimesS s D2) :
    D2.value d (fun k => timesV s (X k)) (timesV s U) = s ^ 2 * D1.value d X U := by
  cases D1 <;> cases D2 <;> simp only [CostData.TimesS] at h
  case trajectory.trajectory M1 p1 v1 M2 p2 v2 =>
    obtain ⟨rfl, rfl, hp⟩ := h
    simp only [CostData.value]
    split
    · rw [Finset.mul_sum]
      exact Finset.sum_congr rfl fun k _ => wsq_times hp fun r _ => sum_timesV s _ _ _
    · exact wsq_times hp fun r _ => sum2_timesV s _ _ (fun k c => M2.e r (k * d.n + c)) _
  case target.target M1 p1 v1 M2 p2 v2 =>
    obtain ⟨rfl, rfl, hp⟩ := h
    simp only [CostData.value]
    exact wsq_times hp fun r _ => sum_timesV s _ _ _
  case control.control N1 p1 v1 N2 p2 v2 =>
    obtain ⟨rfl, rfl, hp⟩ := h
    simp only [CostData.value]
    split
    · rw [Finset.mul_sum]
      exact Finset.sum_congr rfl fun k _ => wsq_times hp fun r _ => sum_timesV s _ _ _
    · exact wsq_times hp fun r _ => sum2_timesV s _ _ (fun k c => N2.e r (k * d.m + c)) _
  case mixed.mixed M1 N1 p1 v1 M2 N2 p2 v2 =>
    obtain ⟨rfl, rfl, rfl, hp⟩ := h
    simp only [CostData.value]
    split
    · rw [Finset.mul_sum]
      refine Finset.sum_congr rfl fun k _ => wsq_times hp fun r _ => ?_
      rw [ctrl_timesV, sum_timesV, sum_timesV]; ring
    · refine wsq_times hp fun r _ => ?_
      simp only [ctrl_timesV]
      rw [sum2_timesV s _ _ (fun k c => M2.e r (k * d.n + c)), sum2_timesV s _ _ (fun k c => N2.e r (k * d.m + c))]; ring

theorem timesS_bound {D1 D2 : ConstrData K} (h : D1.TimesS d s D2) :
    (∀ l u, D1 ≠ .ctrlBound l u) ↔ ∀ l u, D2 ≠ .ctrlBound l u := by
  cases D1 <;> cases D2 <;> simp only [ConstrData.TimesS] at h <;> simp

namespace World

variable {dmax : K} {w1 w2 w1' w2' : World K} {g1 g2 : Ghost} {p1 p2 : Nat} {e1 e2 : SolveEnv K} {b1 b2 : Bool} {q1 q2 : QP K}

theorem inUnits_holds (hs : 0 < s) (I : InUnits d s w1 p1 w2 p2) {X1 X2 : Nat → Nat → K}
    (hX : ∀ k ≤ d.N, ∀ r < d.n, X2 k r = s * X1 k r) (U : Nat → K) :
    (∀ i ∈ w2.ctl.spConstr, (w2.cons i).userData.Holds d X2 (timesV s U)) ↔
      ∀ i ∈ w1.ctl.spConstr, (w1.cons i).userData.Holds d X1 U := by
  obtain ⟨L, hL, F⟩ := I.cons
  have one : ∀ i j, (w1.cons i).userData.TimesS d s (w2.cons j).userData →
      ((w2.cons j).userData.Holds d X2 (timesV s U) ↔ (w1.cons i).userData.Holds d X1 U) := fun i j r => by
    rw [holds_congr_traj (X := X2) (Y := fun k => timesV s (X1 k)) hX]
    exact holds_times hs r
  constructor
  · intro h i hi
    obtain ⟨j, hj, r⟩ := forall₂_mem_left F hi
    exact (one i j r).1 (h j (hL.mem_iff.1 hj))
  · intro h j hj
    obtain ⟨i, hi, r⟩ := forall₂_mem_right F (hL.mem_iff.2 hj)
    exact (one i j r).2 (h i hi)

theorem inUnits_cost (I : InUnits d s w1 p1 w2 p2) {X1 X2 : Nat → Nat → K}
    (hX : ∀ k ≤ d.N, ∀ r < d.n, X2 k r = s * X1 k r) (U : Nat → K) :
    (w2.ctl.spCost.map fun i => (w2.costs i).userData.value d X2 (timesV s U)).sum =
      s ^ 2 * (w1.ctl.spCost.map fun i => (w1.costs i).userData.value d X1 U).sum := by
  obtain ⟨L, hL, F⟩ := I.costs
  rw [← (hL.map fun i => (w2.costs i).userData.value d X2 (timesV s U)).sum_eq, ← List.sum_map_mul_left]
  refine (forall₂_sum F fun i j r => ?_).symm
  rw [value_congr_traj (X := X2) (Y := fun k => timesV s (X1 k)) hX]
  exact (value_times r).symm

theorem inUnits_unbounded (I : InUnits d s w1 p1 w2 p2) (G1 : Good d dmax w1 g1) (G2 : Good d dmax w2 g2)
    (hp1 : w1.ctl.ps = some p1) (hp2 : w2.ctl.ps = some p2) : w2.ctl.spBoundConstr = [] ↔ w1.ctl.spBoundConstr = [] := by
  rw [bound_nil G1 hp1, bound_nil G2 hp2]
  simp only [List.mem_map, forall_exists_index, and_imp, forall_apply_eq_imp_iff₂]
  obtain ⟨L, hL, F⟩ := I.cons
  constructor
  · intro h i hi
    obtain ⟨j, hj, r⟩ := forall₂_mem_left F hi
    exact (timesS_bound r).2 (h j (hL.mem_iff.1 hj))
  · intro h j hj
    obtain ⟨i, hi, r⟩ := forall₂_mem_right F (hL.mem_iff.2 hj)
    exact (timesS_bound r).1 (h i hi)

theorem timesV_norm (s : K) (n : Nat) (U : Nat → K) : ∑ j ∈ Finset.range n, timesV s U j ^ 2 = s ^ 2 * ∑ j ∈ Finset.range n, U j ^ 2 := by
  rw [Finset.mul_sum]
  exact Finset.sum_congr rfl fun j _ => by unfold timesV; ring

theorem timesV_inv (hs : 0 < s) (U : Nat → K) : timesV s (timesV s⁻¹ U) = U := by
  funext j; unfold timesV; rw [← mul_assoc, mul_inv_cancel₀ hs.ne', one_mul]

/-- **C104** (the problems): two controllers with their own histories declare the same system, initial state, constraints and
costs, the second one in a unit that is `s` times smaller.  Then the objectives handed to the solvers satisfy
`objective2 (s U) = s² objective1 U`, and `s U` satisfies the second controller's constraints exactly when `U` satisfies
those of the first one. -/
theorem c104_same_problem (hs : 0 < s) (S1 : PlainSolve d dmax w1 g1 p1 e1 w1' b1 q1) (S2 : PlainSolve d dmax w2 g2 p2 e2 w2' b2 q2)
    (I : InUnits d s w1 p1 w2 p2) (hx : TimesUpTo s d.n (w1.pss p1).x0 (w2.pss p2).x0)
    (f1 : CostsFresh d w1 g1) (f2 : CostsFresh d w2 g2) (U : Nat → K) :
    objective q2 (timesV s U) = s ^ 2 * objective q1 U ∧
      ((w1.ctl.spBoundConstr = [] → ∀ j < d.m * d.N, (-dmax ≤ U j ∧ U j ≤ dmax) ∧ -dmax ≤ s * U j ∧ s * U j ≤ dmax) →
        (Feasible q2 (timesV s U) ↔ Feasible q1 U)) := by
  have hX : ∀ U, ∀ k ≤ d.N, ∀ r < d.n, Spec.traj d w2 p2 (timesV s U) k r = s * Spec.traj d w1 p1 U k r := by
    intro U k _ r hr
    unfold Spec.traj
    rw [I.A, I.B]
    exact sim_timesV I.bias hx U k r hr
  obtain ⟨κ1, O1⟩ := c32_objective S1.hist S1.allowed S1.plain f1 S1.solve S1.ps
  obtain ⟨κ2, O2⟩ := c32_objective S2.hist S2.allowed S2.plain f2 S2.solve S2.ps
  have tc : ∀ U, totalCost d w2 p2 (timesV s U) = s ^ 2 * totalCost d w1 p1 U := by
    intro U
    unfold totalCost
    rw [inUnits_cost I (hX U), timesV_norm]
    ring
  have z1 := O1 fun _ => 0
  have z2 := O2 (timesV s fun _ => 0)
  have zz : timesV s (fun _ => 0) = fun _ => 0 := by funext j; unfold timesV; rw [mul_zero]
  rw [tc, zz, objective_zero] at z2
  rw [objective_zero] at z1
  refine ⟨?_, fun hU => ?_⟩
  · rw [O1, O2, tc]
    have : s ^ 2 * (0 : K) = s ^ 2 * (totalCost d w1 p1 (fun _ => 0) + κ1) := by rw [← z1]
    linarith
  · rw [c30_feasible_set S1.hist (fun _ _ h => h.1) S1.allowed S1.plain S1.clean S1.honest S1.solve S1.ps,
      c30_feasible_set S2.hist (fun _ _ h => h.1) S2.allowed S2.plain S2.clean S2.honest S2.solve S2.ps,
      inUnits_holds hs I (hX U), inUnits_unbounded I S1.hist.good S2.hist.good S1.ps S2.ps]
    exact and_congr_right fun _ => ⟨fun _ h j hj => (hU h j hj).1, fun _ h j hj => (hU h j hj).2⟩

/-- The minimisers of two problems that differ by a factor. -/
theorem unique_times (hs : 0 < s) {n : Nat} {x1 x2 : Nat → K} (P : PD q1.c.rows q1.Q) (hn : q1.c.rows = n)
    (obj : ∀ y, objective q2 (timesV s y) = s ^ 2 * objective q1 y) (o1 : IsOptimal q1 x1) (o2 : IsOptimal q2 x2)
    (a1 : Feasible q2 (timesV s x1)) (a2 : Feasible q1 (timesV s⁻¹ x2)) : ∀ j < n, x2 j = s * x1 j := by
  have le := o2.2 _ a1
  have e := obj (timesV s⁻¹ x2)
  rw [timesV_inv hs] at e
  rw [obj, e] at le
  have le := le_of_mul_le_mul_left le (by positivity : (0 : K) < s ^ 2)
  have le4 := o1.2 _ (feasible_mid o1.1 a2)
  have u := pd_unique P le4 (le_trans le le4)
  intro j hj
  rw [u j (by rw [hn]; exact hj)]
  unfold timesV
  rw [← mul_assoc, mul_inv_cancel₀ hs.ne', one_mul]

/-- **C104** (the results): when both solvers succeed with minimisers, the second `control()` and `trajectory()` are `s` times
the first ones. -/
theorem c104_same_results (hs : 0 < s) (S1 : PlainSolve d dmax w1 g1 p1 e1 w1' true q1) (S2 : PlainSolve d dmax w2 g2 p2 e2 w2' true q2)
    (I : InUnits d s w1 p1 w2 p2) (hx : TimesUpTo s d.n (w1.pss p1).x0 (w2.pss p2).x0)
    (f1 : CostsFresh d w1 g1) (f2 : CostsFresh d w2 g2)
    (o1 : IsOptimal q1 (e1.answer q1).2.e) (o2 : IsOptimal q2 (e2.answer q2).2.e)
    (r1 : w1.ctl.spBoundConstr = [] → ∀ j < d.m * d.N, -dmax ≤ s * w1'.ctl.control.e j ∧ s * w1'.ctl.control.e j ≤ dmax)
    (r2 : w1.ctl.spBoundConstr = [] → ∀ j < d.m * d.N, -(s * dmax) ≤ w2'.ctl.control.e j ∧ w2'.ctl.control.e j ≤ s * dmax) :
    w2'.ctl.control.rows = w1'.ctl.control.rows ∧ (∀ j < w1'.ctl.control.rows, w2'.ctl.control.e j = s * w1'.ctl.control.e j) ∧
    w2'.ctl.trajectory.rows = w1'.ctl.trajectory.rows ∧
      ∀ j < w1'.ctl.trajectory.rows, w2'.ctl.trajectory.e j = s * w1'.ctl.trajectory.e j := by
  have ca1 := c40_control_is_answer S1.plain S1.solve
  have ca2 := c40_control_is_answer S2.plain S2.solve
  rw [← ca1] at o1
  rw [← ca2] at o2
  obtain ⟨z1, T1, _⟩ := c40_success S1.hist S1.allowed S1.solve S1.ps
  obtain ⟨z2, T2, _⟩ := c40_success S2.hist S2.allowed S2.solve S2.ps
  replace T1 := (T1 S1.plain).2
  replace T2 := (T2 S2.plain).2
  have ub := inUnits_unbounded I S1.hist.good S2.hist.good S1.ps S2.ps
  have F1 := c30_feasible_set S1.hist (fun _ _ h => h.1) S1.allowed S1.plain S1.clean S1.honest S1.solve S1.ps
  have F2 := c30_feasible_set S2.hist (fun _ _ h => h.1) S2.allowed S2.plain S2.clean S2.honest S2.solve S2.ps
  have a1 : Feasible q2 (timesV s w1'.ctl.control.e) := by
    refine ((c104_same_problem hs S1 S2 I hx f1 f2 _).2 fun h j hj => ⟨((F1 _).1 o1.1).2 h j hj, r1 h j hj⟩).2 o1.1
  have a2 : Feasible q1 (timesV s⁻¹ w2'.ctl.control.e) := by
    refine ((c104_same_problem hs S1 S2 I hx f1 f2 _).2 fun h j hj => ⟨?_, ?_⟩).1 (by rw [timesV_inv hs]; exact o2.1)
    · have := r2 h j hj
      unfold timesV
      rw [inv_mul_le_iff₀ hs, le_inv_mul_iff₀ hs, mul_neg]
      exact this
    · rw [show s * timesV s⁻¹ w2'.ctl.control.e j = w2'.ctl.control.e j from congrFun (timesV_inv hs _) j]
      exact ((F2 _).1 o2.1).2 (ub.2 h) j hj
  have nv : q1.nrVar = d.m * d.N := by
    obtain ⟨_, _, _, e, _, _, v⟩ := c50_solve_defined S1.hist S1.allowed
    rw [S1.solve] at e; cases e
    rw [v]; unfold numVars; rw [S1.plain]; rfl
  have nc : q1.c.rows = d.m * d.N := by
    obtain ⟨_, _, _, e, _, W, _⟩ := c50_solve_defined S1.hist S1.allowed
    rw [S1.solve] at e; cases e
    exact W.2.2.1.trans nv
  have P := c29_hessian S1.hist (fun _ _ h => h.2) S1.allowed S1.plain S1.solve
  rw [nv, ← nc] at P
  have hU := unique_times hs P nc (fun y => (c104_same_problem hs S1 S2 I hx f1 f2 y).1) o1 o2 a1 a2
  refine ⟨z2.trans z1.symm, fun j hj => hU j (by rw [← z1]; exact hj), T2.1.trans T1.1.symm, fun j hj => ?_⟩
  rw [T1.1] at hj
  have hn : 0 < d.n := by
    rcases Nat.eq_zero_or_pos d.n with h | h
    · rw [h, mul_zero] at hj; omega
    · exact h
  have hk : j / d.n ≤ d.N := Nat.lt_succ_iff.1 ((Nat.div_lt_iff_lt_mul hn).2 hj)
  have hr := Nat.mod_lt j hn
  have ej : j = j / d.n * d.n + j % d.n := by rw [mul_comm]; exact (Nat.div_add_mod j d.n).symm
  rw [ej, T1.2 _ _ hk hr, T2.2 _ _ hk hr]
  unfold Spec.traj
  rw [I.A, I.B, ← sim_timesV I.bias hx w1'.ctl.control.e _ _ hr]
  exact sim_congr d _ _ _ (fun _ _ => rfl) hU _ hk _ hr

/-- **C104** for an `InitialStateLMPC` (the problem): with the initial-state cost and bounds in the smaller unit too, the joint
objectives satisfy `objective2 (s x, s U) = s² objective1 (x, U)`. -/
theorem c104_same_objective_init (hs : 0 < s) (S1 : InitSolve d dmax w1 g1 p1 e1 w1' b1 q1)
    (S2 : InitSolve d dmax w2 g2 p2 e2 w2' b2 q2)
    (I : InUnits d s w1 p1 w2 p2) (J : InitInUnits d s w1.ctl w2.ctl) (inv : SameInverse d e1 e2) (y : Nat → K) :
    objective q2 (timesV s y) = s ^ 2 * objective q1 y := by
  obtain ⟨p, hp, R1⟩ := S1.hist.good.solved S1.allowed.2 S1.solve
  rw [S1.ps] at hp; cases hp
  obtain ⟨p, hp, R2⟩ := S2.hist.good.solved S2.allowed.2 S2.solve
  rw [S2.ps] at hp; cases hp
  have A1 := R1.init S1.init
  have A2 := R2.init S2.init
  have O1 : ∀ y, objective q1 y = quadValue (d.n + d.m * d.N) q1.Q q1.c y := fun y => by unfold objective; rw [A1.cr]
  have O2 : ∀ y, objective q2 y = quadValue (d.n + d.m * d.N) q2.Q q2.c y := fun y => by unfold objective; rw [A2.cr]
  have hX : ∀ x U, ∀ k ≤ d.N, ∀ r < d.n, Spec.trajFrom d w2 p2 (timesV s x) (timesV s U) k r = s * Spec.trajFrom d w1 p1 x U k r := by
    intro x U k _ r hr
    unfold Spec.trajFrom
    rw [I.A, I.B]
    exact sim_timesV I.bias (fun _ _ => rfl) U k r hr
  have tc : ∀ x U, totalCostFrom d w2 p2 (timesV s x) (timesV s U) = s ^ 2 * totalCostFrom d w1 p1 x U := by
    intro x U
    unfold totalCostFrom
    rw [inUnits_cost I (hX x U), timesV_norm]
    ring
  have tj : ∀ x U : Nat → K, timesV s (joined d x U) = joined d (timesV s x) (timesV s U) := by
    intro x U; funext j; unfold timesV joined; split <;> rfl
  have diff : ∀ x U V : Nat → K, s ^ 2 * objective q1 (joined d x U) - s ^ 2 * objective q1 (joined d x V) =
      objective q2 (timesV s (joined d x U)) - objective q2 (timesV s (joined d x V)) := by
    intro x U V
    obtain ⟨k1, h1⟩ := c58_objective_per_state S1.hist S1.allowed S1.init S1.fresh S1.solve S1.ps x
    obtain ⟨k2, h2⟩ := c58_objective_per_state S2.hist S2.allowed S2.init S2.fresh S2.solve S2.ps (timesV s x)
    rw [tj, tj, h1, h1, h2, h2, tc, tc]
    ring
  have f1 : ∀ y, quadValue (d.n + d.m * d.N) ⟨0, 0, fun i j => s ^ 2 * q1.Q.e i j⟩ ⟨0, fun i => s ^ 2 * q1.c.e i⟩ y = s ^ 2 * objective q1 y := by
    intro y
    rw [O1]; unfold quadValue
    simp only [mul_add, Finset.mul_sum]
    refine congr_arg₂ _ ?_ ?_
    · exact Finset.sum_congr rfl fun a _ => Finset.sum_congr rfl fun b _ => by ring
    · exact Finset.sum_congr rfl fun a _ => by ring
  have f2 : ∀ y, quadValue (d.n + d.m * d.N) ⟨0, 0, fun i j => s ^ 2 * q2.Q.e i j⟩ ⟨0, fun i => s * q2.c.e i⟩ y = objective q2 (timesV s y) := by
    intro y
    rw [O2]; unfold quadValue timesV
    simp only [Finset.mul_sum]
    refine congr_arg₂ _ ?_ ?_
    · exact Finset.sum_congr rfl fun a _ => Finset.sum_congr rfl fun b _ => by ring
    · exact Finset.sum_congr rfl fun a _ => by ring
  have s1 := InitSolve.symm S1
  have s2 := InitSolve.symm S2
  obtain ⟨hQ, hc⟩ := same_coefficients (n := d.n) (M := d.m * d.N) (Q1 := ⟨0, 0, fun i j => s ^ 2 * q1.Q.e i j⟩)
    (Q2 := ⟨0, 0, fun i j => s ^ 2 * q2.Q.e i j⟩) (c1 := ⟨0, fun i => s ^ 2 * q1.c.e i⟩) (c2 := ⟨0, fun i => s * q2.c.e i⟩)
    (fun a ha b hb => congrArg (s ^ 2 * ·) (s1 a ha b hb)) (fun a ha b hb => congrArg (s ^ 2 * ·) (s2 a ha b hb)) (by
      intro y z hz
      rw [f1, f1, f2, f2]
      have e : (fun j => y j + z j) = joined d y fun j => y (d.n + j) + z (d.n + j) := by
        funext j
        by_cases h : j < d.n
        · rw [joined_lt h, hz j h, add_zero]
        · obtain ⟨j, rfl⟩ := Nat.exists_eq_add_of_le (Nat.le_of_not_lt h)
          rw [joined_add]
      have e' : y = joined d y fun j => y (d.n + j) := (joined_self y).symm
      rw [e]
      have := diff y (fun j => y (d.n + j) + z (d.n + j)) fun j => y (d.n + j)
      rwa [← e'] at this)
  have ss : (s ^ 2 : K) ≠ 0 := pow_ne_zero 2 hs.ne'
  replace hQ : ∀ a < d.n + d.m * d.N, ∀ b < d.m * d.N, q1.Q.e a (d.n + b) = q2.Q.e a (d.n + b) :=
    fun a ha b hb => mul_left_cancel₀ ss (hQ a ha b hb)
  have hxx := hxx_init A1 A2 (fun a ha b hb => (J.R a ha b hb).symm) inv (S1.allowed.2.init S1.init).2.2.2.2.2
    (fun a ha b hb => hQ (d.n + a) (by omega) b hb) (fun a ha b hb => hQ a (by omega) b hb)
  rw [← f1, ← f2]
  unfold quadValue
  congr 1
  · congr 1
    apply Finset.sum_congr rfl; intro a ha
    apply Finset.sum_congr rfl; intro b hb
    rw [Finset.mem_range] at ha hb
    suffices e : q2.Q.e a b = q1.Q.e a b by
      show y a * (s ^ 2 * q2.Q.e a b) * y b = y a * (s ^ 2 * q1.Q.e a b) * y b
      rw [e]
    by_cases hb' : b < d.n
    · by_cases ha' : a < d.n
      · exact (hxx a ha' b hb').symm
      · obtain ⟨a, rfl⟩ := Nat.exists_eq_add_of_le (Nat.le_of_not_lt ha')
        rw [← s1 b hb a (by omega), ← s2 b hb a (by omega)]
        exact (hQ b hb a (by omega)).symm
    · obtain ⟨b, rfl⟩ := Nat.exists_eq_add_of_le (Nat.le_of_not_lt hb')
      exact (hQ a ha b (by omega)).symm
  · apply Finset.sum_congr rfl; intro a ha
    rw [Finset.mem_range] at ha
    congr 1
    by_cases ha' : a < d.n
    · show s * q2.c.e a = s ^ 2 * q1.c.e a
      rw [A1.cx a ha', A2.cx a ha', J.r a ha']; ring
    · obtain ⟨a, rfl⟩ := Nat.exists_eq_add_of_le (Nat.le_of_not_lt ha')
      exact (hc a (by omega)).symm

/-- **C104** for an `InitialStateLMPC` (the results). -/
theorem c104_same_results_init (hs : 0 < s) (S1 : InitSolve d dmax w1 g1 p1 e1 w1' true q1)
    (S2 : InitSolve d dmax w2 g2 p2 e2 w2' true q2)
    (I : InUnits d s w1 p1 w2 p2) (J : InitInUnits d s w1.ctl w2.ctl) (inv : SameInverse d e1 e2) (hR : PD d.n w1.ctl.R)
    (o1 : IsOptimal q1 (e1.answer q1).2.e) (o2 : IsOptimal q2 (e2.answer q2).2.e)
    (r1 : w1.ctl.spBoundConstr = [] → ∀ j < d.m * d.N, -dmax ≤ s * w1'.ctl.control.e j ∧ s * w1'.ctl.control.e j ≤ dmax)
    (r2 : w1.ctl.spBoundConstr = [] → ∀ j < d.m * d.N, -(s * dmax) ≤ w2'.ctl.control.e j ∧ w2'.ctl.control.e j ≤ s * dmax) :
    ∃ x1 x2, w1'.ctl.initialState (w1'.pss p1) = some x1 ∧ w2'.ctl.initialState (w2'.pss p2) = some x2 ∧
      x2.rows = x1.rows ∧ (∀ j < x1.rows, x2.e j = s * x1.e j) ∧
      w2'.ctl.control.rows = w1'.ctl.control.rows ∧ (∀ j < w1'.ctl.control.rows, w2'.ctl.control.e j = s * w1'.ctl.control.e j) ∧
      w2'.ctl.trajectory.rows = w1'.ctl.trajectory.rows ∧
      ∀ j < w1'.ctl.trajectory.rows, w2'.ctl.trajectory.e j = s * w1'.ctl.trajectory.e j := by
  obtain ⟨x1, h1, z1, c1, t1, a1⟩ := InitSolve.result S1
  obtain ⟨x2, h2, z2, c2, t2, a2⟩ := InitSolve.result S2
  obtain ⟨W1, n1, k1⟩ := InitSolve.sized S1
  obtain ⟨W2, n2, k2⟩ := InitSolve.sized S2
  replace o1 := optimal_ext W1 (fun j hj => (a1 j hj).symm) o1
  replace o2 := optimal_ext W2 (fun j hj => (a2 j hj).symm) o2
  have hX : ∀ x U, ∀ k ≤ d.N, ∀ r < d.n, Spec.trajFrom d w2 p2 (timesV s x) (timesV s U) k r = s * Spec.trajFrom d w1 p1 x U k r := by
    intro x U k _ r hr
    unfold Spec.trajFrom
    rw [I.A, I.B]
    exact sim_timesV I.bias (fun _ _ => rfl) U k r hr
  have ub := inUnits_unbounded I S1.hist.good S2.hist.good S1.ps S2.ps
  have tj : ∀ (t : K) (x U : Nat → K), timesV t (joined d x U) = joined d (timesV t x) (timesV t U) := by
    intro t x U; funext j; unfold timesV joined; split <;> rfl
  have bd : ∀ x, InitBounds d w2.ctl (timesV s x) ↔ InitBounds d w1.ctl x := by
    intro x
    refine forall₂_congr fun j hj => ?_
    rw [J.x0lb j hj, J.x0ub j hj]
    exact and_congr (times_le_fin hs _ _) (fin_le_times hs _ _)
  obtain ⟨A1, B1, C1⟩ := (InitSolve.feasible S1 _ _).1 o1.1
  obtain ⟨A2, B2, C2⟩ := (InitSolve.feasible S2 _ _).1 o2.1
  have g1 : Feasible q2 (timesV s (joined d x1.e w1'.ctl.control.e)) := by
    rw [tj]
    exact (InitSolve.feasible S2 _ _).2 ⟨(inUnits_holds hs I (hX _ _) _).2 A1, (bd _).2 B1, fun h => r1 (ub.1 h)⟩
  have g2 : Feasible q1 (timesV s⁻¹ (joined d x2.e w2'.ctl.control.e)) := by
    rw [tj]
    refine (InitSolve.feasible S1 _ _).2 ⟨(inUnits_holds hs I (hX _ _) _).1 (by rw [timesV_inv hs, timesV_inv hs]; exact A2),
      (bd _).1 (by rw [timesV_inv hs]; exact B2), fun h j hj => ?_⟩
    have := r2 h j hj
    unfold timesV
    rw [inv_mul_le_iff₀ hs, le_inv_mul_iff₀ hs, mul_neg]
    exact this
  have P := (c45_hessian_partial S1.hist (fun _ _ h => h.2) S1.allowed S1.init S1.inverse S1.solve).2 hR
  rw [n1, ← k1] at P
  have h := unique_times hs P k1 (c104_same_objective_init hs S1 S2 I J inv) o1 o2 g1 g2
  have hx : ∀ j < d.n, x2.e j = s * x1.e j := fun j hj => by
    have := h j (by omega)
    rwa [joined_lt hj, joined_lt hj] at this
  have hU : ∀ j < d.m * d.N, w2'.ctl.control.e j = s * w1'.ctl.control.e j := fun j hj => by
    have := h (d.n + j) (by omega)
    rwa [joined_add, joined_add] at this
  refine ⟨x1, x2, h1, h2, z2.trans z1.symm, fun j hj => hx j (by rw [← z1]; exact hj), c2.trans c1.symm,
    fun j hj => hU j (by rw [← c1]; exact hj), t2.1.trans t1.1.symm, fun j hj => ?_⟩
  rw [t1.1] at hj
  have hn : 0 < d.n := by
    rcases Nat.eq_zero_or_pos d.n with h | h
    · rw [h, mul_zero] at hj; omega
    · exact h
  have hk : j / d.n ≤ d.N := Nat.lt_succ_iff.1 ((Nat.div_lt_iff_lt_mul hn).2 hj)
  have hr := Nat.mod_lt j hn
  have ej : j = j / d.n * d.n + j % d.n := by rw [mul_comm]; exact (Nat.div_add_mod j d.n).symm
  rw [ej, t1.2 _ _ hk hr, t2.2 _ _ hk hr, ← hX x1.e w1'.ctl.control.e _ hk _ hr]
  unfold Spec.trajFrom
  exact sim_congr d _ _ _ hx hU _ hk _ hr

end World
end
end Copra
