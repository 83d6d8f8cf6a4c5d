import Verif.Props.AffineLaw
import Verif.Props.Tighter

/-! # C95: a constraint that is not active can be dropped -/

namespace Copra
open Spec

set_option linter.unusedSectionVars false
set_option maxRecDepth 100000

section
variable {K : Type} [Field K] [LinearOrder K] [IsStrictOrderedRing K]

namespace World

variable {d : Dims} {dmax : K} {w1 w2 w1' w2' : World K} {g1 g2 : Ghost} {p1 p2 : Nat} {e1 e2 : SolveEnv K}
  {b1 : Bool} {q1 q2 : QP K}

theorem tighter_total (T : Tighter w1 p1 w2 p2) (U : Nat → K) : totalCost d w2 p2 U = totalCost d w1 p1 U := Tighter.totalCost T U

/-- Removing a constraint leaves a controller with the same system, initial state and costs and, apart from that
constraint, the same constraints. -/
theorem c95_removeConstraint {E : World K → Op K → Prop} {w w' : World K} {g : Ghost} {i : Nat}
    (h : Hist d dmax E w g) (hs : w.step dmax (.removeConstraint i) = .ok w') (p : Nat) :
    Tighter w' p w p ∧ ∀ j ∈ w.ctl.spConstr, j ≠ i → ∃ k ∈ w'.ctl.spConstr, (w'.cons k).userData = (w.cons j).userData := by
  rw [remove_step (hist_reachable h) i] at hs
  cases hs
  refine ⟨⟨rfl, rfl, rfl, rfl, .refl _, fun j hj => ⟨j, List.mem_of_mem_erase hj, rfl⟩⟩, fun j hj hne => ⟨j, ?_, rfl⟩⟩
  exact (List.mem_erase_of_ne hne).2 hj

/-- **C95**: dropping constraints that are not active does not change the answer. The second controller has the same system,
initial state and costs as the first one, and more constraints; its solver returns a minimiser at which every
additional constraint holds with a margin. Then that minimiser is also one of the first problem, without the additional
constraints. -/
theorem c95_inactive (S1 : PlainSolve d dmax w1 g1 p1 e1 w1' b1 q1) (S2 : PlainSolve d dmax w2 g2 p2 e2 w2' true q2)
    (T : Tighter w1 p1 w2 p2) (f1 : CostsFresh d w1 g1) (f2 : CostsFresh d w2 g2)
    (o2 : IsOptimal q2 (e2.answer q2).2.e)
    (inactive : ∀ j ∈ w2.ctl.spConstr, (∃ i ∈ w1.ctl.spConstr, (w1.cons i).userData = (w2.cons j).userData) ∨
      (w2.cons j).userData.HoldsWithMargin d (Spec.traj d w2 p2 w2'.ctl.control.e) w2'.ctl.control.e)
    (r2 : w1.ctl.spBoundConstr = [] → ∀ j < d.m * d.N, |w2'.ctl.control.e j| ≤ dmax) :
    IsOptimal q1 w2'.ctl.control.e := by
  rw [← c40_control_is_answer S2.plain S2.solve] at o2
  generalize w2'.ctl.control.e = U at *
  have F1 := fun U => c30_feasible_set S1.hist (fun _ _ h => h.1) S1.allowed S1.plain S1.clean S1.honest S1.solve S1.ps U
  have F2 := fun U => c30_feasible_set S2.hist (fun _ _ h => h.1) S2.allowed S2.plain S2.clean S2.honest S2.solve S2.ps U
  obtain ⟨k1, O1⟩ := c32_objective S1.hist S1.allowed S1.plain f1 S1.solve S1.ps
  obtain ⟨k2, O2⟩ := c32_objective S2.hist S2.allowed S2.plain f2 S2.solve S2.ps
  have hU := (F2 U).1 o2.1
  have feas : Feasible q1 U := by
    refine (F1 U).2 ⟨fun i hi => ?_, fun hb j hj => abs_le.1 (r2 hb j hj)⟩
    obtain ⟨j, hj, e⟩ := T.cons i hi
    rw [← e, ← Tighter.traj T]
    exact hU.1 j hj
  have bd : w2.ctl.spBoundConstr = [] → w1.ctl.spBoundConstr = [] := by
    rw [bound_nil S1.hist.good S1.ps, bound_nil S2.hist.good S2.ps]
    intro H D hD
    obtain ⟨i, hi, e⟩ := List.mem_map.1 hD
    obtain ⟨j, hj, e'⟩ := T.cons i hi
    exact H D (List.mem_map.2 ⟨j, hj, e'.trans e⟩)
  refine ⟨feas, fun V hV => ?_⟩
  have hV1 := (F1 V).1 hV
  -- short steps towards `V` are admissible with all constraints
  obtain ⟨M1, m1, hM1⟩ := finite_bound (d.m * d.N) fun j => V j - U j
  obtain ⟨M2, m2, hM2⟩ := finite_bound (d.N + 1) fun k =>
    (finite_bound d.n fun r => Spec.traj d w2 p2 V k r - Spec.traj d w2 p2 U k r).choose
  have hM2' : ∀ k ≤ d.N, ∀ r < d.n, |Spec.traj d w2 p2 V k r - Spec.traj d w2 p2 U k r| ≤ M2 := fun k hk r hr =>
    ((finite_bound d.n fun r => Spec.traj d w2 p2 V k r - Spec.traj d w2 p2 U k r).choose_spec.2 r hr).trans
      ((le_abs_self _).trans (hM2 k (by omega)))
  have Tm : ∀ t : K, Spec.traj d w2 p2 (mix t V U) = fun k => mix t (Spec.traj d w2 p2 V k) (Spec.traj d w2 p2 U k) := by
    intro t
    funext k
    unfold Spec.traj
    have := sim_mix d (w2.pss p2).A (w2.pss p2).B (w2.pss p2).d t (w2.pss p2).x0.e (w2.pss p2).x0.e V U k
    rwa [show mix t (w2.pss p2).x0.e (w2.pss p2).x0.e = (w2.pss p2).x0.e from funext fun j => by unfold mix; ring] at this
  have L : ∃ δ, 0 < δ ∧ ∀ t : K, |t| ≤ δ → ∀ j ∈ w2.ctl.spConstr, 0 ≤ t → t ≤ 1 →
      (w2.cons j).userData.Holds d (Spec.traj d w2 p2 (mix t V U)) (mix t V U) := by
    apply list_radius
    intro j hj
    rcases inactive j hj with ⟨i, hi, e⟩ | ⟨ε, h0, H⟩
    · refine ⟨1, one_pos, fun t _ t0 t1 => ?_⟩
      rw [Tm]
      refine holds_mix t0 t1 ?_ (hU.1 j hj)
      rw [← e, Tighter.traj T]
      exact hV1.1 i hi
    · have hp : 0 < M1 + M2 + 1 := by linarith
      refine ⟨ε / (M1 + M2 + 1), div_pos h0 hp, fun t ht _ _ => H _ _ (fun k hk r hr => ?_) fun j hj => ?_⟩
      · rw [Tm]
        have e : mix t (Spec.traj d w2 p2 V k) (Spec.traj d w2 p2 U k) r - Spec.traj d w2 p2 U k r
            = t * (Spec.traj d w2 p2 V k r - Spec.traj d w2 p2 U k r) := by unfold mix; ring
        rw [e, abs_mul]
        rw [le_div_iff₀ hp] at ht
        have a := mul_le_mul_of_nonneg_left (hM2' k hk r hr) (abs_nonneg t)
        have b := mul_le_mul_of_nonneg_left (by linarith : M2 ≤ M1 + M2 + 1) (abs_nonneg t)
        linarith
      · have e : mix t V U j - U j = t * (V j - U j) := by unfold mix; ring
        rw [e, abs_mul]
        rw [le_div_iff₀ hp] at ht
        have a := mul_le_mul_of_nonneg_left (hM1 j hj) (abs_nonneg t)
        have b := mul_le_mul_of_nonneg_left (by linarith : M1 ≤ M1 + M2 + 1) (abs_nonneg t)
        linarith
  obtain ⟨δ, h0, H⟩ := L
  let t := min δ 1
  have t0 : 0 < t := lt_min h0 one_pos
  have t1 : t ≤ 1 := min_le_right _ _
  have ft : Feasible q2 (mix t V U) := by
    refine (F2 _).2 ⟨fun j hj => H t (by rw [abs_of_pos t0]; exact min_le_left _ _) j hj t0.le t1, fun hb j hj => ?_⟩
    have a := hV1.2 (bd hb) j hj
    have b := hU.2 hb j hj
    exact ⟨(ge_mix_ext (b := .fin (-dmax)) t0.le t1 a.1 b.1 :), (le_mix_ext (b := .fin dmax) t0.le t1 a.2 b.2 :)⟩
  have le := o2.2 _ ft
  rw [O2, O2] at le
  have cv := totalCost_mix (d := d) t0.le t1 (w1 := w2) (w2 := w2) (w3 := w2) (p1 := p2) (p2 := p2) (p3 := p2)
    ⟨rfl, rfl, rfl, .refl _, .refl _⟩ ⟨rfl, rfl, rfl, .refl _, .refl _⟩ (fun r _ => by unfold mix; ring)
    (registered_nonneg S2.hist fun _ _ h => h.2) V U
  rw [O1, O1, ← tighter_total T, ← tighter_total T]
  have : t * totalCost d w2 p2 U ≤ t * totalCost d w2 p2 V := by linarith
  have := le_of_mul_le_mul_left this t0
  linarith

/-- **C95**, the results: when the first solver returns a minimiser too, both controllers return the same `control()` and the
same `trajectory()`. -/
theorem c95_same_results (S1 : PlainSolve d dmax w1 g1 p1 e1 w1' true q1) (S2 : PlainSolve d dmax w2 g2 p2 e2 w2' true q2)
    (T : Tighter w1 p1 w2 p2) (f1 : CostsFresh d w1 g1) (f2 : CostsFresh d w2 g2)
    (o1 : IsOptimal q1 (e1.answer q1).2.e) (o2 : IsOptimal q2 (e2.answer q2).2.e)
    (inactive : ∀ j ∈ w2.ctl.spConstr, (∃ i ∈ w1.ctl.spConstr, (w1.cons i).userData = (w2.cons j).userData) ∨
      (w2.cons j).userData.HoldsWithMargin d (Spec.traj d w2 p2 w2'.ctl.control.e) w2'.ctl.control.e)
    (r2 : w1.ctl.spBoundConstr = [] → ∀ j < d.m * d.N, |w2'.ctl.control.e j| ≤ dmax) :
    VecEq w1'.ctl.control w2'.ctl.control ∧ VecEq w1'.ctl.trajectory w2'.ctl.trajectory := by
  have O := c95_inactive S1 S2 T f1 f2 o2 inactive r2
  have U := c29_unique_minimiser S1.hist (fun _ _ h => h.2) S1.allowed S1.plain S1.solve o1 O
  have nv : q1.nrVar = d.m * d.N := by
    obtain ⟨_, _, _, e, _, _, v⟩ := c50_solve_defined S1.hist S1.allowed
    rw [S1.solve] at e; cases e
    rw [v]; unfold numVars; rw [S1.plain]; rfl
  rw [← c40_control_is_answer S1.plain S1.solve] at U
  have c : ∀ j < d.m * d.N, w1'.ctl.control.e j = w2'.ctl.control.e j := fun j hj => U j (by rw [nv]; exact hj)
  obtain ⟨z1, T1, _⟩ := c40_success S1.hist S1.allowed S1.solve S1.ps
  obtain ⟨z2, T2, _⟩ := c40_success S2.hist S2.allowed S2.solve S2.ps
  refine ⟨⟨z1.trans z2.symm, fun j hj => c j (by rw [← z1]; exact hj)⟩, stacked_eq (T1 S1.plain).2 (T2 S2.plain).2 fun k hk r hr => ?_⟩
  rw [Tighter.traj T]
  unfold Spec.traj
  exact sim_congr d _ _ _ (fun _ _ => rfl) c k hk r hr

end World
end
end Copra
