import Verif.SpecPlants
import Verif.Props.Scale
import Verif.Props.InitRemoval

/-! # C105: plants that do not interact are controlled independently -/

namespace Copra
open Spec

set_option linter.unusedSectionVars false
set_option maxRecDepth 100000

section
variable {K : Type} [Field K] [LinearOrder K] [IsStrictOrderedRing K]

theorem partU_at {width off m k c : Nat} (hc : c < m) (U : Nat → K) : partU width off m U (k * m + c) = U (k * width + (off + c)) := by
  unfold partU
  have hm : 0 < m := by omega
  rw [mul_comm k m, Nat.mul_add_div hm, Nat.div_eq_of_lt hc, Nat.mul_add_mod, Nat.mod_eq_of_lt hc, Nat.add_zero]

theorem step_split {m N j : Nat} (hj : j < m * N) : ∃ k < N, ∃ c < m, j = k * m + c := by
  have hm : 0 < m := by
    rcases Nat.eq_zero_or_pos m with h | h
    · rw [h, zero_mul] at hj; omega
    · exact h
  exact ⟨j / m, (Nat.div_lt_iff_lt_mul hm).2 (by rw [mul_comm]; exact hj), j % m, Nat.mod_lt j hm, by
    rw [mul_comm]; exact (Nat.div_add_mod j m).symm⟩

theorem bothU_at1 {m1 m2 k c : Nat} (hc : c < m1) (U1 U2 : Nat → K) : bothU m1 m2 U1 U2 (k * (m1 + m2) + c) = U1 (k * m1 + c) := by
  unfold bothU
  have hm : 0 < m1 + m2 := by omega
  rw [mul_comm k (m1 + m2), Nat.mul_add_div hm, Nat.div_eq_of_lt (by omega : c < m1 + m2), Nat.mul_add_mod,
    Nat.mod_eq_of_lt (by omega : c < m1 + m2), if_pos hc, Nat.add_zero]

theorem bothU_at2 {m1 m2 k c : Nat} (hc : c < m2) (U1 U2 : Nat → K) :
    bothU m1 m2 U1 U2 (k * (m1 + m2) + (m1 + c)) = U2 (k * m2 + c) := by
  unfold bothU
  have hm : 0 < m1 + m2 := by omega
  rw [mul_comm k (m1 + m2), Nat.mul_add_div hm, Nat.div_eq_of_lt (by omega : m1 + c < m1 + m2), Nat.mul_add_mod,
    Nat.mod_eq_of_lt (by omega : m1 + c < m1 + m2), if_neg (by omega), Nat.add_zero, Nat.add_sub_cancel_left]

theorem part_both1 {m1 m2 N : Nat} (U1 U2 : Nat → K) : ∀ j < m1 * N, partU (m1 + m2) 0 m1 (bothU m1 m2 U1 U2) j = U1 j := by
  intro j hj
  obtain ⟨k, _, c, hc, rfl⟩ := step_split hj
  rw [partU_at hc, Nat.zero_add, bothU_at1 hc]

theorem part_both2 {m1 m2 N : Nat} (U1 U2 : Nat → K) : ∀ j < m2 * N, partU (m1 + m2) m1 m2 (bothU m1 m2 U1 U2) j = U2 j := by
  intro j hj
  obtain ⟨k, _, c, hc, rfl⟩ := step_split hj
  rw [partU_at hc, bothU_at2 hc]

theorem sum_steps (m N : Nat) (f : Nat → K) :
    ∑ j ∈ Finset.range (m * N), f j = ∑ k ∈ Finset.range N, ∑ c ∈ Finset.range m, f (k * m + c) := by
  induction N with
  | zero => simp
  | succ N ih =>
    rw [Nat.mul_succ, Finset.sum_range_add, ih, Finset.sum_range_succ]
    simp only [mul_comm N m]

theorem norm_parts (m1 m2 N : Nat) (U : Nat → K) : ∑ j ∈ Finset.range ((m1 + m2) * N), U j ^ 2 =
    (∑ j ∈ Finset.range (m1 * N), partU (m1 + m2) 0 m1 U j ^ 2) + ∑ j ∈ Finset.range (m2 * N), partU (m1 + m2) m1 m2 U j ^ 2 := by
  rw [sum_steps, sum_steps, sum_steps, ← Finset.sum_add_distrib]
  refine Finset.sum_congr rfl fun k _ => ?_
  rw [Finset.sum_range_add]
  congr 1
  · refine Finset.sum_congr rfl fun c hc => ?_
    rw [partU_at (Finset.mem_range.1 hc), Nat.zero_add]
  · refine Finset.sum_congr rfl fun c hc => ?_
    rw [partU_at (Finset.mem_range.1 hc)]

theorem sum_diagonal1 {r1 r2 c1 c2 : Nat} {M M1 M2 : Mat K} (h : Diagonal r1 r2 c1 c2 M M1 M2) (x : Nat → K) {i : Nat} (hi : i < r1) :
    ∑ j ∈ Finset.range (c1 + c2), M.e i j * x j = ∑ j ∈ Finset.range c1, M1.e i j * x j := by
  rw [Finset.sum_range_add, Finset.sum_eq_zero (s := Finset.range c2), add_zero]
  · exact Finset.sum_congr rfl fun j hj => by rw [h.1 i hi j (Finset.mem_range.1 hj)]
  · intro j hj; rw [h.2.2.1 i hi j (Finset.mem_range.1 hj), zero_mul]

theorem sum_diagonal2 {r1 r2 c1 c2 : Nat} {M M1 M2 : Mat K} (h : Diagonal r1 r2 c1 c2 M M1 M2) (x : Nat → K) {i : Nat} (hi : i < r2) :
    ∑ j ∈ Finset.range (c1 + c2), M.e (r1 + i) j * x j = ∑ j ∈ Finset.range c2, M2.e i j * x (c1 + j) := by
  rw [Finset.sum_range_add, Finset.sum_eq_zero (s := Finset.range c1), zero_add]
  · exact Finset.sum_congr rfl fun j hj => by rw [h.2.1 i hi j (Finset.mem_range.1 hj)]
  · intro j hj; rw [h.2.2.2 i hi j (Finset.mem_range.1 hj), zero_mul]

variable {n1 n2 m1 m2 N : Nat}

theorem sim_parts {A A1 A2 B B1 B2 : Mat K} {b b1 b2 : Vec K} (hA : Diagonal n1 n2 n1 n2 A A1 A2) (hB : Diagonal n1 n2 m1 m2 B B1 B2)
    (hb : Stacked2 n1 n2 b b1 b2) {x x1 x2 : Nat → K} (hx1 : ∀ r < n1, x r = x1 r) (hx2 : ∀ r < n2, x (n1 + r) = x2 r) (U : Nat → K)
    (k : Nat) :
    (∀ r < n1, sim (bothDims n1 n2 m1 m2 N) A B b x U k r = sim ⟨n1, m1, N⟩ A1 B1 b1 x1 (partU (m1 + m2) 0 m1 U) k r) ∧
    ∀ r < n2, sim (bothDims n1 n2 m1 m2 N) A B b x U k (n1 + r) = sim ⟨n2, m2, N⟩ A2 B2 b2 x2 (partU (m1 + m2) m1 m2 U) k r := by
  induction k with
  | zero => exact ⟨hx1, hx2⟩
  | succ k ih =>
    refine ⟨fun r hr => ?_, fun r hr => ?_⟩
    · rw [sim, sim]
      show (∑ c ∈ Finset.range (n1 + n2), A.e r c * _) + (∑ c ∈ Finset.range (m1 + m2), B.e r c * _) + _ = _
      rw [sum_diagonal1 hA _ hr, sum_diagonal1 hB _ hr, hb.1 r hr]
      congr 2
      · exact Finset.sum_congr rfl fun c hc => by rw [ih.1 c (Finset.mem_range.1 hc)]
      · refine Finset.sum_congr rfl fun c hc => ?_
        show _ * U (k * (m1 + m2) + c) = _ * partU (m1 + m2) 0 m1 U (k * m1 + c)
        rw [partU_at (Finset.mem_range.1 hc), Nat.zero_add]
    · rw [sim, sim]
      show (∑ c ∈ Finset.range (n1 + n2), A.e (n1 + r) c * _) + (∑ c ∈ Finset.range (m1 + m2), B.e (n1 + r) c * _) + _ = _
      rw [sum_diagonal2 hA _ hr, sum_diagonal2 hB _ hr, hb.2 r hr]
      congr 2
      · exact Finset.sum_congr rfl fun c hc => by rw [ih.2 c (Finset.mem_range.1 hc)]
      · refine Finset.sum_congr rfl fun c hc => ?_
        show _ * U (k * (m1 + m2) + (m1 + c)) = _ * partU (m1 + m2) m1 m2 U (k * m2 + c)
        rw [partU_at (Finset.mem_range.1 hc)]

theorem traj_parts {w1 w2 w : World K} {p1 p2 p : Nat} (T : TwoPlants n1 n2 m1 m2 N w1 p1 w2 p2 w p) (U : Nat → K) (k : Nat) :
    (∀ r < n1, partX 0 (Spec.traj (bothDims n1 n2 m1 m2 N) w p U) k r = Spec.traj ⟨n1, m1, N⟩ w1 p1 (partU (m1 + m2) 0 m1 U) k r) ∧
    ∀ r < n2, partX n1 (Spec.traj (bothDims n1 n2 m1 m2 N) w p U) k r = Spec.traj ⟨n2, m2, N⟩ w2 p2 (partU (m1 + m2) m1 m2 U) k r := by
  obtain ⟨a, b⟩ := sim_parts (N := N) T.A T.B T.bias T.x0.1 T.x0.2 U k
  refine ⟨fun r hr => ?_, b⟩
  unfold partX
  rw [Nat.zero_add]
  exact a r hr

namespace World

variable {dmax : K} {w1 w2 w w1' w2' w' : World K} {g1 g2 g : Ghost} {p1 p2 p : Nat} {e1 e2 e : SolveEnv K} {b1 b2 b : Bool}
  {q1 q2 q : QP K}

theorem PlainSolve.sized {d : Dims} (S : PlainSolve d dmax w g p e w' b q) : WellSized q ∧ q.nrVar = d.m * d.N ∧ q.c.rows = d.m * d.N := by
  obtain ⟨_, _, _, h, _, W, v⟩ := c50_solve_defined S.hist S.allowed
  rw [S.solve] at h; cases h
  have nv : q.nrVar = d.m * d.N := by rw [v]; unfold numVars; rw [S.plain]; rfl
  exact ⟨W, nv, W.2.2.1.trans nv⟩

theorem PlainSolve.objective_eq {d : Dims} (S : PlainSolve d dmax w g p e w' b q) (f : CostsFresh d w g) (U : Nat → K) :
    objective q U = totalCost d w p U - totalCost d w p fun _ => 0 := by
  obtain ⟨κ, O⟩ := c32_objective S.hist S.allowed S.plain f S.solve S.ps
  have z := O fun _ => 0
  rw [objective_zero] at z
  rw [O]; linarith

/-- **C105** (the problems): the objective of the joint problem is the sum of the objectives of the two controllers, and joint
controls are feasible exactly when both parts are. -/
theorem c105_same_problem (S1 : PlainSolve ⟨n1, m1, N⟩ dmax w1 g1 p1 e1 w1' b1 q1) (S2 : PlainSolve ⟨n2, m2, N⟩ dmax w2 g2 p2 e2 w2' b2 q2)
    (S : PlainSolve (bothDims n1 n2 m1 m2 N) dmax w g p e w' b q) (T : TwoPlants n1 n2 m1 m2 N w1 p1 w2 p2 w p)
    (f1 : CostsFresh ⟨n1, m1, N⟩ w1 g1) (f2 : CostsFresh ⟨n2, m2, N⟩ w2 g2) (f : CostsFresh (bothDims n1 n2 m1 m2 N) w g) (U : Nat → K) :
    objective q U = objective q1 (partU (m1 + m2) 0 m1 U) + objective q2 (partU (m1 + m2) m1 m2 U) ∧
      ((∀ j < (m1 + m2) * N, -dmax ≤ U j ∧ U j ≤ dmax) →
        (Feasible q U ↔ Feasible q1 (partU (m1 + m2) 0 m1 U) ∧ Feasible q2 (partU (m1 + m2) m1 m2 U))) := by
  have tc : ∀ U, totalCost (bothDims n1 n2 m1 m2 N) w p U =
      totalCost ⟨n1, m1, N⟩ w1 p1 (partU (m1 + m2) 0 m1 U) + totalCost ⟨n2, m2, N⟩ w2 p2 (partU (m1 + m2) m1 m2 U) := by
    intro U
    unfold totalCost
    rw [T.costs, show (bothDims n1 n2 m1 m2 N).m * (bothDims n1 n2 m1 m2 N).N = (m1 + m2) * N from rfl, norm_parts]
    have c1 : (w1.ctl.spCost.map fun i => (w1.costs i).userData.value ⟨n1, m1, N⟩ (partX 0 (Spec.traj (bothDims n1 n2 m1 m2 N) w p U))
        (partU (m1 + m2) 0 m1 U)).sum = (w1.ctl.spCost.map fun i => (w1.costs i).userData.value ⟨n1, m1, N⟩
        (Spec.traj ⟨n1, m1, N⟩ w1 p1 (partU (m1 + m2) 0 m1 U)) (partU (m1 + m2) 0 m1 U)).sum := by
      congr 1
      exact List.map_congr_left fun i _ => value_congr_traj (fun k _ => (traj_parts T U k).1) _
    have c2 : (w2.ctl.spCost.map fun i => (w2.costs i).userData.value ⟨n2, m2, N⟩ (partX n1 (Spec.traj (bothDims n1 n2 m1 m2 N) w p U))
        (partU (m1 + m2) m1 m2 U)).sum = (w2.ctl.spCost.map fun i => (w2.costs i).userData.value ⟨n2, m2, N⟩
        (Spec.traj ⟨n2, m2, N⟩ w2 p2 (partU (m1 + m2) m1 m2 U)) (partU (m1 + m2) m1 m2 U)).sum := by
      congr 1
      exact List.map_congr_left fun i _ => value_congr_traj (fun k _ => (traj_parts T U k).2) _
    rw [c1, c2]
    ring
  refine ⟨?_, fun hU => ?_⟩
  · rw [PlainSolve.objective_eq S f, PlainSolve.objective_eq S1 f1, PlainSolve.objective_eq S2 f2, tc, tc]
    have z : ∀ a b c, partU a b c (fun _ => (0 : K)) = fun _ => 0 := fun _ _ _ => rfl
    rw [z, z]; ring
  · have h1 : ∀ j < m1 * N, -dmax ≤ partU (m1 + m2) 0 m1 U j ∧ partU (m1 + m2) 0 m1 U j ≤ dmax := by
      intro j hj
      obtain ⟨k, hk, c, hc, rfl⟩ := step_split hj
      rw [partU_at hc]
      exact hU _ (by rw [mul_comm (m1 + m2) N]; exact entry_lt hk (by omega))
    have h2 : ∀ j < m2 * N, -dmax ≤ partU (m1 + m2) m1 m2 U j ∧ partU (m1 + m2) m1 m2 U j ≤ dmax := by
      intro j hj
      obtain ⟨k, hk, c, hc, rfl⟩ := step_split hj
      rw [partU_at hc]
      exact hU _ (by rw [mul_comm (m1 + m2) N]; exact entry_lt hk (by omega))
    rw [c30_feasible_set S.hist (fun _ _ h => h.1) S.allowed S.plain S.clean S.honest S.solve S.ps,
      c30_feasible_set S1.hist (fun _ _ h => h.1) S1.allowed S1.plain S1.clean S1.honest S1.solve S1.ps,
      c30_feasible_set S2.hist (fun _ _ h => h.1) S2.allowed S2.plain S2.clean S2.honest S2.solve S2.ps, T.cons]
    have k1 : ∀ i, ((w1.cons i).userData.Holds ⟨n1, m1, N⟩ (partX 0 (Spec.traj (bothDims n1 n2 m1 m2 N) w p U)) (partU (m1 + m2) 0 m1 U) ↔
        (w1.cons i).userData.Holds ⟨n1, m1, N⟩ (Spec.traj ⟨n1, m1, N⟩ w1 p1 (partU (m1 + m2) 0 m1 U)) (partU (m1 + m2) 0 m1 U)) :=
      fun i => holds_congr_traj (fun k _ => (traj_parts T U k).1) _
    have k2 : ∀ i, ((w2.cons i).userData.Holds ⟨n2, m2, N⟩ (partX n1 (Spec.traj (bothDims n1 n2 m1 m2 N) w p U)) (partU (m1 + m2) m1 m2 U) ↔
        (w2.cons i).userData.Holds ⟨n2, m2, N⟩ (Spec.traj ⟨n2, m2, N⟩ w2 p2 (partU (m1 + m2) m1 m2 U)) (partU (m1 + m2) m1 m2 U)) :=
      fun i => holds_congr_traj (fun k _ => (traj_parts T U k).2) _
    simp only [k1, k2]
    exact ⟨fun h => ⟨⟨h.1.1, fun _ => h1⟩, h.1.2, fun _ => h2⟩, fun h => ⟨⟨h.1.1, h.2.1⟩, fun _ => hU⟩⟩

/-- **C105** (the results): when the solvers of the two controllers and of the joint one succeed with minimisers, the joint
controller returns, at every step, the controls and the states of the two controllers side by side. -/
theorem c105_same_results (S1 : PlainSolve ⟨n1, m1, N⟩ dmax w1 g1 p1 e1 w1' true q1)
    (S2 : PlainSolve ⟨n2, m2, N⟩ dmax w2 g2 p2 e2 w2' true q2)
    (S : PlainSolve (bothDims n1 n2 m1 m2 N) dmax w g p e w' true q) (T : TwoPlants n1 n2 m1 m2 N w1 p1 w2 p2 w p)
    (f1 : CostsFresh ⟨n1, m1, N⟩ w1 g1) (f2 : CostsFresh ⟨n2, m2, N⟩ w2 g2) (f : CostsFresh (bothDims n1 n2 m1 m2 N) w g)
    (o1 : IsOptimal q1 (e1.answer q1).2.e) (o2 : IsOptimal q2 (e2.answer q2).2.e) (o : IsOptimal q (e.answer q).2.e)
    (r1 : ∀ j < m1 * N, -dmax ≤ w1'.ctl.control.e j ∧ w1'.ctl.control.e j ≤ dmax)
    (r2 : ∀ j < m2 * N, -dmax ≤ w2'.ctl.control.e j ∧ w2'.ctl.control.e j ≤ dmax)
    (r : ∀ j < (m1 + m2) * N, -dmax ≤ w'.ctl.control.e j ∧ w'.ctl.control.e j ≤ dmax) :
    (∀ k < N, (∀ c < m1, w'.ctl.control.e (k * (m1 + m2) + c) = w1'.ctl.control.e (k * m1 + c)) ∧
      ∀ c < m2, w'.ctl.control.e (k * (m1 + m2) + (m1 + c)) = w2'.ctl.control.e (k * m2 + c)) ∧
    ∀ k ≤ N, (∀ i < n1, w'.ctl.trajectory.e (k * (n1 + n2) + i) = w1'.ctl.trajectory.e (k * n1 + i)) ∧
      ∀ i < n2, w'.ctl.trajectory.e (k * (n1 + n2) + (n1 + i)) = w2'.ctl.trajectory.e (k * n2 + i) := by
  rw [← c40_control_is_answer S1.plain S1.solve] at o1
  rw [← c40_control_is_answer S2.plain S2.solve] at o2
  rw [← c40_control_is_answer S.plain S.solve] at o
  obtain ⟨W1, v1, _⟩ := PlainSolve.sized S1
  obtain ⟨W2, v2, _⟩ := PlainSolve.sized S2
  obtain ⟨_, v, vc⟩ := PlainSolve.sized S
  have jn := c105_same_problem S1 S2 S T f1 f2 f
  have pb1 := part_both1 (m1 := m1) (m2 := m2) (N := N) w1'.ctl.control.e w2'.ctl.control.e
  have pb2 := part_both2 (m1 := m1) (m2 := m2) (N := N) w1'.ctl.control.e w2'.ctl.control.e
  have rb : ∀ j < (m1 + m2) * N, -dmax ≤ bothU m1 m2 w1'.ctl.control.e w2'.ctl.control.e j ∧
      bothU m1 m2 w1'.ctl.control.e w2'.ctl.control.e j ≤ dmax := by
    intro j hj
    obtain ⟨k, hk, c, hc, rfl⟩ := step_split hj
    by_cases h : c < m1
    · rw [bothU_at1 h]; exact r1 _ (by rw [mul_comm m1 N]; exact entry_lt hk h)
    · obtain ⟨c, rfl⟩ := Nat.exists_eq_add_of_le (Nat.le_of_not_lt h)
      rw [bothU_at2 (by omega)]; exact r2 _ (by rw [mul_comm m2 N]; exact entry_lt hk (by omega))
  have fb : Feasible q (bothU m1 m2 w1'.ctl.control.e w2'.ctl.control.e) :=
    ((jn _).2 rb).2 ⟨feasible_ext W1 (fun j hj => (pb1 j (by rw [← v1]; exact hj)).symm) o1.1,
      feasible_ext W2 (fun j hj => (pb2 j (by rw [← v2]; exact hj)).symm) o2.1⟩
  obtain ⟨fl, fr⟩ := ((jn _).2 r).1 o.1
  have le : objective q (bothU m1 m2 w1'.ctl.control.e w2'.ctl.control.e) ≤ objective q w'.ctl.control.e := by
    rw [(jn _).1, (jn _).1, objective_ext W1 fun j hj => pb1 j (by rw [← v1]; exact hj),
      objective_ext W2 fun j hj => pb2 j (by rw [← v2]; exact hj)]
    exact add_le_add (o1.2 _ fl) (o2.2 _ fr)
  have P := c29_hessian S.hist (fun _ _ h => h.2) S.allowed S.plain S.solve
  rw [v, ← vc] at P
  have le4 := o.2 _ (feasible_mid o.1 fb)
  have u := pd_unique P le4 (le_trans le le4)
  have hU : ∀ k < N, ∀ c < m1 + m2, w'.ctl.control.e (k * (m1 + m2) + c) =
      bothU m1 m2 w1'.ctl.control.e w2'.ctl.control.e (k * (m1 + m2) + c) := fun k hk c hc =>
    u _ (by rw [vc]; show _ < (m1 + m2) * N; rw [mul_comm (m1 + m2) N]; exact entry_lt hk hc)
  have c1 : ∀ k < N, ∀ c < m1, w'.ctl.control.e (k * (m1 + m2) + c) = w1'.ctl.control.e (k * m1 + c) := fun k hk c hc => by
    rw [hU k hk c (by omega), bothU_at1 hc]
  have c2 : ∀ k < N, ∀ c < m2, w'.ctl.control.e (k * (m1 + m2) + (m1 + c)) = w2'.ctl.control.e (k * m2 + c) := fun k hk c hc => by
    rw [hU k hk _ (by omega), bothU_at2 hc]
  obtain ⟨_, T1, _⟩ := c40_success S1.hist S1.allowed S1.solve S1.ps
  obtain ⟨_, T2, _⟩ := c40_success S2.hist S2.allowed S2.solve S2.ps
  obtain ⟨_, T3, _⟩ := c40_success S.hist S.allowed S.solve S.ps
  replace T1 := (T1 S1.plain).2
  replace T2 := (T2 S2.plain).2
  replace T3 := (T3 S.plain).2
  refine ⟨fun k hk => ⟨c1 k hk, c2 k hk⟩, fun k hk => ⟨fun i hi => ?_, fun i hi => ?_⟩⟩
  · have a := T3.2 k i hk (show i < n1 + n2 by omega)
    have b := T1.2 k i hk hi
    refine a.trans (Eq.trans ?_ b.symm)
    have := (traj_parts T w'.ctl.control.e k).1 i hi
    unfold partX at this
    rw [Nat.zero_add] at this
    rw [this]
    refine sim_congr ⟨n1, m1, N⟩ _ _ _ (fun _ _ => rfl) (fun j hj => ?_) k hk i hi
    obtain ⟨k, hk, c, hc, rfl⟩ := step_split hj
    rw [partU_at hc, Nat.zero_add, c1 k hk c hc]
  · have a := T3.2 k (n1 + i) hk (show n1 + i < n1 + n2 by omega)
    have b := T2.2 k i hk hi
    refine a.trans (Eq.trans ?_ b.symm)
    have := (traj_parts T w'.ctl.control.e k).2 i hi
    unfold partX at this
    rw [this]
    refine sim_congr ⟨n2, m2, N⟩ _ _ _ (fun _ _ => rfl) (fun j hj => ?_) k hk i hi
    obtain ⟨k, hk, c, hc, rfl⟩ := step_split hj
    rw [partU_at hc, c2 k hk c hc]

/-! ## Initial-state controllers -/

theorem trajFrom_parts (T : TwoPlants n1 n2 m1 m2 N w1 p1 w2 p2 w p) {x x1 x2 : Nat → K} (hx1 : ∀ r < n1, x r = x1 r)
    (hx2 : ∀ r < n2, x (n1 + r) = x2 r) (U : Nat → K) (k : Nat) :
    (∀ r < n1, partX 0 (Spec.trajFrom (bothDims n1 n2 m1 m2 N) w p x U) k r =
      Spec.trajFrom ⟨n1, m1, N⟩ w1 p1 x1 (partU (m1 + m2) 0 m1 U) k r) ∧
    ∀ r < n2, partX n1 (Spec.trajFrom (bothDims n1 n2 m1 m2 N) w p x U) k r =
      Spec.trajFrom ⟨n2, m2, N⟩ w2 p2 x2 (partU (m1 + m2) m1 m2 U) k r := by
  obtain ⟨a, b⟩ := sim_parts (N := N) T.A T.B T.bias hx1 hx2 U k
  refine ⟨fun r hr => ?_, b⟩
  unfold partX
  rw [Nat.zero_add]
  exact a r hr

theorem initBounds_parts {l l1 l2 : LMPC K} (hl : Stacked2 n1 n2 l.x0lb l1.x0lb l2.x0lb) (hu : Stacked2 n1 n2 l.x0ub l1.x0ub l2.x0ub)
    {x x1 x2 : Nat → K} (hx1 : ∀ r < n1, x r = x1 r) (hx2 : ∀ r < n2, x (n1 + r) = x2 r) :
    InitBounds (bothDims n1 n2 m1 m2 N) l x ↔ InitBounds ⟨n1, m1, N⟩ l1 x1 ∧ InitBounds ⟨n2, m2, N⟩ l2 x2 := by
  unfold InitBounds
  constructor
  · intro h
    refine ⟨fun j hj => ?_, fun j hj => ?_⟩
    · have hj : j < n1 := hj
      have := h j (show j < n1 + n2 by omega)
      rwa [hl.1 j hj, hu.1 j hj, hx1 j hj] at this
    · have hj : j < n2 := hj
      have := h (n1 + j) (show n1 + j < n1 + n2 by omega)
      rwa [hl.2 j hj, hu.2 j hj, hx2 j hj] at this
  · rintro ⟨a, b⟩ j hj
    have hj : j < n1 + n2 := hj
    by_cases h : j < n1
    · rw [hl.1 j h, hu.1 j h, hx1 j h]; exact a j h
    · obtain ⟨j, rfl⟩ := Nat.exists_eq_add_of_le (Nat.le_of_not_lt h)
      have hj : j < n2 := by omega
      rw [hl.2 j hj, hu.2 j hj, hx2 j hj]; exact b j hj

/-- **C105** (feasibility, initial-state controllers): with the initial-state bounds of both plants one after the other, an initial
state of both plants and joint controls are feasible for the joint controller exactly when both parts are for their own. -/
theorem c105_feasible_init (S1 : InitSolve ⟨n1, m1, N⟩ dmax w1 g1 p1 e1 w1' b1 q1) (S2 : InitSolve ⟨n2, m2, N⟩ dmax w2 g2 p2 e2 w2' b2 q2)
    (S : InitSolve (bothDims n1 n2 m1 m2 N) dmax w g p e w' b q) (T : TwoPlants n1 n2 m1 m2 N w1 p1 w2 p2 w p)
    (hl : Stacked2 n1 n2 w.ctl.x0lb w1.ctl.x0lb w2.ctl.x0lb) (hu : Stacked2 n1 n2 w.ctl.x0ub w1.ctl.x0ub w2.ctl.x0ub)
    {x x1 x2 : Nat → K} (hx1 : ∀ r < n1, x r = x1 r) (hx2 : ∀ r < n2, x (n1 + r) = x2 r) {U : Nat → K}
    (hU : ∀ j < (m1 + m2) * N, -dmax ≤ U j ∧ U j ≤ dmax) :
    Feasible q (joined (bothDims n1 n2 m1 m2 N) x U) ↔
      Feasible q1 (joined ⟨n1, m1, N⟩ x1 (partU (m1 + m2) 0 m1 U)) ∧ Feasible q2 (joined ⟨n2, m2, N⟩ x2 (partU (m1 + m2) m1 m2 U)) := by
  have h1 : ∀ j < m1 * N, -dmax ≤ partU (m1 + m2) 0 m1 U j ∧ partU (m1 + m2) 0 m1 U j ≤ dmax := by
    intro j hj
    obtain ⟨k, hk, c, hc, rfl⟩ := step_split hj
    rw [partU_at hc]
    exact hU _ (by rw [mul_comm (m1 + m2) N]; exact entry_lt hk (by omega))
  have h2 : ∀ j < m2 * N, -dmax ≤ partU (m1 + m2) m1 m2 U j ∧ partU (m1 + m2) m1 m2 U j ≤ dmax := by
    intro j hj
    obtain ⟨k, hk, c, hc, rfl⟩ := step_split hj
    rw [partU_at hc]
    exact hU _ (by rw [mul_comm (m1 + m2) N]; exact entry_lt hk (by omega))
  rw [InitSolve.feasible S, InitSolve.feasible S1, InitSolve.feasible S2, T.cons, initBounds_parts hl hu hx1 hx2]
  have k1 : ∀ i, ((w1.cons i).userData.Holds ⟨n1, m1, N⟩ (partX 0 (Spec.trajFrom (bothDims n1 n2 m1 m2 N) w p x U)) (partU (m1 + m2) 0 m1 U) ↔
      (w1.cons i).userData.Holds ⟨n1, m1, N⟩ (Spec.trajFrom ⟨n1, m1, N⟩ w1 p1 x1 (partU (m1 + m2) 0 m1 U)) (partU (m1 + m2) 0 m1 U)) :=
    fun i => holds_congr_traj (fun k _ => (trajFrom_parts T hx1 hx2 U k).1) _
  have k2 : ∀ i, ((w2.cons i).userData.Holds ⟨n2, m2, N⟩ (partX n1 (Spec.trajFrom (bothDims n1 n2 m1 m2 N) w p x U)) (partU (m1 + m2) m1 m2 U) ↔
      (w2.cons i).userData.Holds ⟨n2, m2, N⟩ (Spec.trajFrom ⟨n2, m2, N⟩ w2 p2 x2 (partU (m1 + m2) m1 m2 U)) (partU (m1 + m2) m1 m2 U)) :=
    fun i => holds_congr_traj (fun k _ => (trajFrom_parts T hx1 hx2 U k).2) _
  simp only [k1, k2]
  exact ⟨fun h => ⟨⟨h.1.1, h.2.1.1, fun _ => h1⟩, h.1.2, h.2.1.2, fun _ => h2⟩,
    fun h => ⟨⟨h.1.1, h.2.1⟩, ⟨h.1.2.1, h.2.2.1⟩, fun _ => hU⟩⟩

/-- **C105** (objective, initial-state controllers): for an initial state of both plants, the joint objective ranks joint controls by
the sum of the two objectives. -/
theorem c105_objective_init (S1 : InitSolve ⟨n1, m1, N⟩ dmax w1 g1 p1 e1 w1' b1 q1) (S2 : InitSolve ⟨n2, m2, N⟩ dmax w2 g2 p2 e2 w2' b2 q2)
    (S : InitSolve (bothDims n1 n2 m1 m2 N) dmax w g p e w' b q) (T : TwoPlants n1 n2 m1 m2 N w1 p1 w2 p2 w p)
    {x x1 x2 : Nat → K} (hx1 : ∀ r < n1, x r = x1 r) (hx2 : ∀ r < n2, x (n1 + r) = x2 r) (U V : Nat → K) :
    objective q (joined (bothDims n1 n2 m1 m2 N) x U) - objective q (joined (bothDims n1 n2 m1 m2 N) x V) =
      (objective q1 (joined ⟨n1, m1, N⟩ x1 (partU (m1 + m2) 0 m1 U)) - objective q1 (joined ⟨n1, m1, N⟩ x1 (partU (m1 + m2) 0 m1 V))) +
      (objective q2 (joined ⟨n2, m2, N⟩ x2 (partU (m1 + m2) m1 m2 U)) - objective q2 (joined ⟨n2, m2, N⟩ x2 (partU (m1 + m2) m1 m2 V))) := by
  have tc : ∀ U, totalCostFrom (bothDims n1 n2 m1 m2 N) w p x U = totalCostFrom ⟨n1, m1, N⟩ w1 p1 x1 (partU (m1 + m2) 0 m1 U) +
      totalCostFrom ⟨n2, m2, N⟩ w2 p2 x2 (partU (m1 + m2) m1 m2 U) := by
    intro U
    unfold totalCostFrom
    rw [T.costs, show (bothDims n1 n2 m1 m2 N).m * (bothDims n1 n2 m1 m2 N).N = (m1 + m2) * N from rfl, norm_parts]
    have c1 : (w1.ctl.spCost.map fun i => (w1.costs i).userData.value ⟨n1, m1, N⟩ (partX 0 (Spec.trajFrom (bothDims n1 n2 m1 m2 N) w p x U))
        (partU (m1 + m2) 0 m1 U)).sum = (w1.ctl.spCost.map fun i => (w1.costs i).userData.value ⟨n1, m1, N⟩
        (Spec.trajFrom ⟨n1, m1, N⟩ w1 p1 x1 (partU (m1 + m2) 0 m1 U)) (partU (m1 + m2) 0 m1 U)).sum := by
      congr 1
      exact List.map_congr_left fun i _ => value_congr_traj (fun k _ => (trajFrom_parts T hx1 hx2 U k).1) _
    have c2 : (w2.ctl.spCost.map fun i => (w2.costs i).userData.value ⟨n2, m2, N⟩ (partX n1 (Spec.trajFrom (bothDims n1 n2 m1 m2 N) w p x U))
        (partU (m1 + m2) m1 m2 U)).sum = (w2.ctl.spCost.map fun i => (w2.costs i).userData.value ⟨n2, m2, N⟩
        (Spec.trajFrom ⟨n2, m2, N⟩ w2 p2 x2 (partU (m1 + m2) m1 m2 U)) (partU (m1 + m2) m1 m2 U)).sum := by
      congr 1
      exact List.map_congr_left fun i _ => value_congr_traj (fun k _ => (trajFrom_parts T hx1 hx2 U k).2) _
    rw [c1, c2]
    ring
  obtain ⟨k1, h1⟩ := c58_objective_per_state S1.hist S1.allowed S1.init S1.fresh S1.solve S1.ps x1
  obtain ⟨k2, h2⟩ := c58_objective_per_state S2.hist S2.allowed S2.init S2.fresh S2.solve S2.ps x2
  obtain ⟨k0, h0⟩ := c58_objective_per_state S.hist S.allowed S.init S.fresh S.solve S.ps x
  rw [h0, h0, h1, h1, h2, h2, tc, tc]
  ring

end World

/-! ## Declarations that concern one plant only, and bounds for both -/

theorem sum_part {wide off w : Nat} (h : off + w ≤ wide) {f : Nat → K} {f' : Nat → K} (hf : ∀ c < w, f (off + c) = f' c)
    (hz : ∀ c < wide, (c < off ∨ off + w ≤ c) → f c = 0) (x : Nat → K) :
    ∑ c ∈ Finset.range wide, f c * x c = ∑ c ∈ Finset.range w, f' c * x (off + c) := by
  obtain ⟨t, rfl⟩ := Nat.exists_eq_add_of_le h
  rw [Finset.sum_range_add, Finset.sum_range_add, Finset.sum_eq_zero (s := Finset.range off), Finset.sum_eq_zero (s := Finset.range t),
    zero_add, add_zero]
  · exact Finset.sum_congr rfl fun c hc => by rw [hf c (Finset.mem_range.1 hc)]
  · intro c hc
    have := Finset.mem_range.1 hc
    rw [hz _ (by omega) (Or.inr (by omega)), zero_mul]
  · intro c hc
    have := Finset.mem_range.1 hc
    rw [hz _ (by omega) (Or.inl this), zero_mul]

variable {d p : Dims} {so uo : Nat}

theorem part_state_step (hs : so + p.n ≤ d.n) {s : Nat} {E E' : Mat K} (h : OnPart s d.n so p.n E E') (hc : E.cols = d.n) (X : Nat → Nat → K)
    (k : Nat) {r : Nat} (hr : r < E.rows) :
    ∑ c ∈ Finset.range d.n, E.e r c * X k c = ∑ c ∈ Finset.range p.n, E'.e r c * partX so X k c := by
  obtain ⟨a, b⟩ := h.2.2 r hr 0 (by rw [if_pos hc]; exact Nat.one_pos)
  simp only [Nat.zero_mul, Nat.zero_add] at a b
  exact sum_part hs a b _

theorem part_state_full (hs : so + p.n ≤ d.n) {s : Nat} {E E' : Mat K} (h : OnPart s d.n so p.n E E') (hc : ¬ E.cols = d.n)
    (X : Nat → Nat → K) {r : Nat} (hr : r < E.rows) :
    ∑ k ∈ Finset.range s, ∑ c ∈ Finset.range d.n, E.e r (k * d.n + c) * X k c =
      ∑ k ∈ Finset.range s, ∑ c ∈ Finset.range p.n, E'.e r (k * p.n + c) * partX so X k c := by
  refine Finset.sum_congr rfl fun k hk => ?_
  obtain ⟨a, b⟩ := h.2.2 r hr k (by rw [if_neg hc]; exact Finset.mem_range.1 hk)
  exact sum_part hs a b _

theorem part_control_step (hu : uo + p.m ≤ d.m) {s : Nat} {G G' : Mat K} (h : OnPart s d.m uo p.m G G') (hc : G.cols = d.m)
    (U : Nat → K) (k : Nat) {r : Nat} (hr : r < G.rows) :
    ∑ c ∈ Finset.range d.m, G.e r c * ctrl d U k c = ∑ c ∈ Finset.range p.m, G'.e r c * ctrl p (partU d.m uo p.m U) k c := by
  obtain ⟨a, b⟩ := h.2.2 r hr 0 (by rw [if_pos hc]; exact Nat.one_pos)
  simp only [Nat.zero_mul, Nat.zero_add] at a b
  rw [sum_part hu a b]
  exact Finset.sum_congr rfl fun c hc => by
    rw [show ctrl p (partU d.m uo p.m U) k c = _ from partU_at (Finset.mem_range.1 hc) U]; rfl

theorem part_control_full (hu : uo + p.m ≤ d.m) {s : Nat} {G G' : Mat K} (h : OnPart s d.m uo p.m G G') (hc : ¬ G.cols = d.m)
    (U : Nat → K) {r : Nat} (hr : r < G.rows) :
    ∑ k ∈ Finset.range s, ∑ c ∈ Finset.range d.m, G.e r (k * d.m + c) * ctrl d U k c =
      ∑ k ∈ Finset.range s, ∑ c ∈ Finset.range p.m, G'.e r (k * p.m + c) * ctrl p (partU d.m uo p.m U) k c := by
  refine Finset.sum_congr rfl fun k hk => ?_
  obtain ⟨a, b⟩ := h.2.2 r hr k (by rw [if_neg hc]; exact Finset.mem_range.1 hk)
  rw [sum_part hu a b]
  exact Finset.sum_congr rfl fun c hc => by
    rw [show ctrl p (partU d.m uo p.m U) k c = _ from partU_at (Finset.mem_range.1 hc) U]; rfl

/-- **C105**: a constraint whose matrices have zeros for the other plant means the constraint on its plant. -/
theorem c105_constraint_on_plant (hs : so + p.n ≤ d.n) (hu : uo + p.m ≤ d.m) (hN : p.N = d.N) {D D' : ConstrData K} (h : D.OnPlant d p so uo D')
    (X : Nat → Nat → K) (U : Nat → K) : D.Holds d X U ↔ D'.Holds p (partX so X) (partU d.m uo p.m U) := by
  cases D <;> cases D' <;> simp only [ConstrData.OnPlant] at h
  case trajectory.trajectory q E f q' E' f' =>
    obtain ⟨rfl, hE, rfl⟩ := h
    simp only [ConstrData.Holds]
    by_cases hc : E.cols = d.n
    · rw [if_pos hc, if_pos (hE.2.1.2 hc)]
      unfold TrajectoryStep
      rw [hE.1, hN]
      exact forall₂_congr fun k _ => forall₂_congr fun r hr => by rw [part_state_step hs hE hc X k hr]
    · rw [if_neg hc, if_neg fun h => hc (hE.2.1.1 h)]
      unfold TrajectoryFull
      rw [hE.1, hN]
      exact forall₂_congr fun r hr => by rw [part_state_full hs hE hc X hr]
  case control.control q G f q' G' f' =>
    obtain ⟨rfl, hG, rfl⟩ := h
    simp only [ConstrData.Holds]
    by_cases hc : G.cols = d.m
    · rw [if_pos hc, if_pos (hG.2.1.2 hc)]
      unfold ControlStep
      rw [hG.1, hN]
      exact forall₂_congr fun k _ => forall₂_congr fun r hr => by rw [part_control_step hu hG hc U k hr]
    · rw [if_neg hc, if_neg fun h => hc (hG.2.1.1 h)]
      unfold ControlFull
      rw [hG.1, hN]
      exact forall₂_congr fun r hr => by rw [part_control_full hu hG hc U hr]
  case mixed.mixed q E G f q' E' G' f' =>
    obtain ⟨rfl, hE, hG, hr0, hcc, rfl⟩ := h
    simp only [ConstrData.Holds]
    by_cases hc : E.cols = d.n
    · rw [if_pos ⟨hc, hcc.1 hc⟩, if_pos ⟨hE.2.1.2 hc, hG.2.1.2 (hcc.1 hc)⟩]
      unfold MixedStep
      rw [hE.1, hN]
      exact forall₂_congr fun k _ => forall₂_congr fun r hr => by
        rw [part_state_step hs hE hc X k hr, part_control_step hu hG (hcc.1 hc) U k (by rw [hr0]; exact hr)]
    · rw [if_neg fun h => hc h.1, if_neg fun h => hc (hE.2.1.1 h.1)]
      unfold MixedFull
      rw [hE.1, hN]
      exact forall₂_congr fun r hr => by
        rw [part_state_full hs hE hc X hr, part_control_full hu hG (fun h => hc (hcc.2 h)) U (by rw [hr0]; exact hr)]

/-- **C105**: a cost whose matrices have zeros for the other plant is the cost of its plant. -/
theorem c105_cost_on_plant (hs : so + p.n ≤ d.n) (hu : uo + p.m ≤ d.m) (hN : p.N = d.N) {D D' : CostData K} (h : D.OnPlant d p so uo D')
    (X : Nat → Nat → K) (U : Nat → K) : D.value d X U = D'.value p (partX so X) (partU d.m uo p.m U) := by
  cases D <;> cases D' <;> simp only [CostData.OnPlant] at h
  case trajectory.trajectory M r v M' r' v' =>
    obtain ⟨hM, rfl, rfl⟩ := h
    simp only [CostData.value]
    by_cases hc : M.cols = d.n
    · rw [if_pos hc, if_pos (hM.2.1.2 hc), hN]
      exact Finset.sum_congr rfl fun k _ => World.wsq_congr hM.1.symm (fun _ _ => rfl) (fun _ _ => rfl) fun r hr => part_state_step hs hM hc X k hr
    · rw [if_neg hc, if_neg (fun h => hc (hM.2.1.1 h)), hN]
      exact World.wsq_congr hM.1.symm (fun _ _ => rfl) (fun _ _ => rfl) fun r hr => part_state_full hs hM hc X hr
  case target.target M r v M' r' v' =>
    obtain ⟨hc, hM, rfl, rfl⟩ := h
    simp only [CostData.value]
    rw [hN]
    exact World.wsq_congr hM.1.symm (fun _ _ => rfl) (fun _ _ => rfl) fun r hr => part_state_step hs hM hc X _ hr
  case control.control C r v C' r' v' =>
    obtain ⟨hG, rfl, rfl⟩ := h
    simp only [CostData.value]
    by_cases hc : C.cols = d.m
    · rw [if_pos hc, if_pos (hG.2.1.2 hc), hN]
      exact Finset.sum_congr rfl fun k _ => World.wsq_congr hG.1.symm (fun _ _ => rfl) (fun _ _ => rfl) fun r hr => part_control_step hu hG hc U k hr
    · rw [if_neg hc, if_neg (fun h => hc (hG.2.1.1 h)), hN]
      exact World.wsq_congr hG.1.symm (fun _ _ => rfl) (fun _ _ => rfl) fun r hr => part_control_full hu hG hc U hr
  case mixed.mixed M C r v M' C' r' v' =>
    obtain ⟨hM, hG, hr0, hcc, rfl, rfl⟩ := h
    simp only [CostData.value]
    by_cases hc : M.cols = d.n
    · rw [if_pos ⟨hc, hcc.1 hc⟩, if_pos ⟨hM.2.1.2 hc, hG.2.1.2 (hcc.1 hc)⟩, hN]
      exact Finset.sum_congr rfl fun k _ => World.wsq_congr hM.1.symm (fun _ _ => rfl) (fun _ _ => rfl) fun r hr => by
        rw [part_state_step hs hM hc X k hr, part_control_step hu hG (hcc.1 hc) U k (by rw [hr0]; exact hr)]
    · rw [if_neg (fun h => hc h.1), if_neg (fun h => hc (hM.2.1.1 h.1)), hN]
      exact World.wsq_congr hM.1.symm (fun _ _ => rfl) (fun _ _ => rfl) fun r hr => by
        rw [part_state_full hs hM hc X hr, part_control_full hu hG (fun h => hc (hcc.2 h)) U (by rw [hr0]; exact hr)]

/-- **C105**: one per-step `ControlBoundConstraint` for both plants means the two of each plant. -/
theorem c105_bounds_of_both {l u l1 u1 l2 u2 : Vec (Ext K)} (hl : Stacked2 m1 m2 l l1 l2) (hu : Stacked2 m1 m2 u u1 u2)
    (r : l.rows = m1 + m2) (r1 : l1.rows = m1) (r2 : l2.rows = m2) (X : Nat → Nat → K) (U : Nat → K) :
    (ConstrData.ctrlBound l u).Holds (bothDims n1 n2 m1 m2 N) X U ↔
      (ConstrData.ctrlBound l1 u1).Holds ⟨n1, m1, N⟩ (partX 0 X) (partU (m1 + m2) 0 m1 U) ∧
      (ConstrData.ctrlBound l2 u2).Holds ⟨n2, m2, N⟩ (partX n1 X) (partU (m1 + m2) m1 m2 U) := by
  simp only [ConstrData.Holds]
  rw [if_pos (show l.rows = (bothDims n1 n2 m1 m2 N).m from r), if_pos r1, if_pos r2]
  constructor
  · intro h
    refine ⟨fun k hk c hc => ?_, fun k hk c hc => ?_⟩
    · have := h k hk c (show c < m1 + m2 by have : c < m1 := hc; omega)
      rw [hl.1 c hc, hu.1 c hc] at this
      rw [show ctrl ⟨n1, m1, N⟩ (partU (m1 + m2) 0 m1 U) k c = _ from partU_at hc U, Nat.zero_add]
      exact this
    · have := h k hk (m1 + c) (show m1 + c < m1 + m2 by have : c < m2 := hc; omega)
      rw [hl.2 c hc, hu.2 c hc] at this
      rw [show ctrl ⟨n2, m2, N⟩ (partU (m1 + m2) m1 m2 U) k c = _ from partU_at hc U]
      exact this
  · rintro ⟨a, b⟩ k hk c hc
    have hc : c < m1 + m2 := hc
    by_cases h : c < m1
    · have := a k hk c h
      rw [show ctrl ⟨n1, m1, N⟩ (partU (m1 + m2) 0 m1 U) k c = _ from partU_at h U, Nat.zero_add] at this
      rw [hl.1 c h, hu.1 c h]
      exact this
    · obtain ⟨c, rfl⟩ := Nat.exists_eq_add_of_le (Nat.le_of_not_lt h)
      have hc : c < m2 := by omega
      have := b k hk c hc
      rw [show ctrl ⟨n2, m2, N⟩ (partU (m1 + m2) m1 m2 U) k c = _ from partU_at hc U] at this
      rw [hl.2 c hc, hu.2 c hc]
      exact this

end
end Copra
