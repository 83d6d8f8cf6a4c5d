import Verif.SpecMirror
import Verif.Props.Representation
import Verif.Props.Scale
import Verif.Props.Convex
import Verif.Props.Replan
import Verif.Props.InitRemoval

/-! # C108: symmetric problems have symmetric answers -/

namespace Copra
open Spec

set_option linter.unusedSectionVars false
set_option maxRecDepth 100000

section
variable {K : Type} [Field K] [LinearOrder K] [IsStrictOrderedRing K] {d : Dims}
  {π : Equiv.Perm Nat} {σ : Nat → K} {T : Mat K}

theorem mirrorU_ctrl {m : Nat} (U : Nat → K) (k : Nat) {c : Nat} (hc : c < m) :
    mirrorU m π σ U (k * m + c) = σ c * U (k * m + π c) := by
  unfold mirrorU
  have h0 : 0 < m := by omega
  have e1 : (k * m + c) % m = c := by rw [Nat.mul_comm, Nat.mul_add_mod, Nat.mod_eq_of_lt hc]
  have e2 : (k * m + c) / m = k := by rw [Nat.mul_comm, Nat.mul_add_div h0, Nat.div_eq_of_lt hc, Nat.add_zero]
  rw [e1, e2]

theorem mirrorU_zero (m : Nat) : mirrorU m π σ (fun _ => (0 : K)) = fun _ => 0 := by
  funext j; unfold mirrorU; rw [mul_zero]

/-- The place from which a component of a mirror image is taken. -/
def mirrorIdx (m : Nat) (π : Equiv.Perm Nat) (j : Nat) : Nat := j / m * m + π (j % m)

theorem perm_symm {m : Nat} (hp : ∀ c, π c < m ↔ c < m) (c : Nat) : π.symm c < m ↔ c < m := by
  rw [← hp, Equiv.apply_symm_apply]

theorem mirrorIdx_lt {m N : Nat} (hp : ∀ c, π c < m ↔ c < m) {j : Nat} (hj : j < m * N) : mirrorIdx m π j < m * N := by
  have h0 : 0 < m := by rcases Nat.eq_zero_or_pos m with h | h; (· rw [h, zero_mul] at hj; omega); exact h
  have a := (hp (j % m)).2 (Nat.mod_lt j h0)
  have b : j / m < N := (Nat.div_lt_iff_lt_mul h0).2 (by rwa [mul_comm] at hj)
  unfold mirrorIdx
  calc j / m * m + π (j % m) < j / m * m + m := by omega
    _ = (j / m + 1) * m := by ring
    _ ≤ N * m := Nat.mul_le_mul_right _ b
    _ = m * N := mul_comm _ _

theorem mirrorIdx_inv {m N : Nat} (hp : ∀ c, π c < m ↔ c < m) {j : Nat} (hj : j < m * N) :
    mirrorIdx m π.symm (mirrorIdx m π j) = j := by
  have h0 : 0 < m := by rcases Nat.eq_zero_or_pos m with h | h; (· rw [h, zero_mul] at hj; omega); exact h
  have a := (hp (j % m)).2 (Nat.mod_lt j h0)
  unfold mirrorIdx
  have e1 : (j / m * m + π (j % m)) % m = π (j % m) := by rw [Nat.mul_comm, Nat.mul_add_mod, Nat.mod_eq_of_lt a]
  have e2 : (j / m * m + π (j % m)) / m = j / m := by rw [Nat.mul_comm, Nat.mul_add_div h0, Nat.div_eq_of_lt a, Nat.add_zero]
  rw [e1, e2, Equiv.symm_apply_apply]
  exact Nat.div_add_mod' j m

theorem mirror_norm {m : Nat} (hp : ∀ c, π c < m ↔ c < m) (hs : ∀ c, σ c = 1 ∨ σ c = -1) (N : Nat) (U : Nat → K) :
    ∑ j ∈ Finset.range (m * N), mirrorU m π σ U j ^ 2 = ∑ j ∈ Finset.range (m * N), U j ^ 2 := by
  refine Finset.sum_nbij' (mirrorIdx m π) (mirrorIdx m π.symm) (fun j hj => ?_) (fun j hj => ?_) (fun j hj => ?_) (fun j hj => ?_)
    fun j hj => ?_
  · exact Finset.mem_range.2 (mirrorIdx_lt hp (Finset.mem_range.1 hj))
  · exact Finset.mem_range.2 (mirrorIdx_lt (perm_symm hp) (Finset.mem_range.1 hj))
  · exact mirrorIdx_inv hp (Finset.mem_range.1 hj)
  · have := mirrorIdx_inv (π := π.symm) (perm_symm hp) (Finset.mem_range.1 hj)
    rwa [Equiv.symm_symm] at this
  · unfold mirrorU mirrorIdx
    rw [mul_pow]
    rcases hs (j % m) with h | h <;> rw [h] <;> ring

/-- The inverse of a mirror image. -/
def mirrorBack (m : Nat) (π : Equiv.Perm Nat) (σ : Nat → K) (U : Nat → K) : Nat → K :=
  mirrorU m π.symm (fun c => σ (π.symm c)) U

theorem mirror_back {m N : Nat} (hp : ∀ c, π c < m ↔ c < m) (hs : ∀ c, σ c = 1 ∨ σ c = -1) (U : Nat → K) {j : Nat} (hj : j < m * N) :
    mirrorU m π σ (mirrorBack m π σ U) j = U j := by
  have h0 : 0 < m := by rcases Nat.eq_zero_or_pos m with h | h; (· rw [h, zero_mul] at hj; omega); exact h
  have a := (hp (j % m)).2 (Nat.mod_lt j h0)
  conv_lhs => rw [← Nat.div_add_mod' j m]
  rw [mirrorU_ctrl _ _ (Nat.mod_lt j h0)]
  unfold mirrorBack
  rw [mirrorU_ctrl _ _ a, Equiv.symm_apply_apply, Nat.div_add_mod', ← mul_assoc]
  rcases hs (j % m) with h | h <;> rw [h] <;> ring

/-- The mirrored dynamics move the mirror image of the states under the mirror image of the controls. -/
theorem sim_mirror {A1 B1 A2 B2 : Mat K} {v1 v2 : Vec K} {x1 x2 : Nat → K} (hp : ∀ c, π c < d.m ↔ c < d.m)
    (hs : ∀ c, σ c = 1 ∨ σ c = -1)
    (hA : ∀ i < d.n, ∀ j < d.n, ∑ b ∈ Finset.range d.n, A2.e i b * T.e b j = ∑ a ∈ Finset.range d.n, T.e i a * A1.e a j)
    (hB : ∀ i < d.n, ∀ c < d.m, B2.e i c * σ c = ∑ a ∈ Finset.range d.n, T.e i a * B1.e a (π c))
    (hv : ∀ i < d.n, v2.e i = ∑ a ∈ Finset.range d.n, T.e i a * v1.e a)
    (hx : MirrorStart d T x1 x2) (U : Nat → K) :
    MirrorX d T (sim d A1 B1 v1 x1 U) (sim d A2 B2 v2 x2 (mirrorU d.m π σ U)) := by
  intro k hk i hi
  -- the first system with its controls renamed
  have re : ∀ k r, sim d A1 B1 v1 x1 U k r =
      sim d A1 ⟨B1.rows, B1.cols, fun a c => B1.e a (π c) * σ c⟩ v1 x1 (mirrorU d.m π σ U) k r := by
    intro k
    induction k with
    | zero => intro r; rfl
    | succ k ih =>
      intro r
      rw [sim, sim]
      congr 2
      · exact Finset.sum_congr rfl fun c _ => by rw [ih c]
      · symm
        refine Finset.sum_nbij' π π.symm (fun c hc => Finset.mem_range.2 ((hp c).2 (Finset.mem_range.1 hc)))
          (fun c hc => Finset.mem_range.2 ((perm_symm hp c).2 (Finset.mem_range.1 hc))) (fun c _ => π.symm_apply_apply c)
          (fun c _ => π.apply_symm_apply c) fun c hc => ?_
        unfold ctrl
        rw [mirrorU_ctrl _ _ (Finset.mem_range.1 hc)]
        show B1.e r (π c) * σ c * (σ c * U (k * d.m + π c)) = _
        rcases hs c with h | h <;> rw [h] <;> ring
  simp only [re]
  refine World.sim_through (n1 := d.n) (n2 := d.n) (m := d.m) (N := d.N) hA (fun i hi c hc => ?_) hv hx _ k i hi
  have := hB i hi c hc
  calc B2.e i c = B2.e i c * σ c * σ c := by rcases hs c with h | h <;> rw [h] <;> ring
    _ = _ := by
      rw [this, Finset.sum_mul]
      exact Finset.sum_congr rfl fun a _ => by ring

namespace World
variable {dmax : K} {w1 w2 w1' w2' : World K} {g1 g2 : Ghost} {p1 p2 : Nat} {e1 e2 : SolveEnv K} {b1 b2 : Bool} {q1 q2 : QP K}

theorem Mirrored.unbounded (M : Mirrored d π σ T w1 p1 w2 p2) (h1 : Good d dmax w1 g1) (h2 : Good d dmax w2 g2)
    (hp1 : w1.ctl.ps = some p1) (hp2 : w2.ctl.ps = some p2) : w2.ctl.spBoundConstr = [] ↔ w1.ctl.spBoundConstr = [] := by
  rw [bound_nil h1 hp1, bound_nil h2 hp2]
  have H : ∀ w : World K, (∀ D ∈ w.ctl.spConstr.map fun i => (w.cons i).userData, ∀ l u, D ≠ .ctrlBound l u) ↔
      ¬ ∃ i ∈ w.ctl.spConstr, ∃ l u, (w.cons i).userData = .ctrlBound l u := by
    intro w
    simp only [List.mem_map, forall_exists_index, and_imp, forall_apply_eq_imp_iff₂, not_exists, not_and, ne_eq]
  rw [H, H, M.bounded]

theorem Mirrored.traj (M : Mirrored d π σ T w1 p1 w2 p2) {x1 x2 : Nat → K} (hx : MirrorStart d T x1 x2) (U : Nat → K) :
    MirrorX d T (Spec.trajFrom d w1 p1 x1 U) (Spec.trajFrom d w2 p2 x2 (mirrorU d.m π σ U)) :=
  sim_mirror M.perm M.sign M.A M.B M.bias hx U

theorem Mirrored.range (M : Mirrored d π σ T w1 p1 w2 p2) (U : Nat → K) :
    (∀ j < d.m * d.N, -dmax ≤ mirrorU d.m π σ U j ∧ mirrorU d.m π σ U j ≤ dmax) ↔
      ∀ j < d.m * d.N, -dmax ≤ U j ∧ U j ≤ dmax := by
  have key : ∀ j < d.m * d.N, (-dmax ≤ mirrorU d.m π σ U j ∧ mirrorU d.m π σ U j ≤ dmax) ↔
      (-dmax ≤ U (mirrorIdx d.m π j) ∧ U (mirrorIdx d.m π j) ≤ dmax) := by
    intro j _
    unfold mirrorU mirrorIdx
    rcases M.sign (j % d.m) with h | h <;> rw [h]
    · rw [one_mul]
    · rw [neg_one_mul, neg_le_neg_iff, neg_le, and_comm]
  constructor
  · intro H j hj
    have := (key _ (mirrorIdx_lt (perm_symm M.perm) hj)).1 (H _ (mirrorIdx_lt (perm_symm M.perm) hj))
    rwa [show mirrorIdx d.m π (mirrorIdx d.m π.symm j) = j by
      have := mirrorIdx_inv (π := π.symm) (perm_symm M.perm) hj
      rwa [Equiv.symm_symm] at this] at this
  · exact fun H j hj => (key j hj).2 (H _ (mirrorIdx_lt M.perm hj))

theorem Mirrored.cost (M : Mirrored d π σ T w1 p1 w2 p2) (hx : MirrorStart d T (w1.pss p1).x0.e (w2.pss p2).x0.e) (U : Nat → K) :
    totalCost d w2 p2 (mirrorU d.m π σ U) = totalCost d w1 p1 U := by
  unfold totalCost
  have h := M.costs (Spec.traj d w1 p1 U) (Spec.traj d w2 p2 (mirrorU d.m π σ U)) (Mirrored.traj M hx U) U
  rw [mirror_norm M.perm M.sign, h]

/-- **C108** (the problems): two programs, with any histories, declare mirror images of each other and start at mirror images.
Then a control sequence and its mirror image have the same objective, and one is feasible exactly when the other is. -/
theorem c108_same_problem (S1 : PlainSolve d dmax w1 g1 p1 e1 w1' b1 q1) (S2 : PlainSolve d dmax w2 g2 p2 e2 w2' b2 q2)
    (M : Mirrored d π σ T w1 p1 w2 p2) (hx : MirrorStart d T (w1.pss p1).x0.e (w2.pss p2).x0.e)
    (f1 : CostsFresh d w1 g1) (f2 : CostsFresh d w2 g2) (U : Nat → K) :
    objective q2 (mirrorU d.m π σ U) = objective q1 U ∧ (Feasible q2 (mirrorU d.m π σ U) ↔ Feasible q1 U) := by
  obtain ⟨κ1, O1⟩ := c32_objective S1.hist S1.allowed S1.plain f1 S1.solve S1.ps
  obtain ⟨κ2, O2⟩ := c32_objective S2.hist S2.allowed S2.plain f2 S2.solve S2.ps
  have z1 := O1 fun _ => 0
  have z2 := O2 (mirrorU d.m π σ fun _ => 0)
  rw [Mirrored.cost M hx, mirrorU_zero, objective_zero] at z2
  rw [objective_zero] at z1
  refine ⟨by rw [O1, O2, Mirrored.cost M hx]; linarith, ?_⟩
  rw [c30_feasible_set S1.hist (fun _ _ h => h.1) S1.allowed S1.plain S1.clean S1.honest S1.solve S1.ps,
    c30_feasible_set S2.hist (fun _ _ h => h.1) S2.allowed S2.plain S2.clean S2.honest S2.solve S2.ps,
    M.cons (Spec.traj d w1 p1 U) (Spec.traj d w2 p2 (mirrorU d.m π σ U)) (Mirrored.traj M hx U) U, Mirrored.unbounded M S1.hist.good S2.hist.good S1.ps S2.ps,
    Mirrored.range M]

/-- **C108** (the results): when both solvers return minimisers, the second `control()` and `trajectory()` are the mirror
images of the first ones. -/
theorem c108_same_results (S1 : PlainSolve d dmax w1 g1 p1 e1 w1' true q1) (S2 : PlainSolve d dmax w2 g2 p2 e2 w2' true q2)
    (M : Mirrored d π σ T w1 p1 w2 p2) (hx : MirrorStart d T (w1.pss p1).x0.e (w2.pss p2).x0.e)
    (f1 : CostsFresh d w1 g1) (f2 : CostsFresh d w2 g2)
    (o1 : IsOptimal q1 (e1.answer q1).2.e) (o2 : IsOptimal q2 (e2.answer q2).2.e) :
    (∀ k < d.N, ∀ c < d.m, w2'.ctl.control.e (k * d.m + c) = σ c * w1'.ctl.control.e (k * d.m + π c)) ∧
    ∀ k ≤ d.N, ∀ i < d.n, w2'.ctl.trajectory.e (k * d.n + i) =
      ∑ j ∈ Finset.range d.n, T.e i j * w1'.ctl.trajectory.e (k * d.n + j) := by
  have ca1 := c40_control_is_answer S1.plain S1.solve
  have ca2 := c40_control_is_answer S2.plain S2.solve
  rw [← ca1] at o1
  rw [← ca2] at o2
  obtain ⟨z1, T1, _⟩ := c40_success S1.hist S1.allowed S1.solve S1.ps
  obtain ⟨z2, T2, _⟩ := c40_success S2.hist S2.allowed S2.solve S2.ps
  replace T1 := (T1 S1.plain).2
  replace T2 := (T2 S2.plain).2
  have P := c108_same_problem S1 S2 M hx f1 f2
  have nv : q2.nrVar = d.m * d.N ∧ WellSized q2 := by
    obtain ⟨_, _, _, e, _, W, v⟩ := c50_solve_defined S2.hist S2.allowed
    rw [S2.solve] at e; cases e
    exact ⟨by rw [v]; unfold numVars; rw [S2.plain]; rfl, W⟩
  have nc : q2.c.rows = d.m * d.N := nv.2.2.2.1.trans nv.1
  have oM : IsOptimal q2 (mirrorU d.m π σ w1'.ctl.control.e) := by
    refine ⟨(P _).2.2 o1.1, fun y hy => ?_⟩
    have hb : ∀ j < q2.nrVar, mirrorU d.m π σ (mirrorBack d.m π σ y) j = y j := fun j hj =>
      mirror_back M.perm M.sign y (by rwa [nv.1] at hj)
    have fe := (P (mirrorBack d.m π σ y)).2.1 (feasible_ext nv.2 (fun j hj => (hb j hj).symm) hy)
    have le := o1.2 _ fe
    rw [← (P _).1, ← (P _).1, objective_ext nv.2 hb] at le
    exact le
  have hU := c29_unique_minimiser S2.hist (fun _ _ h => h.2) S2.allowed S2.plain S2.solve o2 oM
  rw [nv.1] at hU
  refine ⟨fun k hk c hc => ?_, fun k hk i hi => ?_⟩
  · rw [hU _ (by have := entry_lt hk hc; rwa [mul_comm d.m])]
    exact mirrorU_ctrl _ _ hc
  · rw [T2.2 k i hk hi]
    have e : Spec.traj d w2 p2 w2'.ctl.control.e k i = Spec.traj d w2 p2 (mirrorU d.m π σ w1'.ctl.control.e) k i :=
      sim_congr d _ _ _ (fun _ _ => rfl) hU k hk i hi
    rw [e]
    refine (Mirrored.traj M hx w1'.ctl.control.e k hk i hi).trans (Finset.sum_congr rfl fun j hj => ?_)
    rw [T1.2 k j hk (Finset.mem_range.1 hj)]
    rfl

/-- **C108** (one symmetric program): a program whose declarations and whose initial state are their own mirror images gets
a symmetric answer. -/
theorem c108_symmetric (S : PlainSolve d dmax w1 g1 p1 e1 w1' true q1) (M : Mirrored d π σ T w1 p1 w1 p1)
    (hx : MirrorStart d T (w1.pss p1).x0.e (w1.pss p1).x0.e) (f : CostsFresh d w1 g1)
    (o : IsOptimal q1 (e1.answer q1).2.e) :
    (∀ k < d.N, ∀ c < d.m, w1'.ctl.control.e (k * d.m + c) = σ c * w1'.ctl.control.e (k * d.m + π c)) ∧
    ∀ k ≤ d.N, ∀ i < d.n, w1'.ctl.trajectory.e (k * d.n + i) =
      ∑ j ∈ Finset.range d.n, T.e i j * w1'.ctl.trajectory.e (k * d.n + j) :=
  c108_same_results S S M hx f f o o

/-- **C108** (feasibility, initial-state controller): when `T` maps the bounds on the initial state of the first program onto
those of the second, an initial state and controls are feasible for the first exactly when their mirror images are for the
second. -/
theorem c108_feasible_init (S1 : InitSolve d dmax w1 g1 p1 e1 w1' b1 q1) (S2 : InitSolve d dmax w2 g2 p2 e2 w2' b2 q2)
    (M : Mirrored d π σ T w1 p1 w2 p2) {x1 x2 : Nat → K} (hx : MirrorStart d T x1 x2)
    (hb : InitBounds d w2.ctl x2 ↔ InitBounds d w1.ctl x1) (U : Nat → K) :
    Feasible q2 (joined d x2 (mirrorU d.m π σ U)) ↔ Feasible q1 (joined d x1 U) := by
  rw [InitSolve.feasible S1, InitSolve.feasible S2, M.cons _ _ (Mirrored.traj M hx U), hb,
    Mirrored.unbounded M S1.hist.good S2.hist.good S1.ps S2.ps, Mirrored.range M]

/-- **C108** (objective, initial-state controller): for mirror images of an initial state, the second objective ranks mirror
images of controls as the first one ranks the controls. -/
theorem c108_objective_init (S1 : InitSolve d dmax w1 g1 p1 e1 w1' b1 q1) (S2 : InitSolve d dmax w2 g2 p2 e2 w2' b2 q2)
    (M : Mirrored d π σ T w1 p1 w2 p2) {x1 x2 : Nat → K} (hx : MirrorStart d T x1 x2) (U V : Nat → K) :
    objective q2 (joined d x2 (mirrorU d.m π σ U)) - objective q2 (joined d x2 (mirrorU d.m π σ V)) =
      objective q1 (joined d x1 U) - objective q1 (joined d x1 V) := by
  have tc : ∀ U, totalCostFrom d w2 p2 x2 (mirrorU d.m π σ U) = totalCostFrom d w1 p1 x1 U := fun U => by
    unfold totalCostFrom
    rw [mirror_norm M.perm M.sign, M.costs _ _ (Mirrored.traj M hx U)]
  obtain ⟨k1, h1⟩ := c58_objective_per_state S1.hist S1.allowed S1.init S1.fresh S1.solve S1.ps x1
  obtain ⟨k2, h2⟩ := c58_objective_per_state S2.hist S2.allowed S2.init S2.fresh S2.solve S2.ps x2
  rw [h1, h1, h2, h2, tc, tc]
  ring

end World
end
end Copra
