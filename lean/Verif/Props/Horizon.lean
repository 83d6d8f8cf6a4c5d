import Verif.SpecHorizon
import Verif.Props.Recursive
import Verif.Props.Decrease
import Verif.Props.InitRemoval

/-! # C107: a longer horizon never does better -/

namespace Copra
open Spec

set_option linter.unusedSectionVars false
set_option maxRecDepth 100000

section
variable {K : Type} [Field K] [LinearOrder K] [IsStrictOrderedRing K] {d d' : Dims}

theorem sim_horizon (hn : d'.n = d.n) (hm : d'.m = d.m) (A B : Mat K) (b : Vec K) {x y : Nat → K} (U : Nat → K)
    (hx : ∀ r < d.n, x r = y r) (k : Nat) : ∀ r < d.n, sim d' A B b y U k r = sim d A B b x U k r := by
  induction k with
  | zero => intro r hr; exact (hx r hr).symm
  | succ k ih =>
    intro r hr
    rw [sim, sim, hn, hm]
    have e : ∀ c, ctrl d' U k c = ctrl d U k c := fun c => by unfold ctrl; rw [hm]
    simp only [e]
    congr 2
    exact Finset.sum_congr rfl fun c hc => by rw [ih c (Finset.mem_range.1 hc)]

theorem perStep_horizon (hn : d'.n = d.n) (hm : d'.m = d.m) {D : ConstrData K} (h : D.PerStep d) : D.PerStep d' := by
  cases D <;> simp only [ConstrData.PerStep, hn, hm] at h ⊢ <;> exact h

/-- A constraint that holds over the longer horizon holds over the shorter one. -/
theorem holds_shorter (hn : d'.n = d.n) (hm : d'.m = d.m) (hN : d.N ≤ d'.N) {D : ConstrData K} (hD : D.PerStep d)
    {X Y : Nat → Nat → K} {U : Nat → K} (hX : ∀ k ≤ d.N, ∀ r < d.n, X k r = Y k r) (h : D.Holds d' Y U) : D.Holds d X U := by
  rw [holds_congr_traj hX, holds_steps hD]
  rw [holds_steps (perStep_horizon hn hm hD)] at h
  have e : ∀ k, ctrl d' U k = ctrl d U k := fun k => by funext c; unfold ctrl; rw [hm]
  have a1 : ∀ x : Nat → K, D.AtState d' x ↔ D.AtState d x := fun x => by
    cases D <;> simp only [ConstrData.AtState, hn]
  have a2 : ∀ x u : Nat → K, D.AtStep d' x u ↔ D.AtStep d x u := fun x u => by
    cases D <;> simp only [ConstrData.AtStep, hn, hm]
  exact ⟨fun k hk => (a1 _).1 (h.1 k (hk.trans hN)), fun k hk => by
    have := (a2 _ _).1 (h.2 k (lt_of_lt_of_le hk hN)); rwa [e] at this⟩

theorem sum_le_longer {f : Nat → K} (hf : ∀ k, 0 ≤ f k) {a b : Nat} (h : a ≤ b) :
    ∑ k ∈ Finset.range a, f k ≤ ∑ k ∈ Finset.range b, f k :=
  Finset.sum_le_sum_of_subset_of_nonneg (Finset.range_subset_range.2 h) fun k _ _ => hf k

/-- A cost given per step with nonnegative weights is at least as large over the longer horizon. -/
theorem value_shorter (hn : d'.n = d.n) (hm : d'.m = d.m) (hN : d.N ≤ d'.N) {D : CostData K} (hD : D.SizedOnAdd d)
    (hw : D.Nonneg) {X Y : Nat → Nat → K} {U : Nat → K} (hX : ∀ k ≤ d.N, ∀ r < d.n, X k r = Y k r) :
    D.value d X U ≤ D.value d' Y U := by
  rw [value_congr_traj hX]
  have e : ∀ k c, ctrl d' U k c = ctrl d U k c := fun k c => by unfold ctrl; rw [hm]
  cases D with
  | trajectory M p w =>
    have h1 : M.cols = d.n := hD
    simp only [CostData.value, hn, if_pos h1]
    exact sum_le_longer (fun k => wsq_nonneg hw _) (by omega)
  | target M p w => exact absurd hD id
  | control C p w =>
    have h1 : C.cols = d.m := hD
    simp only [CostData.value, hm, if_pos h1, e]
    exact sum_le_longer (fun k => wsq_nonneg hw _) hN
  | mixed M C p w =>
    have h1 : M.cols = d.n ∧ C.cols = d.m := hD
    simp only [CostData.value, hn, hm, if_pos h1, e]
    exact sum_le_longer (fun k => wsq_nonneg hw _) hN

namespace World
variable {dmax : K} {w1 w2 w1' w2' : World K} {g1 g2 : Ghost} {p1 p2 : Nat} {e1 e2 : SolveEnv K} {b1 b2 : Bool} {q1 q2 : QP K}

theorem Longer.bound (R : Longer d d' w1 p1 w2 p2) (h1 : Good d dmax w1 g1) (h2 : Good d' dmax w2 g2)
    (hp1 : w1.ctl.ps = some p1) (hp2 : w2.ctl.ps = some p2) : w1.ctl.spBoundConstr = [] ↔ w2.ctl.spBoundConstr = [] := by
  rw [bound_nil h1 hp1, bound_nil h2 hp2]
  exact ⟨fun H D hD => H D (R.cons.mem_iff.2 hD), fun H D hD => H D (R.cons.mem_iff.1 hD)⟩

/-- The start of a plan that keeps the constraints over the longer horizon keeps them over the shorter one. -/
theorem Longer.holds (R : Longer d d' w1 p1 w2 p2) {x y U : Nat → K} (hx : ∀ r < d.n, x r = y r)
    (h : ∀ i ∈ w2.ctl.spConstr, (w2.cons i).userData.Holds d' (Spec.trajFrom d' w2 p2 y U) U) :
    ∀ i ∈ w1.ctl.spConstr, (w1.cons i).userData.Holds d (Spec.trajFrom d w1 p1 x U) U := by
  intro i hi
  obtain ⟨j, hj, e⟩ := List.mem_map.1 ((R.cons.mem_iff).1 (List.mem_map.2 ⟨i, hi, rfl⟩))
  refine holds_shorter R.n R.m R.N (R.consStep i hi) (fun k _ r hr => ?_) (e ▸ h j hj)
  unfold Spec.trajFrom
  rw [R.A, R.B, R.bias]
  exact (sim_horizon R.n R.m _ _ _ U hx k r hr).symm

/-- **C107** (cost): the total cost of the start of a plan over the shorter horizon is at most the total cost of the
plan over the longer one, when the weights are nonnegative. -/
theorem c107_cost (R : Longer d d' w1 p1 w2 p2) (hn : ∀ i ∈ w1.ctl.spCost, (w1.costs i).userData.Nonneg) (U : Nat → K) :
    totalCost d w1 p1 U ≤ totalCost d' w2 p2 U := by
  have pm := (R.costs.map fun D => D.value d' (Spec.traj d' w2 p2 U) U).sum_eq
  rw [List.map_map, List.map_map] at pm
  simp only [Function.comp_def] at pm
  have T : ∀ k ≤ d.N, ∀ r < d.n, Spec.traj d w1 p1 U k r = Spec.traj d' w2 p2 U k r := fun k _ r hr => by
    unfold Spec.traj
    rw [R.A, R.B, R.bias]
    exact (sim_horizon R.n R.m _ _ _ U R.x0 k r hr).symm
  have L : (w1.ctl.spCost.map fun i => (w1.costs i).userData.value d (Spec.traj d w1 p1 U) U).sum ≤
      (w1.ctl.spCost.map fun i => (w1.costs i).userData.value d' (Spec.traj d' w2 p2 U) U).sum :=
    List.sum_le_sum fun i hi => value_shorter R.n R.m R.N (R.costsStep i hi) (hn i hi) T
  have S : ∑ j ∈ Finset.range (d.m * d.N), U j ^ 2 ≤ ∑ j ∈ Finset.range (d'.m * d'.N), U j ^ 2 :=
    sum_le_longer (fun j => sq_nonneg _) (by rw [R.m]; exact Nat.mul_le_mul_left _ R.N)
  unfold totalCost
  rw [← pm]
  linarith

/-- **C107** (feasibility): the start of every feasible point of the problem over the longer horizon is a feasible point of
the problem over the shorter one. -/
theorem c107_feasible (S1 : PlainSolve d dmax w1 g1 p1 e1 w1' b1 q1) (S2 : PlainSolve d' dmax w2 g2 p2 e2 w2' b2 q2)
    (R : Longer d d' w1 p1 w2 p2) {U : Nat → K} (h : Feasible q2 U) : Feasible q1 U := by
  have F := (c30_feasible_set S2.hist (fun _ _ h => h.1) S2.allowed S2.plain S2.clean S2.honest S2.solve S2.ps _).1 h
  refine (c30_feasible_set S1.hist (fun _ _ h => h.1) S1.allowed S1.plain S1.clean S1.honest S1.solve S1.ps _).2
    ⟨Longer.holds R R.x0 F.1, fun hb j hj => ?_⟩
  refine F.2 ((Longer.bound R S1.hist.good S2.hist.good S1.ps S2.ps).1 hb) j (lt_of_lt_of_le hj ?_)
  rw [R.m]; exact Nat.mul_le_mul_left _ R.N

/-- **C107** (success): if `solve()` succeeds over the longer horizon with an answer that satisfies the constraints, it
succeeds over the shorter one with any solver that finds a solution if there is one. -/
theorem c107_success (S1 : PlainSolve d dmax w1 g1 p1 e1 w1' b1 q1) (S2 : PlainSolve d' dmax w2 g2 p2 e2 w2' true q2)
    (R : Longer d d' w1 p1 w2 p2) (f2 : Feasible q2 (e2.answer q2).2.e)
    (complete : (∃ x, Feasible q1 x) → (e1.answer q1).1 = true) : b1 = true := by
  rw [solve_reports S1.solve]
  exact complete ⟨_, c107_feasible S1 S2 R f2⟩

/-- **C107** (optimum): the plan returned over the shorter horizon costs at most what any plan returned over the longer
horizon costs, when the solver of the former returns a minimiser. -/
theorem c107_optimum (S1 : PlainSolve d dmax w1 g1 p1 e1 w1' true q1) (S2 : PlainSolve d' dmax w2 g2 p2 e2 w2' true q2)
    (R : Longer d d' w1 p1 w2 p2) (fr : CostsFresh d w1 g1) (f1 : IsOptimal q1 (e1.answer q1).2.e)
    (f2 : Feasible q2 (e2.answer q2).2.e) :
    totalCost d w1 p1 w1'.ctl.control.e ≤ totalCost d' w2 p2 w2'.ctl.control.e := by
  obtain ⟨κ, O⟩ := c32_objective S1.hist S1.allowed S1.plain fr S1.solve S1.ps
  have le := f1.2 _ (c107_feasible S1 S2 R f2)
  rw [O, O] at le
  rw [c40_control_is_answer S1.plain S1.solve, c40_control_is_answer S2.plain S2.solve]
  have := c107_cost R (registered_nonneg S1.hist fun _ _ h => h.2) (e2.answer q2).2.e
  linarith

/-- **C107** (feasibility, initial-state controller): if an initial state and the controls are feasible over the longer
horizon, so are they over the shorter one, when the bounds on the initial state are the same. -/
theorem c107_feasible_init (S1 : InitSolve d dmax w1 g1 p1 e1 w1' b1 q1) (S2 : InitSolve d' dmax w2 g2 p2 e2 w2' b2 q2)
    (R : Longer d d' w1 p1 w2 p2)
    (hb : ∀ r < d.n, w1.ctl.x0lb.e r = w2.ctl.x0lb.e r ∧ w1.ctl.x0ub.e r = w2.ctl.x0ub.e r) {x U : Nat → K}
    (h : Feasible q2 (joined d' x U)) : Feasible q1 (joined d x U) := by
  obtain ⟨F1, F2, F3⟩ := (c44_joint_feasible S2.hist (fun _ _ h => h.1) S2.allowed S2.init S2.clean S2.honest S2.solve S2.ps x U).1 h
  refine (c44_joint_feasible S1.hist (fun _ _ h => h.1) S1.allowed S1.init S1.clean S1.honest S1.solve S1.ps x U).2
    ⟨Longer.holds R (fun _ _ => rfl) F1, fun r hr => ?_, fun hb j hj => ?_⟩
  · rw [(hb r hr).1, (hb r hr).2]
    exact F2 r (by rw [R.n]; exact hr)
  · refine F3 ((Longer.bound R S1.hist.good S2.hist.good S1.ps S2.ps).1 hb) j (lt_of_lt_of_le hj ?_)
    rw [R.m]; exact Nat.mul_le_mul_left _ R.N

end World
end
end Copra
