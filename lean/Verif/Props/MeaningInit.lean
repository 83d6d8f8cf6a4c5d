import Verif.Props.InitRemoval
import Verif.Props.Meaning

/-! # C74 for `InitialStateLMPC`: only the meaning of the declarations matters -/

namespace Copra

namespace Spec
variable {K : Type} [Field K] [LinearOrder K]

/-- Two initial-state controllers that mean the same: from every initial state their systems have the same simulations, and
their costs differ by a constant, which may depend on the initial state; from every initial state within the bounds the
same (representable) control sequences satisfy all their constraints. -/
structure SameMeaningInit (d : Dims) (dmax : K) (w1 : World K) (p1 : Nat) (w2 : World K) (p2 : Nat) : Prop where
  traj : ∀ x U : Nat → K, ∀ k ≤ d.N, ∀ r < d.n, trajFrom d w1 p1 x U k r = trajFrom d w2 p2 x U k r
  cons : ∀ x U : Nat → K, InitBounds d w1.ctl x → (∀ j < d.m * d.N, -dmax ≤ U j ∧ U j ≤ dmax) →
    ((∀ i ∈ w1.ctl.spConstr, (w1.cons i).userData.Holds d (trajFrom d w1 p1 x U) U) ↔
      ∀ i ∈ w2.ctl.spConstr, (w2.cons i).userData.Holds d (trajFrom d w2 p2 x U) U)
  cost : ∀ x : Nat → K, ∃ κ : K, ∀ U : Nat → K,
    (w2.ctl.spCost.map fun i => (w2.costs i).userData.value d (trajFrom d w2 p2 x U) U).sum =
      (w1.ctl.spCost.map fun i => (w1.costs i).userData.value d (trajFrom d w1 p1 x U) U).sum + κ

end Spec
open Spec

set_option linter.unusedSectionVars false
set_option maxRecDepth 100000

section
variable {K : Type} [Field K] [LinearOrder K] [IsStrictOrderedRing K]

/-- The mixed term of a quadratic function. -/
def mixedTerm (n : Nat) (Q : Mat K) (y z : Nat → K) : K :=
  ∑ i ∈ Finset.range n, ∑ j ∈ Finset.range n, (y i * Q.e i j * z j + z i * Q.e i j * y j)

theorem quadValue_add (n : Nat) (Q : Mat K) (c : Vec K) (y z : Nat → K) :
    quadValue n Q c (fun j => y j + z j) = quadValue n Q c y + quadValue n Q c z + 1 / 2 * mixedTerm n Q y z := by
  unfold quadValue mixedTerm
  have quad : ∑ i ∈ Finset.range n, ∑ j ∈ Finset.range n, (y i + z i) * Q.e i j * (y j + z j) =
      (∑ i ∈ Finset.range n, ∑ j ∈ Finset.range n, y i * Q.e i j * y j)
      + (∑ i ∈ Finset.range n, ∑ j ∈ Finset.range n, z i * Q.e i j * z j)
      + ∑ i ∈ Finset.range n, ∑ j ∈ Finset.range n, (y i * Q.e i j * z j + z i * Q.e i j * y j) := by
    rw [← Finset.sum_add_distrib, ← Finset.sum_add_distrib]
    apply Finset.sum_congr rfl; intro i _
    rw [← Finset.sum_add_distrib, ← Finset.sum_add_distrib]
    apply Finset.sum_congr rfl; intro j _; ring
  have lin : ∑ i ∈ Finset.range n, c.e i * (y i + z i) =
      (∑ i ∈ Finset.range n, c.e i * y i) + ∑ i ∈ Finset.range n, c.e i * z i := by
    rw [← Finset.sum_add_distrib]
    apply Finset.sum_congr rfl; intro j _; ring
  rw [quad, lin]; ring

/-- A unit vector. -/
def unitAt (i : Nat) (j : Nat) : K := if j = i then 1 else 0

theorem sum_unitAt {n i : Nat} (hi : i < n) (f : Nat → K) : ∑ j ∈ Finset.range n, f j * unitAt i j = f i := by
  rw [Finset.sum_eq_single i]
  · unfold unitAt; rw [if_pos rfl, mul_one]
  · intro j _ h; unfold unitAt; rw [if_neg h, mul_zero]
  · intro h; exact absurd (Finset.mem_range.2 hi) h

theorem sum_unitAt2 {n i k : Nat} (hi : i < n) (hk : k < n) (Q : Mat K) :
    ∑ a ∈ Finset.range n, ∑ b ∈ Finset.range n, unitAt i a * Q.e a b * unitAt k b = Q.e i k := by
  have : ∀ a, ∑ b ∈ Finset.range n, unitAt i a * Q.e a b * unitAt k b = Q.e a k * unitAt i a := by
    intro a; rw [sum_unitAt hk]; ring
  simp only [this]
  exact sum_unitAt hi fun a => Q.e a k

theorem mixedTerm_unit {n i k : Nat} (hi : i < n) (hk : k < n) (Q : Mat K) :
    mixedTerm n Q (unitAt i) (unitAt k) = Q.e i k + Q.e k i := by
  unfold mixedTerm
  simp only [Finset.sum_add_distrib]
  rw [sum_unitAt2 hi hk, sum_unitAt2 hk hi]

theorem quadValue_unit {n i : Nat} (hi : i < n) (Q : Mat K) (c : Vec K) : quadValue n Q c (unitAt i) = 1 / 2 * Q.e i i + c.e i := by
  unfold quadValue
  rw [sum_unitAt2 hi hi, sum_unitAt hi]

theorem quadValue_zero (n : Nat) (Q : Mat K) (c : Vec K) : quadValue n Q c (fun _ => 0) = 0 := by
  unfold quadValue; simp

/-- Two quadratic functions of `(x, U)` whose difference depends on `x` only have the same coefficients but for those of `x`
alone. -/
theorem same_coefficients {n M : Nat} {Q1 Q2 : Mat K} {c1 c2 : Vec K}
    (s1 : ∀ a < n + M, ∀ b < M, Q1.e a (n + b) = Q1.e (n + b) a) (s2 : ∀ a < n + M, ∀ b < M, Q2.e a (n + b) = Q2.e (n + b) a)
    (h : ∀ y z : Nat → K, (∀ j < n, z j = 0) → quadValue (n + M) Q1 c1 (fun j => y j + z j) - quadValue (n + M) Q1 c1 y =
      quadValue (n + M) Q2 c2 (fun j => y j + z j) - quadValue (n + M) Q2 c2 y) :
    (∀ a < n + M, ∀ b < M, Q1.e a (n + b) = Q2.e a (n + b)) ∧ ∀ b < M, c1.e (n + b) = c2.e (n + b) := by
  have zero : ∀ b, ∀ j < n, (unitAt (n + b) : Nat → K) j = 0 := fun b j hj => by unfold unitAt; rw [if_neg (by omega)]
  have k : ∀ b, quadValue (n + M) Q1 c1 (unitAt (n + b)) = quadValue (n + M) Q2 c2 (unitAt (n + b)) := by
    intro b
    have := h (fun _ => 0) (unitAt (n + b)) (zero b)
    rw [quadValue_zero, quadValue_zero] at this
    simp only [zero_add, sub_zero] at this
    exact this
  have Qe : ∀ a < n + M, ∀ b < M, Q1.e a (n + b) = Q2.e a (n + b) := by
    intro a ha b hb
    have := h (unitAt a) (unitAt (n + b)) (zero b)
    rw [quadValue_add, quadValue_add, mixedTerm_unit ha (by omega), mixedTerm_unit ha (by omega), k b, ← s1 a ha b hb,
      ← s2 a ha b hb] at this
    linarith
  refine ⟨Qe, fun b hb => ?_⟩
  have := k b
  rw [quadValue_unit (by omega), quadValue_unit (by omega), Qe (n + b) (by omega) b hb] at this
  linarith

namespace World

variable {d : Dims} {dmax : K} {w1 w2 w1' w2' : World K} {g1 g2 : Ghost} {p1 p2 : Nat} {e1 e2 : SolveEnv K}
  {b1 b2 : Bool} {q1 q2 : QP K}

theorem InitSolve.symm (S : InitSolve d dmax w1 g1 p1 e1 w1' b1 q1) :
    ∀ a < d.n + d.m * d.N, ∀ b < d.m * d.N, q1.Q.e a (d.n + b) = q1.Q.e (d.n + b) a := by
  obtain ⟨_, QU, W, Ex, hpd, _, hUU, hxU, hUx, _⟩ := hessian_blocks S.hist (fun _ _ h => h.2) S.allowed S.init S.inverse S.solve
  intro a ha b hb
  by_cases h : a < d.n
  · rw [hxU a h b hb, hUx a h b hb]
  · obtain ⟨a, rfl⟩ := Nat.exists_eq_add_of_le (Nat.le_of_not_lt h)
    have ha : a < d.m * d.N := by omega
    rw [hUU a ha b hb, hUU b hb a ha, hpd.1 a ha b hb]

/-- Two initial-state controllers whose declarations mean the same hand the same objective to their solvers. -/
theorem c74_same_objective_init (S1 : InitSolve d dmax w1 g1 p1 e1 w1' b1 q1) (S2 : InitSolve d dmax w2 g2 p2 e2 w2' b2 q2)
    (Mn : SameMeaningInit d dmax w1 p1 w2 p2) (I : SameInitData d w1.ctl w2.ctl) (inv : SameInverse d e1 e2) (y : Nat → K) :
    objective q1 y = objective q2 y := by
  obtain ⟨p, hp, R1⟩ := S1.hist.good.solved S1.allowed.2 S1.solve
  rw [S1.ps] at hp; cases hp
  obtain ⟨p, hp, R2⟩ := S2.hist.good.solved S2.allowed.2 S2.solve
  rw [S2.ps] at hp; cases hp
  have A1 := R1.init S1.init
  have A2 := R2.init S2.init
  have O1 : ∀ y, objective q1 y = quadValue (d.n + d.m * d.N) q1.Q q1.c y := fun y => by unfold objective; rw [A1.cr]
  have O2 : ∀ y, objective q2 y = quadValue (d.n + d.m * d.N) q2.Q q2.c y := fun y => by unfold objective; rw [A2.cr]
  have diff : ∀ x U V : Nat → K, objective q1 (joined d x U) - objective q1 (joined d x V) =
      objective q2 (joined d x U) - objective q2 (joined d x V) := by
    intro x U V
    obtain ⟨k1, h1⟩ := c58_objective_per_state S1.hist S1.allowed S1.init S1.fresh S1.solve S1.ps x
    obtain ⟨k2, h2⟩ := c58_objective_per_state S2.hist S2.allowed S2.init S2.fresh S2.solve S2.ps x
    obtain ⟨κ, C⟩ := Mn.cost x
    rw [h1, h1, h2, h2]
    unfold totalCostFrom
    rw [C U, C V]
    ring
  obtain ⟨hQ, hc⟩ := same_coefficients (c1 := q1.c) (c2 := q2.c) (InitSolve.symm S1) (InitSolve.symm S2) (by
    intro y z hz
    rw [← O1, ← O1, ← O2, ← O2]
    have e : (fun j => y j + z j) = joined d y fun j => y (d.n + j) + z (d.n + j) := by
      funext j
      by_cases h : j < d.n
      · rw [joined_lt h, hz j h, add_zero]
      · obtain ⟨j, rfl⟩ := Nat.exists_eq_add_of_le (Nat.le_of_not_lt h)
        rw [joined_add]
    have e' : y = joined d y fun j => y (d.n + j) := (joined_self y).symm
    rw [e]
    have := diff y (fun j => y (d.n + j) + z (d.n + j)) fun j => y (d.n + j)
    rwa [← e'] at this)
  have hxx := hxx_init A1 A2 I.R inv (S1.allowed.2.init S1.init).2.2.2.2.2 (fun a ha b hb => hQ (d.n + a) (by omega) b hb)
    (fun a ha b hb => hQ a (by omega) b hb)
  have s1 := InitSolve.symm S1
  have s2 := InitSolve.symm S2
  rw [O1, O2]
  unfold quadValue
  congr 1
  · congr 1
    apply Finset.sum_congr rfl; intro a ha
    apply Finset.sum_congr rfl; intro b hb
    rw [Finset.mem_range] at ha hb
    congr 2
    by_cases hb' : b < d.n
    · by_cases ha' : a < d.n
      · exact hxx a ha' b hb'
      · obtain ⟨a, rfl⟩ := Nat.exists_eq_add_of_le (Nat.le_of_not_lt ha')
        rw [← s1 b hb a (by omega), ← s2 b hb a (by omega)]
        exact hQ b hb a (by omega)
    · obtain ⟨b, rfl⟩ := Nat.exists_eq_add_of_le (Nat.le_of_not_lt hb')
      exact hQ a ha b (by omega)
  · apply Finset.sum_congr rfl; intro a ha
    rw [Finset.mem_range] at ha
    congr 1
    by_cases ha' : a < d.n
    · rw [A1.cx a ha', A2.cx a ha']; exact I.r a ha'
    · obtain ⟨a, rfl⟩ := Nat.exists_eq_add_of_le (Nat.le_of_not_lt ha')
      exact hc a (by omega)

/-- **C74** for an `InitialStateLMPC`: two initial-state controllers with the same initial-state cost and bounds whose
declarations mean the same return the same `initialState()`, `control()` and `trajectory()` when their solvers return
minimisers. -/
theorem c74_same_meaning_init (S1 : InitSolve d dmax w1 g1 p1 e1 w1' true q1) (S2 : InitSolve d dmax w2 g2 p2 e2 w2' true q2)
    (Mn : SameMeaningInit d dmax w1 p1 w2 p2) (I : SameInitData d w1.ctl w2.ctl) (inv : SameInverse d e1 e2) (hR : PD d.n w1.ctl.R)
    (o1 : IsOptimal q1 (e1.answer q1).2.e) (o2 : IsOptimal q2 (e2.answer q2).2.e)
    (r1 : ∀ j < d.m * d.N, -dmax ≤ w1'.ctl.control.e j ∧ w1'.ctl.control.e j ≤ dmax)
    (r2 : ∀ j < d.m * d.N, -dmax ≤ w2'.ctl.control.e j ∧ w2'.ctl.control.e j ≤ dmax) :
    ∃ x1 x2, w1'.ctl.initialState (w1'.pss p1) = some x1 ∧ w2'.ctl.initialState (w2'.pss p2) = some x2 ∧ VecEq x1 x2 ∧
      VecEq w1'.ctl.control w2'.ctl.control ∧ VecEq w1'.ctl.trajectory w2'.ctl.trajectory := by
  obtain ⟨x1, h1, z1, c1, t1, a1⟩ := InitSolve.result S1
  obtain ⟨x2, h2, z2, c2, t2, a2⟩ := InitSolve.result S2
  obtain ⟨W1, n1, k1⟩ := InitSolve.sized S1
  obtain ⟨W2, n2, k2⟩ := InitSolve.sized S2
  replace o1 := optimal_ext W1 (fun j hj => (a1 j hj).symm) o1
  replace o2 := optimal_ext W2 (fun j hj => (a2 j hj).symm) o2
  have same := c74_same_objective_init S1 S2 Mn I inv
  obtain ⟨A1, B1, _⟩ := (InitSolve.feasible S1 _ _).1 o1.1
  obtain ⟨A2, B2, _⟩ := (InitSolve.feasible S2 _ _).1 o2.1
  have g2 : Feasible q1 (joined d x2.e w2'.ctl.control.e) :=
    (InitSolve.feasible S1 _ _).2 ⟨(Mn.cons _ _ ((bounds_same I _).2 B2) r2).2 A2, (bounds_same I _).2 B2, fun _ => r2⟩
  have g1 : Feasible q2 (joined d x1.e w1'.ctl.control.e) :=
    (InitSolve.feasible S2 _ _).2 ⟨(Mn.cons _ _ B1 r1).1 A1, (bounds_same I _).1 B1, fun _ => r1⟩
  have le2 := o2.2 _ g1
  rw [← same, ← same] at le2
  have le4 := o1.2 _ (feasible_mid o1.1 g2)
  have P := (c45_hessian_partial S1.hist (fun _ _ h => h.2) S1.allowed S1.init S1.inverse S1.solve).2 hR
  rw [n1, ← k1] at P
  have e := pd_unique P le4 (le_trans le2 le4)
  have h : ∀ j < d.n + d.m * d.N, joined d x1.e w1'.ctl.control.e j = joined d x2.e w2'.ctl.control.e j :=
    fun j hj => e j (by rw [k1]; exact hj)
  have hx : ∀ j < d.n, x1.e j = x2.e j := fun j hj => by
    have := h j (by omega)
    rwa [joined_lt hj, joined_lt hj] at this
  have hU : ∀ j < d.m * d.N, w1'.ctl.control.e j = w2'.ctl.control.e j := fun j hj => by
    have := h (d.n + j) (by omega)
    rwa [joined_add, joined_add] at this
  refine ⟨x1, x2, h1, h2, ⟨z1.trans z2.symm, fun j hj => hx j (by rw [← z1]; exact hj)⟩,
    ⟨c1.trans c2.symm, fun j hj => hU j (by rw [← c1]; exact hj)⟩, stacked_eq t1 t2 fun k hk r hr => ?_⟩
  rw [← Mn.traj _ _ k hk r hr]
  unfold Spec.trajFrom
  exact sim_congr d _ _ _ hx hU k hk r hr

end World
end
end Copra
