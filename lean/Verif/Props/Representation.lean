import Verif.SpecRep
import Verif.Props.Solvable

/-! # C93: the state-space model is a matter of taste -/

namespace Copra
open Spec

set_option linter.unusedSectionVars false
set_option maxRecDepth 100000

section
variable {K : Type} [Field K] [LinearOrder K] [IsStrictOrderedRing K]

namespace World

variable {n1 n2 m N : Nat} {T : Mat K}

/-- What the rows of a matrix read from `T x`. -/
theorem through_sum {s1 s2 : Nat} {e1 e2 : Nat → K} {x1 x2 : Nat → K} (hx : ∀ i < n2, x2 i = ∑ j ∈ Finset.range n1, T.e i j * x1 j)
    (he : ∀ j < n1, e1 (s1 + j) = ∑ i ∈ Finset.range n2, e2 (s2 + i) * T.e i j) :
    ∑ c ∈ Finset.range n1, e1 (s1 + c) * x1 c = ∑ c ∈ Finset.range n2, e2 (s2 + c) * x2 c := by
  have h2 : ∀ c ∈ Finset.range n2, e2 (s2 + c) * x2 c = ∑ j ∈ Finset.range n1, e2 (s2 + c) * T.e c j * x1 j := by
    intro c hc
    rw [hx c (Finset.mem_range.1 hc), Finset.mul_sum]
    exact Finset.sum_congr rfl fun j _ => by ring
  rw [Finset.sum_congr rfl h2, Finset.sum_comm]
  refine Finset.sum_congr rfl fun j hj => ?_
  rw [he j (Finset.mem_range.1 hj), Finset.sum_mul]

theorem sim_through {A1 B1 A2 B2 : Mat K} {v1 v2 : Vec K} {x1 x2 : Nat → K}
    (hA : ∀ i < n2, ∀ j < n1, ∑ b ∈ Finset.range n2, A2.e i b * T.e b j = ∑ a ∈ Finset.range n1, T.e i a * A1.e a j)
    (hB : ∀ i < n2, ∀ c < m, B2.e i c = ∑ a ∈ Finset.range n1, T.e i a * B1.e a c)
    (hv : ∀ i < n2, v2.e i = ∑ a ∈ Finset.range n1, T.e i a * v1.e a)
    (hx : ∀ i < n2, x2 i = ∑ a ∈ Finset.range n1, T.e i a * x1 a) (U : Nat → K) :
    ∀ k, ∀ i < n2, sim ⟨n2, m, N⟩ A2 B2 v2 x2 U k i = ∑ j ∈ Finset.range n1, T.e i j * sim ⟨n1, m, N⟩ A1 B1 v1 x1 U k j := by
  intro k
  induction k with
  | zero => exact hx
  | succ k ih =>
    intro i hi
    show (∑ c ∈ Finset.range n2, A2.e i c * sim ⟨n2, m, N⟩ A2 B2 v2 x2 U k c)
        + (∑ c ∈ Finset.range m, B2.e i c * U (k * m + c)) + v2.e i =
      ∑ j ∈ Finset.range n1, T.e i j * ((∑ c ∈ Finset.range n1, A1.e j c * sim ⟨n1, m, N⟩ A1 B1 v1 x1 U k c)
        + (∑ c ∈ Finset.range m, B1.e j c * U (k * m + c)) + v1.e j)
    have e1 : ∑ c ∈ Finset.range n2, A2.e i c * sim ⟨n2, m, N⟩ A2 B2 v2 x2 U k c =
        ∑ j ∈ Finset.range n1, T.e i j * ∑ c ∈ Finset.range n1, A1.e j c * sim ⟨n1, m, N⟩ A1 B1 v1 x1 U k c := by
      have := through_sum (T := T) (s1 := 0) (s2 := 0) (e1 := fun j => ∑ a ∈ Finset.range n1, T.e i a * A1.e a j) (e2 := A2.e i)
        (x1 := sim ⟨n1, m, N⟩ A1 B1 v1 x1 U k) (x2 := sim ⟨n2, m, N⟩ A2 B2 v2 x2 U k) ih (fun j hj => by
          simp only [Nat.zero_add]; exact (hA i hi j hj).symm)
      simp only [Nat.zero_add] at this
      rw [← this]
      simp only [Finset.sum_mul, Finset.mul_sum]
      rw [Finset.sum_comm]
      exact Finset.sum_congr rfl fun a _ => Finset.sum_congr rfl fun c _ => by ring
    have e2 : ∑ c ∈ Finset.range m, B2.e i c * U (k * m + c) =
        ∑ j ∈ Finset.range n1, T.e i j * ∑ c ∈ Finset.range m, B1.e j c * U (k * m + c) := by
      rw [Finset.sum_congr rfl fun c hc => by rw [hB i hi c (Finset.mem_range.1 hc), Finset.sum_mul]]
      rw [Finset.sum_comm]
      simp only [Finset.mul_sum]
      exact Finset.sum_congr rfl fun a _ => Finset.sum_congr rfl fun c _ => by ring
    rw [e1, e2, hv i hi, ← Finset.sum_add_distrib, ← Finset.sum_add_distrib]
    exact Finset.sum_congr rfl fun a _ => by ring

variable {X1 X2 : Nat → Nat → K} {U : Nat → K}

theorem through_step {E1 E2 : Mat K} (hX : ∀ k ≤ N, ∀ i < n2, X2 k i = ∑ j ∈ Finset.range n1, T.e i j * X1 k j)
    (h : SeenThrough n1 n2 N T E1 E2) (hs : E1.cols = n1) {k r : Nat} (hk : k ≤ N) (hr : r < E1.rows) :
    ∑ c ∈ Finset.range n1, E1.e r c * X1 k c = ∑ c ∈ Finset.range n2, E2.e r c * X2 k c := by
  have := through_sum (T := T) (s1 := 0) (s2 := 0) (e1 := E1.e r) (e2 := E2.e r) (hX k hk) (fun j hj => by
    have := h.2.2 r hr 0 (by unfold blocks; rw [if_pos hs]; exact Nat.one_pos) j hj
    simpa only [Nat.zero_mul] using this)
  simpa only [Nat.zero_add] using this

theorem through_full {E1 E2 : Mat K} (hX : ∀ k ≤ N, ∀ i < n2, X2 k i = ∑ j ∈ Finset.range n1, T.e i j * X1 k j)
    (h : SeenThrough n1 n2 N T E1 E2) (hs : ¬ E1.cols = n1) {r : Nat} (hr : r < E1.rows) :
    ∑ k ∈ Finset.range (N + 1), ∑ c ∈ Finset.range n1, E1.e r (k * n1 + c) * X1 k c
      = ∑ k ∈ Finset.range (N + 1), ∑ c ∈ Finset.range n2, E2.e r (k * n2 + c) * X2 k c := by
  refine Finset.sum_congr rfl fun k hk => ?_
  have hk := Finset.mem_range.1 hk
  exact through_sum (T := T) (e1 := E1.e r) (e2 := E2.e r) (hX k (by omega)) (fun j hj =>
    h.2.2 r hr k (by unfold blocks; rw [if_neg hs]; exact hk) j hj)

theorem controls_step {s : Nat} {G1 G2 : Mat K} (h : SameOnControls m s G1 G2) (hs : 0 < s) {r : Nat} (hr : r < G1.rows) (u : Nat → K) :
    ∑ c ∈ Finset.range m, G1.e r c * u c = ∑ c ∈ Finset.range m, G2.e r c * u c := by
  refine Finset.sum_congr rfl fun c hc => ?_
  have := h.2.2 r hr 0 hs c (Finset.mem_range.1 hc)
  simp only [Nat.zero_mul, Nat.zero_add] at this
  rw [this]

theorem controls_full {G1 G2 : Mat K} (h : SameOnControls m N G1 G2) {r : Nat} (hr : r < G1.rows) (u : Nat → Nat → K) :
    ∑ k ∈ Finset.range N, ∑ c ∈ Finset.range m, G1.e r (k * m + c) * u k c
      = ∑ k ∈ Finset.range N, ∑ c ∈ Finset.range m, G2.e r (k * m + c) * u k c := by
  refine Finset.sum_congr rfl fun k hk => Finset.sum_congr rfl fun c hc => ?_
  rw [h.2.2 r hr k (Finset.mem_range.1 hk) c (Finset.mem_range.1 hc)]

theorem holds_through (hX : ∀ k ≤ N, ∀ i < n2, X2 k i = ∑ j ∈ Finset.range n1, T.e i j * X1 k j) {D1 D2 : ConstrData K}
    (h : D1.Through n1 n2 m N T D2) : D1.Holds ⟨n1, m, N⟩ X1 U ↔ D2.Holds ⟨n2, m, N⟩ X2 U := by
  cases D1 <;> cases D2 <;> simp only [ConstrData.Through] at h
  case trajectory.trajectory q1 E1 f1 q2 E2 f2 =>
    obtain ⟨rfl, hE, hf⟩ := h
    simp only [ConstrData.Holds]
    by_cases hs : E1.cols = n1
    · rw [if_pos hs, if_pos (hE.2.1.1 hs)]
      unfold TrajectoryStep
      rw [← hE.1]
      refine forall₂_congr fun k hk => forall₂_congr fun r hr => ?_
      rw [through_step hX hE hs hk hr, hf r hr]
    · rw [if_neg hs, if_neg (fun h => hs (hE.2.1.2 h))]
      unfold TrajectoryFull
      rw [← hE.1]
      refine forall₂_congr fun r hr => ?_
      rw [through_full hX hE hs hr, hf r hr]
  case control.control q1 G1 f1 q2 G2 f2 =>
    obtain ⟨rfl, hG, hf⟩ := h
    simp only [ConstrData.Holds]
    rw [← hG.2.1]
    by_cases hs : G1.cols = m
    · rw [if_pos hs, if_pos hs]
      unfold ControlStep
      rw [← hG.1]
      refine forall₂_congr fun k hk => forall₂_congr fun r hr => ?_
      rw [controls_step hG (by unfold blocks; rw [if_pos hs]; exact Nat.one_pos) hr, hf r hr]
      rfl
    · rw [if_neg hs, if_neg hs]
      unfold ControlFull
      rw [← hG.1]
      unfold blocks at hG
      rw [if_neg hs] at hG
      refine forall₂_congr fun r hr => ?_
      rw [controls_full hG hr, hf r hr]
      rfl
  case mixed.mixed q1 E1 G1 f1 q2 E2 G2 f2 =>
    obtain ⟨rfl, hE, hG, hr0, hc, hf⟩ := h
    simp only [ConstrData.Holds]
    rw [← hG.2.1]
    by_cases hs : E1.cols = n1
    · rw [if_pos ⟨hs, hc hs⟩, if_pos ⟨hE.2.1.1 hs, hc hs⟩]
      unfold MixedStep
      rw [← hE.1]
      refine forall₂_congr fun k hk => forall₂_congr fun r hr => ?_
      rw [through_step hX hE hs (le_of_lt hk) hr,
        controls_step hG (by unfold blocks; rw [if_pos hs]; exact Nat.one_pos) (by rw [hr0]; exact hr), hf r hr]
      rfl
    · rw [if_neg (fun h => hs h.1), if_neg (fun h => hs (hE.2.1.2 h.1))]
      unfold MixedFull
      rw [← hE.1]
      unfold blocks at hG
      rw [if_neg hs] at hG
      refine forall₂_congr fun r hr => ?_
      rw [through_full hX hE hs hr, controls_full hG (by rw [hr0]; exact hr), hf r hr]
      rfl
  case ctrlBound.ctrlBound l1 u1 l2 u2 =>
    obtain ⟨hl, h1, h2⟩ := h
    simp only [ConstrData.Holds]
    rw [← hl]
    by_cases hs : l1.rows = m
    · rw [if_pos hs, if_pos hs]
      unfold blocks at h1 h2
      rw [if_pos hs, Nat.one_mul] at h1 h2
      unfold CtrlBoundStep
      refine forall₂_congr fun k hk => forall₂_congr fun c hc => ?_
      rw [h1 c hc, h2 c hc]
      rfl
    · rw [if_neg hs, if_neg hs]
      unfold blocks at h1 h2
      rw [if_neg hs] at h1 h2
      unfold CtrlBoundFull
      refine forall₂_congr fun k hk => forall₂_congr fun c hc => ?_
      have : k * m + c < N * m := by
        calc k * m + c < k * m + m := by have : c < m := hc; omega
          _ = (k + 1) * m := by ring
          _ ≤ N * m := Nat.mul_le_mul_right _ hk
      rw [h1 _ this, h2 _ this]
      rfl

theorem wsq_congr {r1 r2 : Nat} {v1 v2 p1 p2 : Vec K} {y1 y2 : Nat → K} (hr : r1 = r2) (hv : SameUpTo r1 v1 v2)
    (hp : SameUpTo r1 p1 p2) (hy : ∀ r < r1, y1 r = y2 r) : wsq r1 v1 p1 y1 = wsq r2 v2 p2 y2 := by
  subst hr
  unfold wsq
  refine Finset.sum_congr rfl fun r hr => ?_
  have hr := Finset.mem_range.1 hr
  rw [hv r hr, hp r hr, hy r hr]

theorem value_through (hX : ∀ k ≤ N, ∀ i < n2, X2 k i = ∑ j ∈ Finset.range n1, T.e i j * X1 k j) {D1 D2 : CostData K}
    (h : D1.Through n1 n2 m N T D2) : D1.value ⟨n1, m, N⟩ X1 U = D2.value ⟨n2, m, N⟩ X2 U := by
  cases D1 <;> cases D2 <;> simp only [CostData.Through] at h
  case trajectory.trajectory M1 p1 v1 M2 p2 v2 =>
    obtain ⟨hM, hp, hv⟩ := h
    simp only [CostData.value]
    by_cases hs : M1.cols = n1
    · rw [if_pos hs, if_pos (hM.2.1.1 hs)]
      refine Finset.sum_congr rfl fun k hk => wsq_congr hM.1 hv hp fun r hr => ?_
      have hk := Finset.mem_range.1 hk
      exact through_step hX hM hs (by omega) hr
    · rw [if_neg hs, if_neg (fun h => hs (hM.2.1.2 h))]
      exact wsq_congr hM.1 hv hp fun r hr => through_full hX hM hs hr
  case target.target M1 p1 v1 M2 p2 v2 =>
    obtain ⟨⟨hs, hM⟩, hp, hv⟩ := h
    simp only [CostData.value]
    exact wsq_congr hM.1 hv hp fun r hr => through_step hX hM hs le_rfl hr
  case control.control N1 p1 v1 N2 p2 v2 =>
    obtain ⟨hG, hp, hv⟩ := h
    simp only [CostData.value]
    rw [← hG.2.1]
    by_cases hs : N1.cols = m
    · rw [if_pos hs, if_pos hs]
      refine Finset.sum_congr rfl fun k _ => wsq_congr hG.1 hv hp fun r hr => ?_
      exact controls_step hG (by unfold blocks; rw [if_pos hs]; exact Nat.one_pos) hr _
    · rw [if_neg hs, if_neg hs]
      unfold blocks at hG
      rw [if_neg hs] at hG
      exact wsq_congr hG.1 hv hp fun r hr => controls_full hG hr _
  case mixed.mixed M1 N1 p1 v1 M2 N2 p2 v2 =>
    obtain ⟨hE, hG, hr0, hc, hp, hv⟩ := h
    simp only [CostData.value]
    rw [← hG.2.1]
    by_cases hs : M1.cols = n1
    · rw [if_pos ⟨hs, hc hs⟩, if_pos ⟨hE.2.1.1 hs, hc hs⟩]
      refine Finset.sum_congr rfl fun k hk => wsq_congr hE.1 hv hp fun r hr => ?_
      rw [through_step hX hE hs (le_of_lt (Finset.mem_range.1 hk)) hr,
        controls_step hG (by unfold blocks; rw [if_pos hs]; exact Nat.one_pos) (by rw [hr0]; exact hr)]
      rfl
    · rw [if_neg (fun h => hs h.1), if_neg (fun h => hs (hE.2.1.2 h.1))]
      unfold blocks at hG
      rw [if_neg hs] at hG
      refine wsq_congr hE.1 hv hp fun r hr => ?_
      rw [through_full hX hE hs hr, controls_full hG (by rw [hr0]; exact hr)]
      rfl

variable {dmax : K} {E1 E2 : World K → Op K → Prop} {w1 w2 w1' w2' : World K} {g1 g2 : Ghost}
  {env1 env2 : SolveEnv K} {b1 b2 : Bool} {q1 q2 : QP K} {p1 p2 : Nat}

theorem forall₂_mem_left {α : Type} {R : α → α → Prop} {L1 L2 : List α} (h : List.Forall₂ R L1 L2) {a : α} (ha : a ∈ L1) :
    ∃ b ∈ L2, R a b := by
  induction h with
  | nil => simp at ha
  | cons h _ ih =>
    rcases List.mem_cons.1 ha with rfl | ha
    · exact ⟨_, by simp, h⟩
    · obtain ⟨b, hb, r⟩ := ih ha
      exact ⟨b, by simp [hb], r⟩

theorem forall₂_mem_right {α : Type} {R : α → α → Prop} {L1 L2 : List α} (h : List.Forall₂ R L1 L2) {b : α} (hb : b ∈ L2) :
    ∃ a ∈ L1, R a b := by
  obtain ⟨a, ha, r⟩ := forall₂_mem_left h.flip hb
  exact ⟨a, ha, r⟩

theorem forall₂_sum {α : Type} {R : α → α → Prop} {f1 f2 : α → K} {L1 L2 : List α} (h : List.Forall₂ R L1 L2)
    (hf : ∀ a b, R a b → f1 a = f2 b) : (L1.map f1).sum = (L2.map f2).sum := by
  induction h with
  | nil => rfl
  | cons h _ ih => simp only [List.map_cons, List.sum_cons, ih, hf _ _ h]

theorem sameThrough_traj (S : SameThrough n1 n2 m N T w1 p1 w2 p2) (U : Nat → K) (k : Nat) :
    ∀ i < n2, Spec.traj ⟨n2, m, N⟩ w2 p2 U k i = ∑ j ∈ Finset.range n1, T.e i j * Spec.traj ⟨n1, m, N⟩ w1 p1 U k j :=
  sim_through (N := N) S.A S.B S.bias S.x0 U k

theorem sameThrough_cost (S : SameThrough n1 n2 m N T w1 p1 w2 p2) (U : Nat → K) :
    totalCost ⟨n1, m, N⟩ w1 p1 U = totalCost ⟨n2, m, N⟩ w2 p2 U := by
  obtain ⟨L, hL, F⟩ := S.costs
  unfold totalCost
  rw [← (hL.map fun i => (w2.costs i).userData.value ⟨n2, m, N⟩ (Spec.traj ⟨n2, m, N⟩ w2 p2 U) U).sum_eq,
    forall₂_sum F fun a b r => value_through (fun k _ => sameThrough_traj S U k) r]

theorem sameThrough_holds (S : SameThrough n1 n2 m N T w1 p1 w2 p2) (U : Nat → K) :
    (∀ i ∈ w1.ctl.spConstr, (w1.cons i).userData.Holds ⟨n1, m, N⟩ (Spec.traj ⟨n1, m, N⟩ w1 p1 U) U) ↔
    ∀ i ∈ w2.ctl.spConstr, (w2.cons i).userData.Holds ⟨n2, m, N⟩ (Spec.traj ⟨n2, m, N⟩ w2 p2 U) U := by
  obtain ⟨L, hL, F⟩ := S.cons
  constructor
  · intro h j hj
    obtain ⟨i, hi, r⟩ := forall₂_mem_right F (hL.mem_iff.2 hj)
    exact (holds_through (fun k _ => sameThrough_traj S U k) r).1 (h i hi)
  · intro h i hi
    obtain ⟨j, hj, r⟩ := forall₂_mem_left F hi
    exact (holds_through (fun k _ => sameThrough_traj S U k) r).2 (h j (hL.mem_iff.1 hj))

theorem through_honest {D1 D2 : ConstrData K} (h : D1.Through n1 n2 m N T D2) : D1.Honest ∧ D2.Honest := by
  cases D1 <;> cases D2 <;> simp only [ConstrData.Through] at h <;> exact ⟨trivial, trivial⟩

theorem through_bound {c1 c2 : Constr K} (h : c1.userData.Through n1 n2 m N T c2.userData) :
    c1.constraintType = .bound ↔ c2.constraintType = .bound := by
  unfold Constr.userData Constr.constraintType at *
  cases k1 : c1.kind <;> cases k2 : c2.kind <;> rw [k1, k2] at h <;> dsimp only at h ⊢ <;>
    (try split at h) <;> (try split at h) <;> first | exact h.elim | simp | (split <;> split <;> simp)

theorem sameThrough_unbounded (S : SameThrough n1 n2 m N T w1 p1 w2 p2) (P1 : LMPC.Partition w1.cons w1.ctl)
    (P2 : LMPC.Partition w2.cons w2.ctl) : w1.ctl.spBoundConstr = [] ↔ w2.ctl.spBoundConstr = [] := by
  obtain ⟨L, hL, F⟩ := S.cons
  rw [P1.bound, P2.bound, List.filter_eq_nil_iff, List.filter_eq_nil_iff]
  simp only [decide_eq_true_eq]
  constructor
  · intro h j hj
    obtain ⟨i, hi, r⟩ := forall₂_mem_right F (hL.mem_iff.2 hj)
    exact fun e => h i hi ((through_bound r).2 e)
  · intro h i hi
    obtain ⟨j, hj, r⟩ := forall₂_mem_left F hi
    exact fun e => h j (hL.mem_iff.1 hj) ((through_bound r).1 e)

theorem objective_zero (q : QP K) : objective q (fun _ => 0) = 0 := by
  unfold objective quadValue; simp

/-- **C93**: the state-space model is a matter of taste.  Two programs, each with its own history, describe the same plant
with states `x` and `T x` (other units, other coordinates, irrelevant states left out: `T` need not be invertible) and
declare constraints and costs, in any order, that say the same about the states and the controls.  Then the two problems
handed to the solver — over the same controls — have the same admissible control sequences, the same objective and
the same minimisers. -/
theorem c93_same_problem (h1 : Hist ⟨n1, m, N⟩ dmax E1 w1 g1) (h2 : Hist ⟨n2, m, N⟩ dmax E2 w2 g2)
    (hE1 : ∀ w op, E1 w op → NoBoundSpan w op) (hE2 : ∀ w op, E2 w op → NoBoundSpan w op)
    (o1 : OpOk ⟨n1, m, N⟩ w1 g1 (.solve env1)) (o2 : OpOk ⟨n2, m, N⟩ w2 g2 (.solve env2))
    (hp1 : w1.ctl.ps = some p1) (hp2 : w2.ctl.ps = some p2)
    (i1 : w1.ctl.isInit = false) (i2 : w2.ctl.isInit = false) (same : SameThrough n1 n2 m N T w1 p1 w2 p2)
    (f1 : CostsFresh ⟨n1, m, N⟩ w1 g1) (f2 : CostsFresh ⟨n2, m, N⟩ w2 g2)
    (c1 : w1.ctl.spBoundConstr = [] → g1.clean) (c2 : w2.ctl.spBoundConstr = [] → g2.clean)
    (s1 : w1.solve env1 = some (w1', b1, q1)) (s2 : w2.solve env2 = some (w2', b2, q2)) :
    q1.nrVar = q2.nrVar ∧ (∀ U, Feasible q1 U ↔ Feasible q2 U) ∧ (∀ U, objective q1 U = objective q2 U) ∧
      ∀ U, IsOptimal q1 U ↔ IsOptimal q2 U := by
  obtain ⟨L, hL, F⟩ := same.cons
  have hh1 : ∀ i ∈ w1.ctl.spConstr, (w1.cons i).userData.Honest := fun i hi => by
    obtain ⟨j, _, r⟩ := forall₂_mem_left F hi
    exact (through_honest r).1
  have hh2 : ∀ i ∈ w2.ctl.spConstr, (w2.cons i).userData.Honest := fun i hi => by
    obtain ⟨j, _, r⟩ := forall₂_mem_right F (hL.mem_iff.2 hi)
    exact (through_honest r).2
  have F1 := c30_feasible_set h1 hE1 o1 i1 c1 hh1 s1 hp1
  have F2 := c30_feasible_set h2 hE2 o2 i2 c2 hh2 s2 hp2
  obtain ⟨κ1, O1⟩ := c32_objective h1 o1 i1 f1 s1 hp1
  obtain ⟨κ2, O2⟩ := c32_objective h2 o2 i2 f2 s2 hp2
  have ub := sameThrough_unbounded same (h1.good.canUpdate hp1).part (h2.good.canUpdate hp2).part
  have feas : ∀ U, Feasible q1 U ↔ Feasible q2 U := fun U => by
    rw [F1, F2, sameThrough_holds same, ub]
  have obj : ∀ U, objective q1 U = objective q2 U := by
    have z := O1 fun _ => 0
    have z' := O2 fun _ => 0
    rw [objective_zero] at z z'
    rw [sameThrough_cost same] at z
    intro U
    rw [O1, O2, sameThrough_cost same]
    linarith
  refine ⟨?_, feas, obj, fun U => ?_⟩
  · obtain ⟨_, _, _, e1, _, _, v1⟩ := c50_solve_defined h1 o1
    obtain ⟨_, _, _, e2, _, _, v2⟩ := c50_solve_defined h2 o2
    rw [s1] at e1; cases e1
    rw [s2] at e2; cases e2
    rw [v1, v2]
    unfold numVars
    rw [i1, i2]
    rfl
  · unfold IsOptimal
    rw [feas, obj]
    exact and_congr_right fun _ => forall_congr' fun y => by rw [feas, obj]

/-- **C93**, the results: if moreover both solvers succeed and return minimisers of the problems handed to them, both
programs get the same `control()`, and the second `trajectory()` is the image of the first one under `T`. -/
theorem c93_same_answer (h1 : Hist ⟨n1, m, N⟩ dmax E1 w1 g1) (h2 : Hist ⟨n2, m, N⟩ dmax E2 w2 g2)
    (hE1 : ∀ w op, E1 w op → NoBoundSpan w op ∧ NonnegWeights w op) (hE2 : ∀ w op, E2 w op → NoBoundSpan w op)
    (o1 : OpOk ⟨n1, m, N⟩ w1 g1 (.solve env1)) (o2 : OpOk ⟨n2, m, N⟩ w2 g2 (.solve env2))
    (hp1 : w1.ctl.ps = some p1) (hp2 : w2.ctl.ps = some p2)
    (i1 : w1.ctl.isInit = false) (i2 : w2.ctl.isInit = false) (same : SameThrough n1 n2 m N T w1 p1 w2 p2)
    (f1 : CostsFresh ⟨n1, m, N⟩ w1 g1) (f2 : CostsFresh ⟨n2, m, N⟩ w2 g2)
    (c1 : w1.ctl.spBoundConstr = [] → g1.clean) (c2 : w2.ctl.spBoundConstr = [] → g2.clean)
    (s1 : w1.solve env1 = some (w1', true, q1)) (s2 : w2.solve env2 = some (w2', true, q2))
    (m1 : IsOptimal q1 (env1.answer q1).2.e) (m2 : IsOptimal q2 (env2.answer q2).2.e) :
    VecEq w1'.ctl.control w2'.ctl.control ∧
    ∀ k ≤ N, ∀ i < n2, w2'.ctl.trajectory.e (k * n2 + i) = ∑ j ∈ Finset.range n1, T.e i j * w1'.ctl.trajectory.e (k * n1 + j) := by
  obtain ⟨_, _, _, opt⟩ := c93_same_problem h1 h2 (fun w op h => (hE1 w op h).1) hE2 o1 o2 hp1 hp2 i1 i2 same f1 f2 c1 c2 s1 s2
  have U := c29_unique_minimiser h1 (fun w op h => (hE1 w op h).2) o1 i1 s1 m1 ((opt _).2 m2)
  have nv : q1.nrVar = m * N := by
    obtain ⟨_, _, _, e1, _, _, v1⟩ := c50_solve_defined h1 o1
    rw [s1] at e1; cases e1
    rw [v1]; unfold numVars; rw [i1]; rfl
  obtain ⟨r1, t1, _⟩ := c40_success h1 o1 s1 hp1
  obtain ⟨r2, t2, _⟩ := c40_success h2 o2 s2 hp2
  obtain ⟨a1, T1⟩ := t1 i1
  obtain ⟨a2, T2⟩ := t2 i2
  have hc : ∀ j < m * N, w1'.ctl.control.e j = w2'.ctl.control.e j := fun j hj => by
    rw [a1 j hj, a2 j hj]; exact U j (by rw [nv]; exact hj)
  refine ⟨⟨r1.trans r2.symm, fun j hj => hc j (by rw [r1] at hj; exact hj)⟩, fun k hk i hi => ?_⟩
  have e2 := T2.2 k i hk hi
  have e : Spec.traj ⟨n2, m, N⟩ w2 p2 w2'.ctl.control.e k i = Spec.traj ⟨n2, m, N⟩ w2 p2 w1'.ctl.control.e k i :=
    sim_congr ⟨n2, m, N⟩ _ _ _ (fun _ _ => rfl) (fun j hj => (hc j hj).symm) k hk i hi
  rw [e, sameThrough_traj same _ k i hi] at e2
  refine e2.trans (Finset.sum_congr rfl fun j hj => ?_)
  rw [show w1'.ctl.trajectory.e (k * n1 + j) = _ from T1.2 k j hk (Finset.mem_range.1 hj)]

end World
end
end Copra
