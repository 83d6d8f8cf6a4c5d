import Verif.Proofs.Costs
import Mathlib.Tactic.Ring
import Mathlib.Tactic.LinearCombination

/-! # Cost terms: the quadratic form of `Q`, `E`, `f` is the declared weighted squared distance -/

namespace Copra
open Spec

set_option linter.unusedSectionVars false
set_option linter.unusedSimpArgs false

namespace Cost
variable {K : Type} [Field K]

theorem stateRow_add (d : Dims) (c : Cost K) (k r : Nat) (F G : Nat → K) :
    c.stateRow d k r (fun s => F s + G s) = c.stateRow d k r F + c.stateRow d k r G := by
  unfold stateRow
  cases c.kind <;> simp only [mul_add, Finset.sum_add_distrib, add_zero]
  · split <;> rfl
  · split <;> rfl

theorem stateRow_lin (d : Dims) (c : Cost K) (k r n : Nat) (F : Nat → Nat → K) (x : Nat → K) :
    c.stateRow d k r (fun s => ∑ a ∈ Finset.range n, F s a * x a) =
      ∑ a ∈ Finset.range n, c.stateRow d k r (fun s => F s a) * x a := by
  have key : ∀ (m : Nat) (g : Nat → Nat),
      ∑ s ∈ Finset.range m, c.M.e r s * ∑ a ∈ Finset.range n, F (g s) a * x a =
      ∑ a ∈ Finset.range n, (∑ s ∈ Finset.range m, c.M.e r s * F (g s) a) * x a := by
    intro m g
    simp only [Finset.mul_sum, Finset.sum_mul]
    rw [Finset.sum_comm]
    apply Finset.sum_congr rfl; intro a _
    apply Finset.sum_congr rfl; intro s _
    ring
  unfold stateRow
  cases c.kind <;> simp only
  · cases c.fullSizeEntry
    · exact key _ (fun s => k * d.n + s)
    · exact key _ (fun s => s)
  · exact key _ (fun s => d.N * d.n + s)
  · simp
  · cases c.fullSizeEntry
    · exact key _ (fun s => k * d.n + s)
    · exact key _ (fun s => s)

/-- Residual `r` of block `k` as an affine function of the initial state and the controls. -/
def res (d : Dims) (ps : PreviewSystem K) (c : Cost K) (x U : Nat → K) (k r : Nat) : K :=
  (∑ a ∈ Finset.range d.n, c.P d ps k r a * x a) + (∑ j ∈ Finset.range (d.m * d.N), c.T d ps k r j * U j)
    + c.V d ps k r

/-- The stacked prediction as a function of the flat index. -/
def predF (d : Dims) (ps : PreviewSystem K) (x U : Nat → K) (s : Nat) : K :=
  (∑ a ∈ Finset.range d.n, ps.Phi.e s a * x a) + (∑ j ∈ Finset.range (d.m * d.N), ps.Psi.e s j * U j)
    + ps.xi.e s

theorem res_eq (d : Dims) (ps : PreviewSystem K) (c : Cost K) (x U : Nat → K) (k r : Nat) :
    c.res d ps x U k r = c.stateRow d k r (predF d ps x U)
      + (∑ j ∈ Finset.range (d.m * d.N), c.ctrlRow d k r j * U j) - c.p.e r := by
  have h : c.stateRow d k r (predF d ps x U) =
      (∑ a ∈ Finset.range d.n, c.stateRow d k r (fun s => ps.Phi.e s a) * x a)
      + (∑ j ∈ Finset.range (d.m * d.N), c.stateRow d k r (fun s => ps.Psi.e s j) * U j)
      + c.stateRow d k r ps.xi.e := by
    unfold predF
    rw [stateRow_add, stateRow_add, stateRow_lin, stateRow_lin]
  rw [h]
  unfold res P T V
  simp only [add_mul, Finset.sum_add_distrib]
  ring

theorem predF_sim {d : Dims} {ps : PreviewSystem K} (P : SysPred d ps) (x U : Nat → K) {k r : Nat} (hk : k ≤ d.N)
    (hr : r < d.n) : predF d ps x U (k * d.n + r) = sim d ps.A ps.B ps.d x U k r := by
  rw [← predC_eq_sim P x U k hk r hr]
  rfl

theorem ctrlRow_step {d : Dims} {c : Cost K} (hk : c.kind = .control ∨ c.kind = .mixed)
    (hf : c.fullSizeEntry = false) (U : Nat → K) {k r : Nat} (hkN : k < d.N) :
    ∑ j ∈ Finset.range (d.m * d.N), c.ctrlRow d k r j * U j =
      ∑ j ∈ Finset.range d.m, c.N.e r j * ctrl d U k j := by
  have hc : ∀ l, ∀ j < d.m, c.ctrlRow d k r (l * d.m + j) = if l = k then c.N.e r j else 0 := by
    intro l j hj
    unfold ctrlRow
    rcases hk with hk | hk <;> rw [hk] <;> simp only [hf, Bool.false_eq_true, if_false] <;> rw [blk_div hj, blk_mod hj]
  rw [sum_blk', Finset.sum_eq_single k]
  · apply Finset.sum_congr rfl
    intro j hj
    rw [hc k j (Finset.mem_range.1 hj), if_pos rfl]; rfl
  · intro l _ hl
    apply Finset.sum_eq_zero
    intro j hj
    rw [hc l j (Finset.mem_range.1 hj), if_neg hl, zero_mul]
  · intro h; exact absurd (Finset.mem_range.2 hkN) h

theorem ctrlRow_full {d : Dims} {c : Cost K} (hk : c.kind = .control ∨ c.kind = .mixed)
    (hf : c.fullSizeEntry = true) (U : Nat → K) (k r : Nat) :
    ∑ j ∈ Finset.range (d.m * d.N), c.ctrlRow d k r j * U j =
      ∑ k ∈ Finset.range d.N, ∑ j ∈ Finset.range d.m, c.N.e r (k * d.m + j) * ctrl d U k j := by
  have hc : ∀ j, c.ctrlRow d k r j = c.N.e r j := by
    intro j
    unfold ctrlRow
    rcases hk with hk | hk <;> rw [hk] <;> simp only [hf, if_true]
  simp only [hc]
  rw [sum_blk']
  rfl

theorem ctrlRow_none {d : Dims} {c : Cost K} (hk : c.kind = .trajectory ∨ c.kind = .target)
    (U : Nat → K) (k r : Nat) :
    ∑ j ∈ Finset.range (d.m * d.N), c.ctrlRow d k r j * U j = 0 := by
  apply Finset.sum_eq_zero
  intro j _
  unfold ctrlRow
  rcases hk with hk | hk <;> rw [hk] <;> simp only [zero_mul]

theorem stateRow_step {d : Dims} {ps : PreviewSystem K} {c : Cost K} {x U : Nat → K} {X : Nat → Nat → K} (P : ∀ k ≤ d.N, ∀ r < d.n, predF d ps x U (k * d.n + r) = X k r)
    (hk : c.kind = .trajectory ∨ c.kind = .mixed) (hf : c.fullSizeEntry = false) {k r : Nat} (hkN : k ≤ d.N) :
    c.stateRow d k r (predF d ps x U) =
      ∑ j ∈ Finset.range d.n, c.M.e r j * X k j := by
  have : c.stateRow d k r (predF d ps x U) = ∑ s ∈ Finset.range d.n, c.M.e r s * predF d ps x U (k * d.n + s) := by
    unfold stateRow
    rcases hk with hk | hk <;> rw [hk] <;> simp [hf]
  rw [this]
  apply Finset.sum_congr rfl
  intro s hs
  rw [P _ hkN _ (Finset.mem_range.1 hs)]

theorem stateRow_full {d : Dims} {ps : PreviewSystem K} {c : Cost K} {x U : Nat → K} {X : Nat → Nat → K} (P : ∀ k ≤ d.N, ∀ r < d.n, predF d ps x U (k * d.n + r) = X k r)
    (hk : c.kind = .trajectory ∨ c.kind = .mixed) (hf : c.fullSizeEntry = true) (k r : Nat) :
    c.stateRow d k r (predF d ps x U) = ∑ k ∈ Finset.range (d.N + 1),
      ∑ j ∈ Finset.range d.n, c.M.e r (k * d.n + j) * X k j := by
  have : c.stateRow d k r (predF d ps x U) =
      ∑ s ∈ Finset.range (d.n * (d.N + 1)), c.M.e r s * predF d ps x U s := by
    unfold stateRow
    rcases hk with hk | hk <;> rw [hk] <;> simp [hf]
  rw [this, sum_blk']
  apply Finset.sum_congr rfl
  intro l hl
  apply Finset.sum_congr rfl
  intro s hs
  rw [P _ (by have := Finset.mem_range.1 hl; omega) _ (Finset.mem_range.1 hs)]

/-- The declared cost is the weighted sum of squared residuals. -/
theorem value_of {d : Dims} {ps : PreviewSystem K} {c : Cost K} (hr : Pre d c) {x U : Nat → K} {X : Nat → Nat → K} (P : ∀ k ≤ d.N, ∀ r < d.n, predF d ps x U (k * d.n + r) = X k r) :
    c.userData.value d X U =
      ∑ k ∈ Finset.range (c.steps d), ∑ r ∈ Finset.range c.p.rows, c.weights.e r * (c.res d ps x U k r) ^ 2 := by
  have D := hr.data
  unfold DataOk at D
  unfold userData steps
  cases hk : c.kind <;> rw [hk] at D <;> simp only at D ⊢
  · obtain ⟨hM, D⟩ := D
    cases hf : c.fullSizeEntry <;> simp only [hf, if_true, Bool.false_eq_true, if_false] at D ⊢
    · unfold CostData.value wsq
      simp only [if_pos D, hM]
      apply Finset.sum_congr rfl; intro k hk'
      apply Finset.sum_congr rfl; intro r _
      rw [res_eq, stateRow_step P (Or.inl hk) hf (by have := Finset.mem_range.1 hk'; omega),
        ctrlRow_none (Or.inl hk), add_zero]
    · unfold CostData.value wsq
      simp only [if_neg D.1, hM, Finset.sum_range_one]
      apply Finset.sum_congr rfl; intro r _
      rw [res_eq, stateRow_full P (Or.inl hk) hf, ctrlRow_none (Or.inl hk), add_zero]
  · obtain ⟨hM, D⟩ := D
    unfold CostData.value wsq
    simp only [hM, Finset.sum_range_one]
    apply Finset.sum_congr rfl; intro r _
    rw [res_eq, ctrlRow_none (Or.inr hk), add_zero]
    have : c.stateRow d 0 r (predF d ps x U) =
        ∑ s ∈ Finset.range d.n, c.M.e r s * predF d ps x U (d.N * d.n + s) := by
      unfold stateRow; rw [hk]
    rw [this]
    congr 3
    apply Finset.sum_congr rfl; intro s hs
    rw [P _ (Nat.le_refl _) _ (Finset.mem_range.1 hs)]
  · obtain ⟨hN, D⟩ := D
    have hst : ∀ k r, c.stateRow d k r (predF d ps x U) = 0 := by
      intro k r; unfold stateRow; rw [hk]
    cases hf : c.fullSizeEntry <;> simp only [hf, if_true, Bool.false_eq_true, if_false] at D ⊢
    · unfold CostData.value wsq
      simp only [if_pos D, hN]
      apply Finset.sum_congr rfl; intro k hk'
      apply Finset.sum_congr rfl; intro r _
      rw [res_eq, hst, ctrlRow_step (Or.inl hk) hf U (Finset.mem_range.1 hk'), zero_add]
    · unfold CostData.value wsq
      simp only [if_neg D.1, hN, Finset.sum_range_one]
      apply Finset.sum_congr rfl; intro r _
      rw [res_eq, hst, ctrlRow_full (Or.inl hk) hf, zero_add]
  · obtain ⟨hM, hN, D⟩ := D
    cases hf : c.fullSizeEntry <;> simp only [hf, if_true, Bool.false_eq_true, if_false] at D ⊢
    · unfold CostData.value wsq
      simp only [if_pos D, hM]
      apply Finset.sum_congr rfl; intro k hk'
      apply Finset.sum_congr rfl; intro r _
      rw [res_eq, stateRow_step P (Or.inr hk) hf (by have := Finset.mem_range.1 hk'; omega),
        ctrlRow_step (Or.inr hk) hf U (Finset.mem_range.1 hk')]
    · unfold CostData.value wsq
      simp only [if_neg D.1, hM, Finset.sum_range_one]
      apply Finset.sum_congr rfl; intro r _
      rw [res_eq, stateRow_full P (Or.inr hk) hf, ctrlRow_full (Or.inr hk) hf]

/-- The same along the simulated trajectory. -/
theorem value_eq {d : Dims} {ps : PreviewSystem K} {c : Cost K} (hr : Pre d c) (P : SysPred d ps) (x U : Nat → K) :
    c.userData.value d (sim d ps.A ps.B ps.d x U) U =
      ∑ k ∈ Finset.range (c.steps d), ∑ r ∈ Finset.range c.p.rows, c.weights.e r * (c.res d ps x U k r) ^ 2 :=
  value_of hr fun _ hk _ hr => predF_sim P x U hk hr

/-- `1/2 U'QU + (E'x + f)'U`. -/
def formValue (d : Dims) (c : Cost K) (x U : Nat → K) : K :=
  1 / 2 * (∑ i ∈ Finset.range (d.m * d.N), ∑ j ∈ Finset.range (d.m * d.N), U i * c.Q.e i j * U j)
    + ∑ j ∈ Finset.range (d.m * d.N), ((∑ i ∈ Finset.range d.n, c.E.e i j * x i) + c.f.e j) * U j

theorem quad_eE (R n : Nat) (w : Nat → K) (A B : Nat → Nat → K) (S : Nat) (x U : Nat → K) :
    ∑ i ∈ Finset.range n, ∑ j ∈ Finset.range S, x i * eE R w A B i j * U j =
      ∑ r ∈ Finset.range R, w r * (∑ i ∈ Finset.range n, A r i * x i) * ∑ j ∈ Finset.range S, B r j * U j := by
  unfold eE
  simp only [Finset.mul_sum, Finset.sum_mul]
  have : ∀ i ∈ Finset.range n, ∑ j ∈ Finset.range S, ∑ r ∈ Finset.range R, x i * (A r i * w r * B r j) * U j =
      ∑ r ∈ Finset.range R, ∑ j ∈ Finset.range S, x i * (A r i * w r * B r j) * U j :=
    fun i _ => Finset.sum_comm
  rw [Finset.sum_congr rfl this, Finset.sum_comm]
  apply Finset.sum_congr rfl; intro r _
  rw [Finset.sum_comm]
  apply Finset.sum_congr rfl; intro j _
  apply Finset.sum_congr rfl; intro i _
  ring

theorem lin_fE (R : Nat) (w v : Nat → K) (B : Nat → Nat → K) (S : Nat) (U : Nat → K) :
    ∑ j ∈ Finset.range S, fE R w v B j * U j =
      ∑ r ∈ Finset.range R, w r * v r * ∑ j ∈ Finset.range S, B r j * U j := by
  unfold fE
  simp only [Finset.mul_sum, Finset.sum_mul]
  rw [Finset.sum_comm]
  apply Finset.sum_congr rfl; intro r _
  apply Finset.sum_congr rfl; intro j _
  ring

/-- The accumulated terms as one quadratic form. -/
theorem terms_value {d : Dims} {ps : PreviewSystem K} {c : Cost K} (h2 : (2 : K) ≠ 0) (x U : Nat → K) :
    1 / 2 * (∑ i ∈ Finset.range (d.m * d.N), ∑ j ∈ Finset.range (d.m * d.N), U i *
        (∑ k ∈ Finset.range (c.steps d), eE c.p.rows c.weights.e (c.T d ps k) (c.T d ps k) i j) * U j)
    + ∑ j ∈ Finset.range (d.m * d.N), ((∑ i ∈ Finset.range d.n,
        (∑ k ∈ Finset.range (c.steps d), eE c.p.rows c.weights.e (c.P d ps k) (c.T d ps k) i j) * x i)
        + ∑ k ∈ Finset.range (c.steps d), fE c.p.rows c.weights.e (c.V d ps k) (c.T d ps k) j) * U j =
    1 / 2 * ((∑ k ∈ Finset.range (c.steps d), ∑ r ∈ Finset.range c.p.rows,
        c.weights.e r * (c.res d ps x U k r) ^ 2)
      - ∑ k ∈ Finset.range (c.steps d), ∑ r ∈ Finset.range c.p.rows,
        c.weights.e r * (c.res d ps x (fun _ => 0) k r) ^ 2) := by
  have e1 : (∑ i ∈ Finset.range (d.m * d.N), ∑ j ∈ Finset.range (d.m * d.N), U i *
        (∑ k ∈ Finset.range (c.steps d), eE c.p.rows c.weights.e (c.T d ps k) (c.T d ps k) i j) * U j) =
      ∑ k ∈ Finset.range (c.steps d), ∑ i ∈ Finset.range (d.m * d.N), ∑ j ∈ Finset.range (d.m * d.N),
        U i * eE c.p.rows c.weights.e (c.T d ps k) (c.T d ps k) i j * U j := by
    simp only [Finset.mul_sum, Finset.sum_mul]
    symm
    rw [Finset.sum_comm]
    apply Finset.sum_congr rfl; intro i _
    rw [Finset.sum_comm]
  have e2 : (∑ j ∈ Finset.range (d.m * d.N), ((∑ i ∈ Finset.range d.n,
        (∑ k ∈ Finset.range (c.steps d), eE c.p.rows c.weights.e (c.P d ps k) (c.T d ps k) i j) * x i)
        + ∑ k ∈ Finset.range (c.steps d), fE c.p.rows c.weights.e (c.V d ps k) (c.T d ps k) j) * U j) =
      ∑ k ∈ Finset.range (c.steps d), ((∑ i ∈ Finset.range d.n, ∑ j ∈ Finset.range (d.m * d.N),
        x i * eE c.p.rows c.weights.e (c.P d ps k) (c.T d ps k) i j * U j)
        + ∑ j ∈ Finset.range (d.m * d.N), fE c.p.rows c.weights.e (c.V d ps k) (c.T d ps k) j * U j) := by
    simp only [Finset.sum_mul, add_mul, Finset.sum_add_distrib]
    congr 1
    · symm
      rw [Finset.sum_comm]
      have : ∀ i ∈ Finset.range d.n, (∑ k ∈ Finset.range (c.steps d), ∑ j ∈ Finset.range (d.m * d.N),
          x i * eE c.p.rows c.weights.e (c.P d ps k) (c.T d ps k) i j * U j) =
          ∑ j ∈ Finset.range (d.m * d.N), ∑ k ∈ Finset.range (c.steps d),
          x i * eE c.p.rows c.weights.e (c.P d ps k) (c.T d ps k) i j * U j := fun i _ => Finset.sum_comm
      rw [Finset.sum_congr rfl this, Finset.sum_comm]
      apply Finset.sum_congr rfl; intro j _
      apply Finset.sum_congr rfl; intro i _
      apply Finset.sum_congr rfl; intro k _
      ring
    · exact Finset.sum_comm
  rw [e1, e2, ← Finset.sum_sub_distrib, Finset.mul_sum, Finset.mul_sum, ← Finset.sum_add_distrib]
  apply Finset.sum_congr rfl; intro k _
  rw [quad_eE, quad_eE, lin_fE, ← Finset.sum_sub_distrib, Finset.mul_sum, Finset.mul_sum,
    ← Finset.sum_add_distrib, ← Finset.sum_add_distrib]
  apply Finset.sum_congr rfl; intro r _
  unfold res
  simp only [mul_zero, Finset.sum_const_zero, add_zero]
  field_simp
  ring

/-- Results that an update accumulates into are zero (as after `initializeCost`). -/
def Clean (d : Dims) (c : Cost K) : Prop :=
  Accumulates c → (∀ a < d.m * d.N, ∀ b < d.m * d.N, c.Q.e a b = 0) ∧
    (∀ a < d.n, ∀ b < d.m * d.N, c.E.e a b = 0) ∧ (∀ b < d.m * d.N, c.f.e b = 0) ∧
    (∀ b < d.m * d.N, c.c.e b = 0)

/-- Whatever has been accumulated before, an update adds the declared cost. -/
theorem Updated.value {d : Dims} {ps : PreviewSystem K} {c c' : Cost K} (h2 : (2 : K) ≠ 0) (hr : Pre d c)
    (hu : Updated d ps c c') (P : SysPred d ps) (x U : Nat → K) :
    c'.formValue d x U = (open Classical in if Accumulates c then c.formValue d x U else 0) +
      1 / 2 * (c.userData.value d (sim d ps.A ps.B ps.d x U) U
        - c.userData.value d (sim d ps.A ps.B ps.d x (fun _ => 0)) (fun _ => 0)) := by
  classical
  rw [value_eq hr P, value_eq hr P, ← terms_value h2]
  have q : formValue d c' x U =
      1 / 2 * (∑ i ∈ Finset.range (d.m * d.N), ∑ j ∈ Finset.range (d.m * d.N), U i *
        ((if Accumulates c then c.Q.e i j else 0) +
        ∑ k ∈ Finset.range (c.steps d), eE c.p.rows c.weights.e (c.T d ps k) (c.T d ps k) i j) * U j)
    + ∑ j ∈ Finset.range (d.m * d.N), ((∑ i ∈ Finset.range d.n,
        ((if Accumulates c then c.E.e i j else 0) +
        ∑ k ∈ Finset.range (c.steps d), eE c.p.rows c.weights.e (c.P d ps k) (c.T d ps k) i j) * x i)
        + ((if Accumulates c then c.f.e j else 0) +
        ∑ k ∈ Finset.range (c.steps d), fE c.p.rows c.weights.e (c.V d ps k) (c.T d ps k) j)) * U j := by
    unfold formValue
    congr 1
    · congr 1
      apply Finset.sum_congr rfl; intro i hi
      apply Finset.sum_congr rfl; intro j hj
      rw [hu.Q i (Finset.mem_range.1 hi) j (Finset.mem_range.1 hj)]
    · apply Finset.sum_congr rfl; intro j hj
      rw [hu.f j (Finset.mem_range.1 hj)]
      congr 2
      apply Finset.sum_congr rfl; intro i hi
      rw [hu.E i (Finset.mem_range.1 hi) j (Finset.mem_range.1 hj)]
  rw [q]
  by_cases ha : Accumulates c
  · simp only [if_pos ha]
    unfold formValue
    simp only [mul_add, add_mul, Finset.sum_add_distrib]
    ring
  · simp only [if_neg ha, zero_add]

theorem formValue_clean {d : Dims} {c : Cost K} (h : Clean d c) (ha : Accumulates c) (x U : Nat → K) :
    c.formValue d x U = 0 := by
  obtain ⟨h1, h2, h3, _⟩ := h ha
  unfold formValue
  rw [Finset.sum_eq_zero, Finset.sum_eq_zero]
  · simp
  · intro j hj
    rw [h3 j (Finset.mem_range.1 hj), Finset.sum_eq_zero]
    · simp
    · intro i hi
      rw [h2 i (Finset.mem_range.1 hi) j (Finset.mem_range.1 hj), zero_mul]
  · intro i hi
    apply Finset.sum_eq_zero
    intro j hj
    rw [h1 i (Finset.mem_range.1 hi) j (Finset.mem_range.1 hj), mul_zero, zero_mul]

/-- `c = E' x0 + f` after an update of a clean cost. -/
theorem Updated.lin {d : Dims} {ps : PreviewSystem K} {c c' : Cost K}
    (hu : Updated d ps c c') (hc : Clean d c) : ∀ b < d.m * d.N,
    c'.c.e b = (∑ a ∈ Finset.range d.n, c'.E.e a b * ps.x0.e a) + c'.f.e b := by
  intro b hb
  rw [hu.c b hb]
  split
  · next h => rw [(hc h.1).2.2.2 b hb, zero_add]
  · rw [zero_add]

end Cost
end Copra
