import Verif.Props.Costs
import Verif.Props.ConstrSpan

/-! # Properties C12, C13: `autoSpan` of costs -/

namespace Copra
open Spec

set_option linter.unusedSectionVars false

variable {K α : Type} [Field K]

/-- `spanVector` to `s` copies, degenerate cases included. -/
theorem AutoSpan.spanVector_copies (junk : Nat → α) (v : Vec α) (s : Nat) :
    ∃ g, AutoSpan.spanVector junk v (s * v.rows) = .ok g ∧ g.rows = s * v.rows ∧
      ∀ k < s, ∀ r < v.rows, g.e (k * v.rows + r) = v.e r := by
  rcases Nat.eq_zero_or_pos v.rows with h0 | h0
  · refine ⟨v, AutoSpan.spanVector_id' _ (by rw [h0]; omega), by rw [h0]; omega, ?_⟩
    intro k _ r hr; omega
  · obtain ⟨g, h1, h2, h3⟩ := AutoSpan.spanVector_rep junk v (s := s) h0
    exact ⟨g, h1, h2, fun k hk r hr => h3 k hk r hr⟩

theorem mul_ne_self {a b : Nat} (ha : 0 < a) (hb : 2 ≤ b) : a * b ≠ a := by
  intro h
  have : a * 2 ≤ a * b := Nat.mul_le_mul_left _ hb
  omega

namespace Cost
open AutoSpan

/-- C12 (trajectory costs): per-step matrix, horizon-long target (and weights). -/
theorem c12_trajectory_autoSpan {d : Dims} (hN : 0 < d.N) (hn : 0 < d.n) {c : Cost K} (hk : c.kind = .trajectory)
    (hw : c.weights.rows = c.p.rows) (hM : c.M.cols = d.n) (hp : c.p.rows = c.M.rows * (d.N + 1)) (junk : Junk K) :
    ∃ c', c.autoSpan junk = .ok c' ∧ SpanFrame c c' ∧ Fits d c' ∧ c'.weights = c.weights ∧
      ∀ X U, c'.userData.value d X U = ∑ k ∈ Finset.range (d.N + 1), ∑ r ∈ Finset.range c.M.rows,
        c.weights.e (k * c.M.rows + r) *
          ((∑ j ∈ Finset.range d.n, c.M.e r j * X k j) - c.p.e (k * c.M.rows + r)) ^ 2 := by
  have hp' : c.p.rows = (d.N + 1) * c.M.rows := by rw [hp, Nat.mul_comm]
  have hmax : max c.M.rows (max c.weights.rows c.p.rows) = (d.N + 1) * c.M.rows := by
    rw [hw, max_self, hp']; exact max_eq_right (Nat.le_mul_of_pos_left _ (by omega))
  obtain ⟨R, e, hr, h1, h2, h3⟩ := spanMatrix_sums c.M (d.N + 1) 0 (by omega)
  have span : c.autoSpan junk = .ok { c with M := R } := by
    unfold autoSpan autoSpanTrajectory
    rw [hk]
    simp only
    rw [hmax, e]
    simp only [Res.map, Res.andThen]
    rw [spanVector_id' _ hp'.symm]
    simp only
    rw [spanVector_id' _ (hw.trans hp').symm]
  refine ⟨_, span, (autoSpan_ok span).2.1, ?_, rfl, ?_⟩
  · unfold Fits
    show match c.kind with | .trajectory => _ | .target => _ | .control => _ | .mixed => _
    rw [hk]
    refine ⟨hr.trans hp'.symm, ?_⟩
    rcases Nat.eq_zero_or_pos c.M.rows with h0 | h0
    · exact Or.inl (by show R.cols = d.n; rw [h1 (Or.inr h0)]; exact hM)
    · exact Or.inr (by show R.cols = _; rw [h2 (by omega) h0, hM, Nat.add_zero])
  · intro X U
    have ud : ({ c with M := R } : Cost K).userData = .trajectory R c.p c.weights := by unfold userData; simp only [hk]
    rw [ud]
    unfold CostData.value wsq
    rcases Nat.eq_zero_or_pos c.M.rows with h0 | h0
    · simp [hr, h0]
    · have hc := h2 (by omega) h0
      rw [hM, Nat.add_zero] at hc
      simp only [if_neg (show ¬ R.cols = d.n by rw [hc]; exact mul_ne_self hn (by omega))]
      rw [hr, sum_blk]
      apply Finset.sum_congr rfl; intro k hk'
      apply Finset.sum_congr rfl; intro r hr'
      have := h3 (by omega) h0 X k (Finset.mem_range.1 hk') r (Finset.mem_range.1 hr')
      simp only [Nat.add_zero, hM] at this
      rw [this]

/-- C12 (control costs). -/
theorem c12_control_autoSpan {d : Dims} (hN : 0 < d.N) (hm : 0 < d.m) {c : Cost K} (hk : c.kind = .control)
    (hw : c.weights.rows = c.p.rows) (hM : c.N.cols = d.m) (hp : c.p.rows = c.N.rows * d.N) (junk : Junk K) :
    ∃ c', c.autoSpan junk = .ok c' ∧ SpanFrame c c' ∧ Fits d c' ∧ c'.weights = c.weights ∧
      ∀ X U, c'.userData.value d X U = ∑ k ∈ Finset.range d.N, ∑ r ∈ Finset.range c.N.rows,
        c.weights.e (k * c.N.rows + r) *
          ((∑ j ∈ Finset.range d.m, c.N.e r j * ctrl d U k j) - c.p.e (k * c.N.rows + r)) ^ 2 := by
  have hp' : c.p.rows = d.N * c.N.rows := by rw [hp, Nat.mul_comm]
  have hmax : max c.N.rows (max c.weights.rows c.p.rows) = d.N * c.N.rows := by
    rw [hw, max_self, hp']; exact max_eq_right (Nat.le_mul_of_pos_left _ (by omega))
  obtain ⟨R, e, hr, h1, h2, h3⟩ := spanMatrix_sums c.N d.N 0 hN
  have span : c.autoSpan junk = .ok { c with N := R } := by
    unfold autoSpan autoSpanControl
    rw [hk]
    simp only
    rw [hmax, e]
    simp only [Res.map, Res.andThen]
    rw [spanVector_id' _ hp'.symm]
    simp only
    rw [spanVector_id' _ (hw.trans hp').symm]
  refine ⟨_, span, (autoSpan_ok span).2.1, ?_, rfl, ?_⟩
  · unfold Fits
    show match c.kind with | .trajectory => _ | .target => _ | .control => _ | .mixed => _
    rw [hk]
    refine ⟨hr.trans hp'.symm, ?_⟩
    by_cases h0 : d.N = 1 ∨ c.N.rows = 0
    · exact Or.inl (by show R.cols = d.m; rw [h1 h0]; exact hM)
    · exact Or.inr (by show R.cols = _; rw [h2 (by omega) (by omega), hM, Nat.add_zero])
  · intro X U
    have ud : ({ c with N := R } : Cost K).userData = .control R c.p c.weights := by unfold userData; simp only [hk]
    rw [ud]
    unfold CostData.value wsq
    by_cases h0 : c.N.rows = 0
    · simp [hr, h0]
    · by_cases hN1 : d.N = 1
      · have hR := h1 (Or.inl hN1)
        subst hR
        simp only [if_pos hM]
        rw [hN1]
        simp
      · have hc := h2 hN1 (by omega)
        rw [hM, Nat.add_zero] at hc
        simp only [if_neg (show ¬ R.cols = d.m by rw [hc]; exact mul_ne_self hm (by omega))]
        rw [hr, sum_blk]
        apply Finset.sum_congr rfl; intro k hk'
        apply Finset.sum_congr rfl; intro r hr'
        have := h3 hN1 (by omega) (fun l j => ctrl d U l j) k (Finset.mem_range.1 hk') r (Finset.mem_range.1 hr')
        simp only [Nat.add_zero, hM] at this
        rw [this]

/-- C12 (mixed costs). -/
theorem c12_mixed_autoSpan {d : Dims} (hN : 0 < d.N) (hnm : 0 < d.n ∨ 0 < d.m) {c : Cost K} (hk : c.kind = .mixed)
    (hw : c.weights.rows = c.p.rows) (hM : c.M.cols = d.n) (hG : c.N.cols = d.m) (hMN : c.N.rows = c.M.rows)
    (hp : c.p.rows = c.M.rows * d.N) (junk : Junk K) :
    ∃ c', c.autoSpan junk = .ok c' ∧ SpanFrame c c' ∧ Fits d c' ∧ c'.weights = c.weights ∧
      ∀ X U, c'.userData.value d X U = ∑ k ∈ Finset.range d.N, ∑ r ∈ Finset.range c.M.rows,
        c.weights.e (k * c.M.rows + r) *
          ((∑ j ∈ Finset.range d.n, c.M.e r j * X k j) + (∑ j ∈ Finset.range d.m, c.N.e r j * ctrl d U k j)
            - c.p.e (k * c.M.rows + r)) ^ 2 := by
  have hp' : c.p.rows = d.N * c.M.rows := by rw [hp, Nat.mul_comm]
  have hle : c.M.rows ≤ d.N * c.M.rows := Nat.le_mul_of_pos_left _ (by omega)
  have hmax : max c.M.rows (max c.N.rows (max c.weights.rows c.p.rows)) = d.N * c.M.rows := by
    rw [hw, max_self, hp', hMN, max_eq_right hle, max_eq_right hle]
  obtain ⟨R, e, hr, h1, h2, h3⟩ := spanMatrix_sums c.M d.N 1 hN
  obtain ⟨S, e', hr', h1', h2', h3'⟩ := spanMatrix_sums c.N d.N 0 hN
  rw [hMN] at e' hr' h1' h2' h3'
  have span : c.autoSpan junk = .ok { c with M := R, N := S } := by
    unfold autoSpan autoSpanMixed
    rw [hk]
    simp only
    rw [hmax, e]
    simp only [Res.map, Res.andThen]
    rw [e']
    simp only
    rw [spanVector_id' _ hp'.symm]
    simp only
    rw [spanVector_id' _ (hw.trans hp').symm]
  refine ⟨_, span, (autoSpan_ok span).2.1, ?_, rfl, ?_⟩
  · unfold Fits
    show match c.kind with | .trajectory => _ | .target => _ | .control => _ | .mixed => _
    rw [hk]
    refine ⟨hr.trans hp'.symm, hr'.trans hp'.symm, ?_⟩
    by_cases h0 : d.N = 1 ∨ c.M.rows = 0
    · exact Or.inl ⟨by show R.cols = d.n; rw [h1 h0]; exact hM, by show S.cols = d.m; rw [h1' h0]; exact hG⟩
    · exact Or.inr ⟨by show R.cols = _; rw [h2 (by omega) (by omega), hM],
        by show S.cols = _; rw [h2' (by omega) (by omega), hG, Nat.add_zero]⟩
  · intro X U
    have ud : ({ c with M := R, N := S } : Cost K).userData = .mixed R S c.p c.weights := by
      unfold userData; simp only [hk]
    rw [ud]
    unfold CostData.value wsq
    by_cases h0 : c.M.rows = 0
    · simp [hr, h0]
    · by_cases hN1 : d.N = 1
      · have hR := h1 (Or.inl hN1)
        have hS := h1' (Or.inl hN1)
        subst hR hS
        simp only [if_pos (And.intro hM hG)]
        rw [hN1]
        simp
      · have hc := h2 hN1 (by omega)
        have hc' := h2' hN1 (by omega)
        rw [hM] at hc
        rw [hG, Nat.add_zero] at hc'
        have hne : ¬ (R.cols = d.n ∧ S.cols = d.m) := by
          rintro ⟨a, b⟩
          rw [hc] at a
          rw [hc'] at b
          rcases hnm with h | h
          · exact mul_ne_self h (by omega) a
          · exact mul_ne_self h (by omega) b
        simp only [if_neg hne]
        rw [hr, sum_blk]
        apply Finset.sum_congr rfl; intro k hk'
        apply Finset.sum_congr rfl; intro r hr'
        have e1 := h3 hN1 (by omega) X k (Finset.mem_range.1 hk') r (Finset.mem_range.1 hr')
        have e2 := h3' hN1 (by omega) (fun l j => ctrl d U l j) k (Finset.mem_range.1 hk') r (Finset.mem_range.1 hr')
        simp only [hM] at e1
        simp only [Nat.add_zero, hG] at e2
        rw [e1, e2]

/-- C12, the other direction: a horizon-long matrix with `s` block rows and a target (and weights) for one
block row: target and weights are repeated. -/
theorem c12_trajectory_autoSpan_vector {d : Dims} {c : Cost K} (hk : c.kind = .trajectory) {s : Nat} (hs : 0 < s)
    (hw : c.weights.rows = c.p.rows) (hM : c.M.cols = d.n * (d.N + 1)) (hn : c.M.cols ≠ d.n)
    (hp : c.M.rows = s * c.p.rows) (junk : Junk K) :
    ∃ c', c.autoSpan junk = .ok c' ∧ SpanFrame c c' ∧ Fits d c' ∧
      ∀ X U, c'.userData.value d X U = ∑ k ∈ Finset.range s, ∑ r ∈ Finset.range c.p.rows,
        c.weights.e r * ((∑ l ∈ Finset.range (d.N + 1), ∑ j ∈ Finset.range d.n,
          c.M.e (k * c.p.rows + r) (l * d.n + j) * X l j) - c.p.e r) ^ 2 := by
  have hmax : max c.M.rows (max c.weights.rows c.p.rows) = s * c.p.rows := by
    rw [hw, max_self, hp]; exact max_eq_left (Nat.le_mul_of_pos_left _ hs)
  obtain ⟨g, eg, hg, ge⟩ := spanVector_copies (junk.v 0) c.p s
  obtain ⟨w, ew, hw', we⟩ := spanVector_copies (junk.v 1) c.weights s
  rw [hw] at ew hw' we
  have span : c.autoSpan junk = .ok { c with p := g, weights := w } := by
    unfold autoSpan autoSpanTrajectory
    rw [hk]
    simp only
    rw [hmax, spanMatrix_id' hp.symm]
    simp only [Res.map, Res.andThen]
    rw [eg]
    simp only
    rw [ew]
  refine ⟨_, span, (autoSpan_ok span).2.1, ?_, ?_⟩
  · unfold Fits
    show match c.kind with | .trajectory => _ | .target => _ | .control => _ | .mixed => _
    rw [hk]
    exact ⟨hp.trans hg.symm, Or.inr hM⟩
  · intro X U
    have ud : ({ c with p := g, weights := w } : Cost K).userData = .trajectory c.M g w := by
      unfold userData; simp only [hk]
    rw [ud]
    unfold CostData.value wsq
    simp only [if_neg hn]
    rw [hp, sum_blk]
    apply Finset.sum_congr rfl; intro k hk'
    apply Finset.sum_congr rfl; intro r hr'
    rw [ge k (Finset.mem_range.1 hk') r (Finset.mem_range.1 hr'),
      we k (Finset.mem_range.1 hk') r (Finset.mem_range.1 hr')]

/-- C12, the other direction for control costs. -/
theorem c12_control_autoSpan_vector {d : Dims} {c : Cost K} (hk : c.kind = .control) {s : Nat} (hs : 0 < s)
    (hw : c.weights.rows = c.p.rows) (hM : c.N.cols = d.m * d.N) (hn : c.N.cols ≠ d.m)
    (hp : c.N.rows = s * c.p.rows) (junk : Junk K) :
    ∃ c', c.autoSpan junk = .ok c' ∧ SpanFrame c c' ∧ Fits d c' ∧
      ∀ X U, c'.userData.value d X U = ∑ k ∈ Finset.range s, ∑ r ∈ Finset.range c.p.rows,
        c.weights.e r * ((∑ l ∈ Finset.range d.N, ∑ j ∈ Finset.range d.m,
          c.N.e (k * c.p.rows + r) (l * d.m + j) * ctrl d U l j) - c.p.e r) ^ 2 := by
  have hmax : max c.N.rows (max c.weights.rows c.p.rows) = s * c.p.rows := by
    rw [hw, max_self, hp]; exact max_eq_left (Nat.le_mul_of_pos_left _ hs)
  obtain ⟨g, eg, hg, ge⟩ := spanVector_copies (junk.v 0) c.p s
  obtain ⟨w, ew, hw', we⟩ := spanVector_copies (junk.v 1) c.weights s
  rw [hw] at ew hw' we
  have span : c.autoSpan junk = .ok { c with p := g, weights := w } := by
    unfold autoSpan autoSpanControl
    rw [hk]
    simp only
    rw [hmax, spanMatrix_id' hp.symm]
    simp only [Res.map, Res.andThen]
    rw [eg]
    simp only
    rw [ew]
  refine ⟨_, span, (autoSpan_ok span).2.1, ?_, ?_⟩
  · unfold Fits
    show match c.kind with | .trajectory => _ | .target => _ | .control => _ | .mixed => _
    rw [hk]
    exact ⟨hp.trans hg.symm, Or.inr hM⟩
  · intro X U
    have ud : ({ c with p := g, weights := w } : Cost K).userData = .control c.N g w := by
      unfold userData; simp only [hk]
    rw [ud]
    unfold CostData.value wsq
    simp only [if_neg hn]
    rw [hp, sum_blk]
    apply Finset.sum_congr rfl; intro k hk'
    apply Finset.sum_congr rfl; intro r hr'
    rw [ge k (Finset.mem_range.1 hk') r (Finset.mem_range.1 hr'),
      we k (Finset.mem_range.1 hk') r (Finset.mem_range.1 hr')]

/-- A spanned cost can still be accepted for the first time, so its first update is exact for its new
declared data (`first_update_exact`). -/
theorem SpanFrame.unreg {c c' : Cost K} (h : SpanFrame c c') (hu : Unreg c) (hw : WOk c') : Unreg c' :=
  ⟨by rw [h.full, h.kind]; exact hu.1, hw⟩

section ordered
variable [LinearOrder K] [IsStrictOrderedRing K]

/-- C12, end to end: whatever a never accepted cost declares after a successful `autoSpan` is what its
matrices represent after being added and updated. -/
theorem c12_spanned_cost_exact {d : Dims} {ps0 ps : PreviewSystem K} {c c' c1 c2 : Cost K} {junk junk' : Junk K}
    (hu : Unreg c) (hs : c.autoSpan junk' = .ok c') (h0 : Accepted d ps0) (hf : Fits d c')
    (hp : Current d ps) :
    (∃ c1, c'.initializeCost junk ps0 = .ok c1) ∧
    (c'.initializeCost junk ps0 = .ok c1 → QuietHistory d c1 c2 → c2.weights = c'.weights →
      ∃ c3, c2.update ps = some c3 ∧ CostExact d ps c3 c'.userData) := by
  obtain ⟨_, f, w⟩ := autoSpan_ok hs
  have hu' := f.unreg hu (w hu.2)
  constructor
  · obtain ⟨c1, e, _⟩ := (init_spec junk h0.shape hu'.2 (Or.inl hu'.1)).1 hf
    exact ⟨c1, e⟩
  · intro hi hh hww
    obtain ⟨c3, e, h, hk, hM, hN, hp'⟩ := first_update_exact hu' h0 hi hh hp
    refine ⟨c3, e, ?_⟩
    have : c2.userData = c'.userData := by unfold userData; rw [hk, hM, hN, hp', hww]
    rw [← this]; exact h

end ordered

/-! ## C13 -/

/-- C13 (costs): once accepted, `autoSpan` changes nothing, after any history. -/
theorem c13_cost_autoSpan_noop {d : Dims} {ps0 : PreviewSystem K} {c c1 c2 : Cost K} {junk : Junk K}
    (hu : Unreg c) (h0 : Accepted d ps0) (hi : c.initializeCost junk ps0 = .ok c1) (hh : History d c1 c2)
    (junk' : Junk K) : c2.autoSpan junk' = .ok c2 :=
  autoSpan_rowsAgree junk' (hh.reg (init_unreg hu h0 hi).1).1.rowsAgree

/-- C13 (costs): `autoSpan` is idempotent whenever it succeeds. -/
theorem c13_cost_autoSpan_idempotent {c c' : Cost K} {junk : Junk K} (h : c.autoSpan junk = .ok c')
    (junk' : Junk K) : c'.autoSpan junk' = .ok c' :=
  autoSpan_rowsAgree junk' (autoSpan_ok h).1

end Cost
end Copra
