import Verif.Proofs.AutoSpan
import Verif.Spec
import Mathlib.Data.Rat.Defs

/-! # Properties C07-C08: `AutoSpan` -/

namespace Copra
open AutoSpan
variable {K α : Type}

/-- C07: `spanVector(v, n)`, for arbitrary contents of the memory allocated by the resize. -/
theorem c07_spanVector (junk : Nat → α) (v : Vec α) (n : Nat) :
    (0 < v.rows → v.rows ∣ n → ∃ r, spanVector junk v n = .ok r ∧ r.rows = n ∧
      ∀ i < n, r.e i = v.e (i % v.rows)) ∧
    (n = v.rows → spanVector junk v n = .ok v) ∧
    (0 < v.rows → ¬ v.rows ∣ n → spanVector junk v n = .thrown .domainError v) ∧
    (v.rows = 0 → n ≠ 0 → spanVector junk v n = .ub) := by
  refine ⟨?_, ?_, ?_, ?_⟩
  · rintro hv ⟨s, hs⟩
    rw [Nat.mul_comm] at hs
    subst hs
    obtain ⟨r, h1, h2, h3⟩ := spanVector_rep junk v (s := s) hv
    refine ⟨r, h1, h2, ?_⟩
    intro i hi
    obtain ⟨k, j, hk, hj, rfl⟩ := blk_split hi
    rw [h3 k hk j hj, blk_mod hj]
  · rintro rfl; exact spanVector_id junk v
  · exact fun hv h => spanVector_throw junk v hv h
  · exact fun hv h => spanVector_ub junk v hv h

/-- C08: `spanMatrix(M, n, addCols)`: `n / M.rows` diagonal copies of `M`, zero elsewhere, `addCols`
block columns of zeros at the right.  When `n = M.rows` the matrix is returned as it is (in particular
without extra columns). -/
theorem c08_spanMatrix [Field K] (M : Mat K) (n addCols : Nat) :
    (0 < M.rows → n ≠ M.rows → M.rows ∣ n → ∃ R, spanMatrix M n addCols = .ok R ∧ R.rows = n ∧
      R.cols = M.cols * (n / M.rows + addCols) ∧
      ∀ i < n, ∀ j < R.cols, R.e i j =
        if i / M.rows = j / M.cols then M.e (i % M.rows) (j % M.cols) else 0) ∧
    (n = M.rows → spanMatrix M n addCols = .ok M) ∧
    (0 < M.rows → ¬ M.rows ∣ n → spanMatrix M n addCols = .thrown .domainError M) ∧
    (M.rows = 0 → n ≠ 0 → spanMatrix M n addCols = .ub) := by
  refine ⟨?_, ?_, ?_, ?_⟩
  · rintro hM hne ⟨s, hs⟩
    rw [Nat.mul_comm] at hs
    subst hs
    have hs1 : s ≠ 1 := by rintro rfl; simp at hne
    obtain ⟨R, h1, h2, h3, h4⟩ := spanMatrix_rep M (s := s) addCols hM hs1
    refine ⟨R, h1, h2, by rw [h3, Nat.mul_div_cancel _ hM], ?_⟩
    intro i hi j hj
    rw [h3, Nat.mul_comm] at hj
    obtain ⟨k, i', hk, hi', rfl⟩ := blk_split hi
    obtain ⟨l, j', hl, hj', rfl⟩ := blk_split hj
    rw [h4 k hk i' hi' l hl j' hj', blk_mod hi', blk_mod hj', blk_div hi', blk_div hj']
  · rintro rfl; exact spanMatrix_id M addCols
  · exact fun hM h => spanMatrix_throw M addCols hM h
  · exact fun hM h => spanMatrix_ub M addCols hM h

/-- The four cases occur. -/
example (junk : Nat → ℚ) (v : Vec ℚ) (hv : v.rows = 2) :
    (∃ r, spanVector junk v 6 = .ok r ∧ r.rows = 6) ∧ spanVector junk v 2 = .ok v ∧
      spanVector junk v 5 = .thrown .domainError v := by
  obtain ⟨h1, h2, h3, _⟩ := c07_spanVector junk v 6
  obtain ⟨_, _, h3', _⟩ := c07_spanVector junk v 5
  obtain ⟨_, h2', _, _⟩ := c07_spanVector junk v 2
  obtain ⟨r, hr, hrows, _⟩ := h1 (by omega) (by rw [hv]; decide)
  exact ⟨⟨r, hr, hrows⟩, h2' hv.symm, h3' (by omega) (by rw [hv]; decide)⟩

example (M : Mat ℚ) (hM : M.rows = 2) (hc : M.cols = 3) :
    ∃ R, spanMatrix M 4 1 = .ok R ∧ R.rows = 4 ∧ R.cols = 9 := by
  obtain ⟨R, h, hr, hcols, _⟩ := (c08_spanMatrix M 4 1).1 (by omega) (by omega) (by rw [hM]; decide)
  exact ⟨R, h, hr, by rw [hcols, hc, hM]⟩

end Copra
