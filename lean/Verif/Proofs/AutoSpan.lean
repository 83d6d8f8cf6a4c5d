import Verif.Model.AutoSpan
import Verif.Proofs.Base

/-! # Closed form of the two span functions -/

namespace Copra.AutoSpan
variable {K α : Type}

theorem spanVector_id (junk : Nat → α) (v : Vec α) : spanVector junk v v.rows = .ok v := by
  simp [spanVector]

theorem spanVector_rep (junk : Nat → α) (v : Vec α) {s : Nat} (hv : 0 < v.rows) :
    ∃ r, spanVector junk v (s * v.rows) = .ok r ∧ r.rows = s * v.rows ∧
      ∀ k < s, ∀ i < v.rows, r.e (k * v.rows + i) = v.e i := by
  by_cases h1 : s * v.rows = v.rows
  · refine ⟨v, by simp [spanVector, h1], h1.symm, ?_⟩
    intro k hk i hi
    have hs : s = 1 := by
      rcases Nat.lt_trichotomy s 1 with h | h | h
      · omega
      · exact h
      · have : 2 * v.rows ≤ s * v.rows := Nat.mul_le_mul_right _ h
        omega
    have : k = 0 := by omega
    subst this
    simp
  · have hdiv : s * v.rows / v.rows = s := Nat.mul_div_cancel _ hv
    have key : Ok (loop 1 s (fun i (u : Vec α) => u.setSegment? (i * v.rows) v.rows v)
        ⟨s * v.rows, fun i => if i < v.rows then v.e i else junk i⟩) fun r =>
        r.rows = s * v.rows ∧ ∀ k < s, ∀ i < v.rows, r.e (k * v.rows + i) = v.e i := by
      rcases Nat.eq_zero_or_pos s with rfl | hs
      · refine ⟨_, rfl, rfl, fun k hk => absurd hk (by omega)⟩
      apply Ok.loop (I := fun t (r : Vec α) => r.rows = s * v.rows ∧
        ∀ k < t, ∀ i < v.rows, r.e (k * v.rows + i) = v.e i)
      · exact hs
      · refine ⟨rfl, ?_⟩
        intro k hk i hi
        have : k = 0 := by omega
        subst this
        simp [hi]
      · intro t r _ ht ⟨hr, hI⟩
        apply Ok.setSegment? (by rw [hr]; exact blk_le ht) rfl
        refine ⟨hr, ?_⟩
        intro k hk i hi
        rw [setSegment_blk _ _ hi]
        split
        · rfl
        · exact hI k (by omega) i hi
      · intro r h; exact h
    obtain ⟨r, hr, hrest⟩ := key
    refine ⟨r, ?_, hrest⟩
    unfold spanVector
    rw [if_neg h1, if_neg (by omega)]
    simp only [hdiv, ne_eq, not_true_eq_false, if_false]
    rw [hr]; rfl

theorem spanVector_throw (junk : Nat → α) (v : Vec α) {n : Nat} (hv : 0 < v.rows) (h : ¬ v.rows ∣ n) :
    spanVector junk v n = .thrown .domainError v := by
  unfold spanVector
  rw [if_neg (by rintro rfl; exact h (dvd_refl _)), if_neg (by omega)]
  simp only [ne_eq]
  rw [if_pos]
  intro he
  exact h ⟨n / v.rows, by rw [Nat.mul_comm]; exact he.symm⟩

theorem spanVector_ub (junk : Nat → α) (v : Vec α) {n : Nat} (hv : v.rows = 0) (h : n ≠ 0) :
    spanVector junk v n = .ub := by
  unfold spanVector
  rw [if_neg (by omega), if_pos hv]

theorem spanMatrix_id [Zero K] (M : Mat K) (a : Nat) : spanMatrix M M.rows a = .ok M := by
  simp [spanMatrix]

theorem spanMatrix_rep [Field K] (M : Mat K) {s : Nat} (a : Nat) (hM : 0 < M.rows) (hs : s ≠ 1) :
    ∃ R, spanMatrix M (s * M.rows) a = .ok R ∧ R.rows = s * M.rows ∧ R.cols = M.cols * (s + a) ∧
      ∀ k < s, ∀ i < M.rows, ∀ l < s + a, ∀ j < M.cols,
        R.e (k * M.rows + i) (l * M.cols + j) = if k = l then M.e i j else 0 := by
  have h1 : s * M.rows ≠ M.rows := by
    intro h
    rcases Nat.lt_trichotomy s 1 with h' | h' | h'
    · have : s = 0 := by omega
      subst this; omega
    · exact hs h'
    · have : 2 * M.rows ≤ s * M.rows := Nat.mul_le_mul_right _ h'
      omega
  have hdiv : s * M.rows / M.rows = s := Nat.mul_div_cancel _ hM
  have key : Ok (loop 0 s (fun i (u : Mat K) => u.setBlock? (i * M.rows) (i * M.cols) M.rows M.cols M)
      (Mat.zero (s * M.rows) (M.cols * (s + a)))) fun R => R.rows = s * M.rows ∧
      R.cols = M.cols * (s + a) ∧ ∀ k < s, ∀ i < M.rows, ∀ l < s + a, ∀ j < M.cols,
        R.e (k * M.rows + i) (l * M.cols + j) = if k = l then M.e i j else 0 := by
    apply Ok.loop (I := fun t (R : Mat K) => R.rows = s * M.rows ∧
      R.cols = M.cols * (s + a) ∧ ∀ k < s, ∀ i < M.rows, ∀ l < s + a, ∀ j < M.cols,
        R.e (k * M.rows + i) (l * M.cols + j) = if k = l ∧ k < t then M.e i j else 0)
    · exact Nat.zero_le _
    · refine ⟨rfl, rfl, ?_⟩
      intros
      simp
    · intro t R _ ht ⟨hr, hc, hI⟩
      apply Ok.setBlock? (by rw [hr]; exact blk_le ht) (by rw [hc]; exact blk_le' (by omega)) rfl rfl
      refine ⟨hr, hc, ?_⟩
      intro k hk i hi l hl j hj
      rw [setBlock_blk _ _ hi hj]
      split
      · rename_i h
        obtain ⟨rfl, rfl⟩ := h
        simp
      · rename_i h
        rw [hI k hk i hi l hl j hj]
        by_cases hkl : k = l
        · subst hkl
          have : k ≠ t := fun e => h ⟨e, e⟩
          by_cases hkt : k < t
          · rw [if_pos ⟨rfl, hkt⟩, if_pos ⟨rfl, by omega⟩]
          · rw [if_neg (by omega), if_neg (by omega)]
        · rw [if_neg (fun e => hkl e.1), if_neg (fun e => hkl e.1)]
    · intro R ⟨h1, h2, h3⟩
      refine ⟨h1, h2, ?_⟩
      intro k hk i hi l hl j hj
      rw [h3 k hk i hi l hl j hj]
      by_cases hkl : k = l
      · rw [if_pos ⟨hkl, hk⟩, if_pos hkl]
      · rw [if_neg (fun e => hkl e.1), if_neg hkl]
  obtain ⟨R, hR, hrest⟩ := key
  refine ⟨R, ?_, hrest⟩
  unfold spanMatrix
  rw [if_neg h1, if_neg (by omega)]
  simp only [hdiv, ne_eq, not_true_eq_false, if_false]
  rw [hR]; rfl

theorem spanMatrix_throw [Zero K] (M : Mat K) {n : Nat} (a : Nat) (hM : 0 < M.rows) (h : ¬ M.rows ∣ n) :
    spanMatrix M n a = .thrown .domainError M := by
  unfold spanMatrix
  rw [if_neg (by rintro rfl; exact h (dvd_refl _)), if_neg (by omega)]
  simp only [ne_eq]
  rw [if_pos]
  intro he
  exact h ⟨n / M.rows, by rw [Nat.mul_comm]; exact he.symm⟩

theorem spanMatrix_ub [Zero K] (M : Mat K) {n : Nat} (a : Nat) (hM : M.rows = 0) (h : n ≠ 0) :
    spanMatrix M n a = .ub := by
  unfold spanMatrix
  rw [if_neg (by omega), if_pos hM]

end Copra.AutoSpan
