import Verif.Props.Constraints

/-! # Properties C09-C11, C13: `autoSpan` of constraints -/

namespace Copra
open Spec

set_option linter.unusedSectionVars false

variable {K α : Type} [Field K]

/-- `spanMatrix` to `s` copies: shape and row sums of the result, degenerate cases included. -/
theorem AutoSpan.spanMatrix_sums (M : Mat K) (s a : Nat) (hs : 0 < s) :
    ∃ R, AutoSpan.spanMatrix M (s * M.rows) a = .ok R ∧ R.rows = s * M.rows ∧
      (s = 1 ∨ M.rows = 0 → R = M) ∧ (s ≠ 1 → 0 < M.rows → R.cols = M.cols * (s + a)) ∧
      (s ≠ 1 → 0 < M.rows → ∀ (X : Nat → Nat → K), ∀ k < s, ∀ r < M.rows,
        (∑ l ∈ Finset.range (s + a), ∑ c ∈ Finset.range M.cols,
          R.e (k * M.rows + r) (l * M.cols + c) * X l c) = ∑ c ∈ Finset.range M.cols, M.e r c * X k c) := by
  by_cases h1 : s = 1
  · subst h1
    refine ⟨M, by rw [Nat.one_mul]; exact AutoSpan.spanMatrix_id M a, by omega, fun _ => rfl, ?_, ?_⟩
    · intro h; exact absurd rfl h
    · intro h; exact absurd rfl h
  · rcases Nat.eq_zero_or_pos M.rows with h0 | h0
    · refine ⟨M, ?_, by rw [h0]; omega, fun _ => rfl, ?_, ?_⟩
      · exact AutoSpan.spanMatrix_id' (by rw [h0]; omega)
      · intro _ h; omega
      · intro _ h; omega
    · obtain ⟨R, e, hr, hc, he⟩ := AutoSpan.spanMatrix_rep M (s := s) a h0 h1
      refine ⟨R, e, hr, ?_, fun _ _ => hc, ?_⟩
      · rintro (h | h)
        · exact absurd h h1
        · omega
      · intro _ _ X k hk r hr'
        rw [Finset.sum_eq_single k]
        · apply Finset.sum_congr rfl
          intro c hc'
          rw [he k hk r hr' k (by omega) c (Finset.mem_range.1 hc'), if_pos rfl]
        · intro l hl hne
          apply Finset.sum_eq_zero
          intro c hc'
          rw [he k hk r hr' l (Finset.mem_range.1 hl) c (Finset.mem_range.1 hc'), if_neg (Ne.symm hne),
            zero_mul]
        · intro h; exact absurd (Finset.mem_range.2 (by omega)) h

namespace Constr
open AutoSpan

section ordered
variable [LinearOrder K] [IsStrictOrderedRing K]

/-- The rows handed to the solver are exact for whatever the constraint declares when it is added. -/
theorem rows_exact_data {d : Dims} {ps0 ps : PreviewSystem K} {c c1 c2 : Constr K} {junk : Junk K}
    (hu : Unreg c) (hk : c.kind ≠ .ctrlBound) (hk' : c.kind ≠ .trajBound) (h0 : Accepted d ps0)
    (hi : c.initializeConstraint junk ps0 = .ok c1) (hh : History d c1 c2) (hp : Current d ps) :
    ∃ c3, c2.update ps = some c3 ∧ RowsExact d ps c3 c.ineq (rowsNeeded d c) (c.userData.Holds d) := by
  obtain ⟨c3, e, H⟩ := history_rows hu hk h0 hi hh hp
  obtain ⟨_, hud, k1, _⟩ := init_unreg hu h0 hi
  refine ⟨c3, e, H.congr ?_⟩
  intro X U
  rw [sem_data (by rw [k1]; exact hk'), hud]

theorem forall_lt_le {N : Nat} {P : Nat → Prop} : (∀ k < N + 1, P k) ↔ ∀ k ≤ N, P k :=
  ⟨fun h k hk => h k (by omega), fun h k hk => h k (by omega)⟩

/-- Meaning of per-step data `E` after `autoSpan` to a horizon-long vector. -/
theorem spanned_trajectory {d : Dims} (hN : 0 < d.N) {E R : Mat K} {f : Vec (Ext K)} {q : Bool}
    (hE : E.cols = d.n) (hR : spanMatrix E ((d.N + 1) * E.rows) = .ok R) (X : Nat → Nat → K) (U : Nat → K) :
    (R.cols = d.n ∨ R.cols = d.n * (d.N + 1)) ∧
    ((ConstrData.trajectory q R f).Holds d X U ↔
      ∀ k ≤ d.N, ∀ r < E.rows, Rel q (∑ c ∈ Finset.range d.n, E.e r c * X k c) (f.e (k * E.rows + r))) := by
  obtain ⟨R', e, hr, h1, h2, h3⟩ := spanMatrix_sums E (d.N + 1) 0 (by omega)
  rw [hR] at e; cases e
  rcases Nat.eq_zero_or_pos E.rows with h0 | h0
  · rw [h1 (Or.inr h0)]
    refine ⟨Or.inl hE, ?_⟩
    unfold ConstrData.Holds
    simp only [if_pos hE]
    unfold TrajectoryStep
    rw [h0]
    constructor <;> intro _ k _ r hr' <;> omega
  · have hc := h2 (by omega) h0
    rw [Nat.add_zero, hE] at hc
    refine ⟨Or.inr hc, ?_⟩
    have hs := h3 (by omega) h0
    simp only [Nat.add_zero, hE] at hs
    unfold ConstrData.Holds
    by_cases hcn : R.cols = d.n
    · simp only [if_pos hcn]
      have hn0 : d.n = 0 := by
        rw [hc] at hcn
        rcases Nat.eq_zero_or_pos d.n with h | h
        · exact h
        · have : d.n * 2 ≤ d.n * (d.N + 1) := Nat.mul_le_mul_left _ (by omega)
          omega
      unfold TrajectoryStep
      rw [hr, hn0]
      simp only [Finset.range_zero, Finset.sum_empty]
      constructor
      · intro H k hk r hr'
        exact H 0 (by omega) _ (blk_lt (by omega) hr')
      · intro H k hk i hi
        obtain ⟨k', r, hk', hr', rfl⟩ := blk_split hi
        exact H k' (by omega) r hr'
    · simp only [if_neg hcn]
      unfold TrajectoryFull
      rw [hr, Nat.mul_comm (d.N + 1), forall_blk, forall_lt_le]
      constructor
      · intro H k hk r hr'
        rw [← hs X k (by omega) r hr']; exact H k hk r hr'
      · intro H k hk r hr'
        rw [hs X k (by omega) r hr']; exact H k hk r hr'

/-- C09 (trajectory constraints, horizon-long vector): `autoSpan` succeeds and the resulting constraint
declares `E x_k (<=|=) f_k` with the slice `f_k` of `f` belonging to step `k`; it fits the system, and (by
`rows_exact_data`) these are the rows of every later solve. -/
theorem c09_trajectory_autoSpan {d : Dims} (hN : 0 < d.N) {E : Mat K} {f : Vec (Ext K)} {q : Bool}
    (hE : E.cols = d.n) (hf : f.rows = E.rows * (d.N + 1)) (junk : Junk K) :
    ∃ c, (mkTrajectory E f q).autoSpan junk = .ok c ∧ Unreg c ∧ c.kind = .trajectory ∧ c.ineq = q ∧ Fits d c ∧
      ∀ X U, c.userData.Holds d X U ↔
        ∀ k ≤ d.N, ∀ r < E.rows, Rel q (∑ c ∈ Finset.range d.n, E.e r c * X k c) (f.e (k * E.rows + r)) := by
  have hmax : max E.rows f.rows = (d.N + 1) * E.rows := by
    rw [hf, Nat.mul_comm]; exact max_eq_right (Nat.le_mul_of_pos_left _ (by omega))
  obtain ⟨R, e, hr, _⟩ := spanMatrix_sums E (d.N + 1) 0 (by omega)
  have span : (mkTrajectory E f q).autoSpan junk = .ok { mkTrajectory E f q with E := R } := by
    unfold autoSpan mkTrajectory fresh
    simp only [autoSpanTrajectory]
    rw [hmax, e]
    simp only [Res.map, Res.andThen]
    rw [spanVector_id' _ (by rw [hf, Nat.mul_comm])]
  refine ⟨_, span, ?_, rfl, rfl, ?_, ?_⟩
  · exact (autoSpan_ok span).2.unreg (fresh_unreg (Or.inl ⟨E, f, q, rfl⟩))
  · exact ⟨hr.trans (by rw [Nat.mul_comm]; exact hf.symm), (spanned_trajectory (f := f) (q := q) hN hE e 0 0).1⟩
  · intro X U
    exact (spanned_trajectory hN hE e X U).2

/-- C09 (trajectory constraints, per-step vector): with a horizon-long matrix of `s` block rows and a
vector for one block row, `autoSpan` repeats the vector: block row `k` of `E X` is compared to `f`. -/
theorem c09_trajectory_autoSpan_vector {d : Dims} {E : Mat K} {f : Vec (Ext K)} {q : Bool} {s : Nat}
    (hs : 0 < s) (hc : E.cols = d.n * (d.N + 1)) (hn : E.cols ≠ d.n) (hE : E.rows = s * f.rows)
    (junk : Junk K) :
    ∃ c, (mkTrajectory E f q).autoSpan junk = .ok c ∧ Unreg c ∧ c.kind = .trajectory ∧ c.ineq = q ∧ Fits d c ∧
      ∀ X U, c.userData.Holds d X U ↔
        ∀ k < s, ∀ r < f.rows, Rel q (∑ l ∈ Finset.range (d.N + 1), ∑ c ∈ Finset.range d.n,
          E.e (k * f.rows + r) (l * d.n + c) * X l c) (f.e r) := by
  have hmax : max E.rows f.rows = s * f.rows := by
    rw [hE]; exact max_eq_left (Nat.le_mul_of_pos_left _ hs)
  have hv : ∃ g, spanVector (junk.x 0) f (s * f.rows) = .ok g ∧ g.rows = s * f.rows ∧
      ∀ k < s, ∀ r < f.rows, g.e (k * f.rows + r) = f.e r := by
    rcases Nat.eq_zero_or_pos f.rows with h0 | h0
    · refine ⟨f, spanVector_id' _ (by rw [h0]; omega), by rw [h0]; omega, ?_⟩
      intro k _ r hr; omega
    · obtain ⟨g, h1, h2, h3⟩ := spanVector_rep (junk.x 0) f (s := s) h0
      exact ⟨g, h1, h2, fun k hk r hr => h3 k hk r hr⟩
  obtain ⟨g, eg, hg, he⟩ := hv
  have span : (mkTrajectory E f q).autoSpan junk = .ok { mkTrajectory E f q with f := g } := by
    unfold autoSpan mkTrajectory fresh
    simp only [autoSpanTrajectory]
    rw [hmax, spanMatrix_id' hE.symm]
    simp only [Res.map, Res.andThen]
    rw [eg]
  refine ⟨_, span, ?_, rfl, rfl, ?_, ?_⟩
  · exact (autoSpan_ok span).2.unreg (fresh_unreg (Or.inl ⟨E, f, q, rfl⟩))
  · exact ⟨hE.trans hg.symm, Or.inr hc⟩
  · intro X U
    change (ConstrData.trajectory q E g).Holds d X U ↔ _
    unfold ConstrData.Holds
    simp only [if_neg hn]
    unfold TrajectoryFull
    rw [hE, Nat.mul_comm s, forall_blk]
    constructor
    · intro H k hk r hr
      rw [← he k hk r hr]; exact H k hk r hr
    · intro H k hk r hr
      rw [he k hk r hr]; exact H k hk r hr

/-- Meaning of per-step control data after `autoSpan` to a horizon-long vector. -/
theorem spanned_control {d : Dims} (hN : 0 < d.N) {G R : Mat K} {f : Vec (Ext K)} {q : Bool}
    (hG : G.cols = d.m) (hR : spanMatrix G (d.N * G.rows) = .ok R) (X : Nat → Nat → K) (U : Nat → K) :
    (R.cols = d.m ∨ R.cols = d.m * d.N) ∧
    ((ConstrData.control q R f).Holds d X U ↔
      ∀ k < d.N, ∀ r < G.rows,
        Rel q (∑ c ∈ Finset.range d.m, G.e r c * ctrl d U k c) (f.e (k * G.rows + r))) := by
  obtain ⟨R', e, hr, h1, h2, h3⟩ := spanMatrix_sums G d.N 0 hN
  rw [hR] at e; cases e
  by_cases hd : d.N = 1 ∨ G.rows = 0
  · rw [h1 hd]
    refine ⟨Or.inl hG, ?_⟩
    unfold ConstrData.Holds
    simp only [if_pos hG]
    unfold ControlStep
    rcases hd with hd | hd
    · rw [hd]
      constructor <;> intro H k hk r hr'
      · have : k = 0 := by omega
        subst this
        rw [Nat.zero_mul, Nat.zero_add]
        exact H 0 (by omega) r hr'
      · have : k = 0 := by omega
        subst this
        have := H 0 (by omega) r hr'
        rwa [Nat.zero_mul, Nat.zero_add] at this
    · rw [hd]
      constructor <;> intro _ k _ r hr' <;> omega
  · have h0 : 0 < G.rows := by omega
    have hN1 : d.N ≠ 1 := by omega
    have hc := h2 hN1 h0
    rw [Nat.add_zero, hG] at hc
    refine ⟨Or.inr hc, ?_⟩
    have hs := h3 hN1 h0
    simp only [Nat.add_zero, hG] at hs
    unfold ConstrData.Holds
    by_cases hcn : R.cols = d.m
    · simp only [if_pos hcn]
      have hn0 : d.m = 0 := by
        rw [hc] at hcn
        rcases Nat.eq_zero_or_pos d.m with h | h
        · exact h
        · have : d.m * 2 ≤ d.m * d.N := Nat.mul_le_mul_left _ (by omega)
          omega
      unfold ControlStep
      rw [hr, hn0]
      simp only [Finset.range_zero, Finset.sum_empty]
      constructor
      · intro H k hk r hr'
        exact H 0 (by omega) _ (blk_lt (by omega) hr')
      · intro H k hk i hi
        obtain ⟨k', r, hk', hr', rfl⟩ := blk_split hi
        exact H k' (by omega) r hr'
    · simp only [if_neg hcn]
      unfold ControlFull
      rw [hr, Nat.mul_comm d.N, forall_blk]
      constructor
      · intro H k hk r hr'
        rw [← hs (fun l c => ctrl d U l c) k (by omega) r hr']; exact H k hk r hr'
      · intro H k hk r hr'
        rw [hs (fun l c => ctrl d U l c) k (by omega) r hr']; exact H k hk r hr'

/-- C09 (control constraints, horizon-long vector). -/
theorem c09_control_autoSpan {d : Dims} (hN : 0 < d.N) {G : Mat K} {f : Vec (Ext K)} {q : Bool}
    (hG : G.cols = d.m) (hf : f.rows = G.rows * d.N) (junk : Junk K) :
    ∃ c, (mkControl G f q).autoSpan junk = .ok c ∧ Unreg c ∧ c.kind = .control ∧ c.ineq = q ∧ Fits d c ∧
      ∀ X U, c.userData.Holds d X U ↔
        ∀ k < d.N, ∀ r < G.rows,
          Rel q (∑ c ∈ Finset.range d.m, G.e r c * ctrl d U k c) (f.e (k * G.rows + r)) := by
  have hmax : max G.rows f.rows = d.N * G.rows := by
    rw [hf, Nat.mul_comm]; exact max_eq_right (Nat.le_mul_of_pos_left _ (by omega))
  obtain ⟨R, e, hr, _⟩ := spanMatrix_sums G d.N 0 hN
  have span : (mkControl G f q).autoSpan junk = .ok { mkControl G f q with G := R } := by
    unfold autoSpan mkControl fresh
    simp only [autoSpanControl]
    rw [hmax, e]
    simp only [Res.map, Res.andThen]
    rw [spanVector_id' _ (by rw [hf, Nat.mul_comm])]
  refine ⟨_, span, ?_, rfl, rfl, ?_, ?_⟩
  · exact (autoSpan_ok span).2.unreg (fresh_unreg (Or.inr (Or.inl ⟨G, f, q, rfl⟩)))
  · exact ⟨hr.trans (by rw [Nat.mul_comm]; exact hf.symm), (spanned_control (f := f) (q := q) hN hG e 0 0).1⟩
  · intro X U
    exact (spanned_control hN hG e X U).2

/-- C09 (control constraints, per-step vector). -/
theorem c09_control_autoSpan_vector {d : Dims} {G : Mat K} {f : Vec (Ext K)} {q : Bool} {s : Nat}
    (hs : 0 < s) (hc : G.cols = d.m * d.N) (hn : G.cols ≠ d.m) (hG : G.rows = s * f.rows)
    (junk : Junk K) :
    ∃ c, (mkControl G f q).autoSpan junk = .ok c ∧ Unreg c ∧ c.kind = .control ∧ c.ineq = q ∧ Fits d c ∧
      ∀ X U, c.userData.Holds d X U ↔
        ∀ k < s, ∀ r < f.rows, Rel q (∑ l ∈ Finset.range d.N, ∑ c ∈ Finset.range d.m,
          G.e (k * f.rows + r) (l * d.m + c) * ctrl d U l c) (f.e r) := by
  have hmax : max G.rows f.rows = s * f.rows := by
    rw [hG]; exact max_eq_left (Nat.le_mul_of_pos_left _ hs)
  have hv : ∃ g, spanVector (junk.x 0) f (s * f.rows) = .ok g ∧ g.rows = s * f.rows ∧
      ∀ k < s, ∀ r < f.rows, g.e (k * f.rows + r) = f.e r := by
    rcases Nat.eq_zero_or_pos f.rows with h0 | h0
    · refine ⟨f, spanVector_id' _ (by rw [h0]; omega), by rw [h0]; omega, ?_⟩
      intro k _ r hr; omega
    · obtain ⟨g, h1, h2, h3⟩ := spanVector_rep (junk.x 0) f (s := s) h0
      exact ⟨g, h1, h2, fun k hk r hr => h3 k hk r hr⟩
  obtain ⟨g, eg, hg, he⟩ := hv
  have span : (mkControl G f q).autoSpan junk = .ok { mkControl G f q with f := g } := by
    unfold autoSpan mkControl fresh
    simp only [autoSpanControl]
    rw [hmax, spanMatrix_id' hG.symm]
    simp only [Res.map, Res.andThen]
    rw [eg]
  refine ⟨_, span, ?_, rfl, rfl, ?_, ?_⟩
  · exact (autoSpan_ok span).2.unreg (fresh_unreg (Or.inr (Or.inl ⟨G, f, q, rfl⟩)))
  · exact ⟨hG.trans hg.symm, Or.inr hc⟩
  · intro X U
    change (ConstrData.control q G g).Holds d X U ↔ _
    unfold ConstrData.Holds
    simp only [if_neg hn]
    unfold ControlFull
    rw [hG, Nat.mul_comm s, forall_blk]
    constructor
    · intro H k hk r hr
      rw [← he k hk r hr]; exact H k hk r hr
    · intro H k hk r hr
      rw [he k hk r hr]; exact H k hk r hr

/-- C10: `autoSpan` of a mixed constraint with per-step `E`, `G` and a horizon-long vector. -/
theorem c10_mixed_autoSpan {d : Dims} (hN : 0 < d.N) {E G : Mat K} {f : Vec (Ext K)} {q : Bool}
    (hE : E.cols = d.n) (hG : G.cols = d.m) (hEG : G.rows = E.rows) (hf : f.rows = E.rows * d.N)
    (junk : Junk K) :
    ∃ c, (mkMixed E G f q).autoSpan junk = .ok c ∧ Unreg c ∧ c.kind = .mixed ∧ c.ineq = q ∧ Fits d c ∧
      ∀ X U, c.userData.Holds d X U ↔
        ∀ k < d.N, ∀ r < E.rows,
          Rel q ((∑ c ∈ Finset.range d.n, E.e r c * X k c) + ∑ c ∈ Finset.range d.m, G.e r c * ctrl d U k c)
            (f.e (k * E.rows + r)) := by
  have hle : E.rows ≤ d.N * E.rows := Nat.le_mul_of_pos_left _ (by omega)
  have hmax : max f.rows (max E.rows G.rows) = d.N * E.rows := by
    rw [hf, hEG, max_self, Nat.mul_comm]; exact max_eq_left hle
  obtain ⟨R, e, hr, h1, h2, h3⟩ := spanMatrix_sums E d.N 1 hN
  obtain ⟨S, e', hr', h1', h2', h3'⟩ := spanMatrix_sums G d.N 0 hN
  rw [hEG] at e' hr' h1' h2' h3'
  have span : (mkMixed E G f q).autoSpan junk = .ok { mkMixed E G f q with E := R, G := S } := by
    unfold autoSpan mkMixed fresh
    simp only [autoSpanMixed]
    rw [hmax, e]
    simp only [Res.map, Res.andThen]
    rw [e']
    simp only
    rw [spanVector_id' _ (by rw [hf, Nat.mul_comm])]
  by_cases hd : d.N = 1 ∨ E.rows = 0
  · have hRE := h1 hd
    have hSG := h1' hd
    subst hRE hSG
    refine ⟨_, span, ?_, rfl, rfl, ?_, ?_⟩
    · exact (autoSpan_ok span).2.unreg (fresh_unreg (Or.inr (Or.inr (Or.inl ⟨_, _, f, q, rfl⟩))))
    · have hfr : f.rows = R.rows := by rw [hf, Nat.mul_comm]; exact hr.symm
      exact ⟨hfr.symm, hEG.trans hfr.symm, Or.inl ⟨hE, hG⟩⟩
    · intro X U
      change (ConstrData.mixed q R S f).Holds d X U ↔ _
      unfold ConstrData.Holds
      simp only [if_pos (And.intro hE hG)]
      unfold MixedStep
      rcases hd with hd | hd
      · rw [hd]
        constructor <;> intro H k hk r hr'
        · have : k = 0 := by omega
          subst this
          rw [Nat.zero_mul, Nat.zero_add]
          exact H 0 (by omega) r hr'
        · have : k = 0 := by omega
          subst this
          have := H 0 (by omega) r hr'
          rwa [Nat.zero_mul, Nat.zero_add] at this
      · rw [hd]
        constructor <;> intro _ k _ r hr' <;> omega
  · have h0 : 0 < E.rows := by omega
    have hN1 : d.N ≠ 1 := by omega
    have hc := h2 hN1 h0
    have hc' := h2' hN1 h0
    rw [hE] at hc
    rw [Nat.add_zero, hG] at hc'
    have hs := h3 hN1 h0
    have hs' := h3' hN1 h0
    simp only [hE] at hs
    simp only [Nat.add_zero, hG] at hs'
    refine ⟨_, span, ?_, rfl, rfl, ?_, ?_⟩
    · exact (autoSpan_ok span).2.unreg (fresh_unreg (Or.inr (Or.inr (Or.inl ⟨E, G, f, q, rfl⟩))))
    · have hfr : f.rows = d.N * E.rows := by rw [hf, Nat.mul_comm]
      exact ⟨hr.trans hfr.symm, hr'.trans hfr.symm, Or.inr ⟨hc, hc'⟩⟩
    · intro X U
      change (ConstrData.mixed q R S f).Holds d X U ↔ _
      unfold ConstrData.Holds
      by_cases hcn : R.cols = d.n ∧ S.cols = d.m
      · simp only [if_pos hcn]
        have hn0 : d.n = 0 := by
          have := hcn.1
          rw [hc] at this
          rcases Nat.eq_zero_or_pos d.n with h | h
          · exact h
          · have : d.n * 2 ≤ d.n * (d.N + 1) := Nat.mul_le_mul_left _ (by omega)
            omega
        have hm0 : d.m = 0 := by
          have := hcn.2
          rw [hc'] at this
          rcases Nat.eq_zero_or_pos d.m with h | h
          · exact h
          · have : d.m * 2 ≤ d.m * d.N := Nat.mul_le_mul_left _ (by omega)
            omega
        unfold MixedStep
        rw [hr, hn0, hm0]
        simp only [Finset.range_zero, Finset.sum_empty]
        constructor
        · intro H k hk r hr'
          exact H 0 (by omega) _ (blk_lt (by omega) hr')
        · intro H k hk i hi
          obtain ⟨k', r, hk', hr', rfl⟩ := blk_split hi
          exact H k' (by omega) r hr'
      · simp only [if_neg hcn]
        unfold MixedFull
        rw [hr, Nat.mul_comm d.N, forall_blk]
        constructor
        · intro H k hk r hr'
          have := H k hk r hr'
          rw [hs X k (by omega) r hr', hs' (fun l c => ctrl d U l c) k (by omega) r hr'] at this
          exact this
        · intro H k hk r hr'
          rw [hs X k (by omega) r hr', hs' (fun l c => ctrl d U l c) k (by omega) r hr']
          exact H k hk r hr'

/-! ## C11: trajectory bounds -/

/-- What the trajectory bounds (of per-step length `n` or horizon-long) mean: entry `i mod rows`. -/
def BoundsMean (d : Dims) (l u : Vec (Ext K)) (X : Nat → Nat → K) : Prop :=
  ∀ k ≤ d.N, ∀ r < d.n,
    l.e (if l.rows = d.n then r else k * d.n + r) ≤ Ext.fin (X k r) ∧
    Ext.fin (X k r) ≤ u.e (if u.rows = d.n then r else k * d.n + r)

/-- C11 (partial): a per-step lower bound without finite entry, spanned to a horizon-long upper bound:
the rows of every later solve are exactly the upper bound at every step.
Missing: spanning a vector with finite entries, where the property is false, see `c11_false`. -/
theorem c11_trajBound_autoSpan_partial {d : Dims} {l u : Vec (Ext K)} {junk junk' : Junk K} (hN : 0 < d.N)
    (hl : ∀ i < l.rows, l.e i = .ninf) (hlr : l.rows = d.n) (hur : u.rows = d.n * (d.N + 1))
    {ps0 ps : PreviewSystem K} (h0 : Accepted d ps0) (hp : Current d ps) :
    ∃ c, (mkTrajBound l u).autoSpan junk = .ok c ∧ ∀ c1 c2, c.initializeConstraint junk' ps0 = .ok c1 →
      History d c1 c2 → ∃ c3 nr, c2.update ps = some c3 ∧
        RowsExact d ps c3 true nr (fun X _ => BoundsMean d l u X) := by
  have hle : d.n ≤ d.n * (d.N + 1) := Nat.le_mul_of_pos_right _ (by omega)
  have hmax : max l.rows u.rows = (d.N + 1) * l.rows := by
    rw [hlr, hur, Nat.mul_comm]; exact max_eq_right (by rw [Nat.mul_comm]; exact hle)
  have hv : ∃ g, spanVector (junk.x 0) l ((d.N + 1) * l.rows) = .ok g ∧ g.rows = (d.N + 1) * l.rows ∧
      ∀ i < g.rows, g.e i = .ninf := by
    rcases Nat.eq_zero_or_pos l.rows with h0 | h0
    · exact ⟨l, spanVector_id' _ (by rw [h0]; omega), by rw [h0]; omega, fun i h => hl i h⟩
    · obtain ⟨g, h1, h2, h3⟩ := spanVector_rep (junk.x 0) l (s := d.N + 1) h0
      refine ⟨g, h1, h2, ?_⟩
      intro i hi
      rw [h2] at hi
      obtain ⟨k, r, hk, hr, rfl⟩ := blk_split hi
      rw [h3 k hk r hr]; exact hl _ hr
  obtain ⟨g, eg, hg, he⟩ := hv
  have hug : u.rows = (d.N + 1) * l.rows := by rw [hlr, hur, Nat.mul_comm]
  have span : (mkTrajBound l u).autoSpan junk = .ok { mkTrajBound l u with lower := g } := by
    unfold autoSpan mkTrajBound fresh
    simp only [autoSpanTrajBound]
    rw [hmax, eg]
    simp only [Res.map, Res.andThen]
    rw [spanVector_id' _ hug.symm]
    simp only
    rw [if_neg (by simp [hg]; exact hug), if_neg (by simp [hg])]
  refine ⟨_, span, ?_⟩
  intro c1 c2 hi hh
  have hu : Unreg { mkTrajBound l u with lower := g } :=
    (autoSpan_ok span).2.unreg (fresh_unreg (Or.inr (Or.inr (Or.inr (Or.inl ⟨l, u, rfl⟩)))))
  obtain ⟨c3, e, H⟩ := history_rows hu (by simp [mkTrajBound, fresh]) h0 hi hh hp
  obtain ⟨r1, hud, k1, _, _, l1, u1⟩ := init_unreg hu h0 hi
  have hk : c1.kind = .trajBound := by rw [k1]; rfl
  have hgu : c1.lower = g ∧ c1.upper = u := by
    have e : c1.userData = .trajBound c1.lower c1.upper := by unfold userData; rw [hk]
    rw [e] at hud
    have e2 : ({ mkTrajBound l u with lower := g } : Constr K).userData = .trajBound g u := rfl
    rw [e2] at hud
    injection hud with a b
    exact ⟨a, b⟩
  refine ⟨c3, _, e, H.congr ?_⟩
  intro X U
  unfold Sem
  rw [hk]
  simp only
  unfold Reg at r1
  rw [hk] at r1
  rw [boundRows_lines r1 ?_ (by rw [u1, hgu.2]; rfl), hgu.1, hgu.2]
  · unfold TrajBoundAsBuilt BoundsMean
    rw [hg, hlr]
    have hidx : ∀ k r, (if (d.N + 1) * d.n = d.n then r else k * d.n + r) =
        (if d.n * (d.N + 1) = d.n then r else k * d.n + r) := by
      intro k r; rw [Nat.mul_comm]
    simp only [hidx, hur]
    constructor
    · intro H k hk r hr
      exact ⟨by rw [hl _ (by rw [hlr]; exact hr)]; trivial, (H k hk r hr).2⟩
    · intro H k hk r hr
      refine ⟨?_, (H k hk r hr).2⟩
      intro hne
      refine absurd (he _ ?_) hne
      rw [hg, hlr]
      split
      · exact lt_of_lt_of_le hr (Nat.le_mul_of_pos_left _ (by omega))
      · exact blk_lt (by omega) hr
  · rw [l1, hgu.1]
    have a1 : finiteLines Ext.isNinf l = [] := by
      unfold finiteLines
      rw [List.filter_eq_nil_iff]
      intro i hi; rw [hl i (List.mem_range.1 hi)]; simp [Ext.isNinf]
    have a2 : finiteLines Ext.isNinf g = [] := by
      unfold finiteLines
      rw [List.filter_eq_nil_iff]
      intro i hi; rw [he i (List.mem_range.1 hi)]; simp [Ext.isNinf]
    rw [a2]
    exact a1

end ordered

/-! ## C13: `autoSpan` after acceptance, idempotence -/

/-- C13 (constraints): once accepted, and after any later history, `autoSpan` changes nothing. -/
theorem c13_constraint_autoSpan_noop {d : Dims} {ps0 : PreviewSystem K} {c c1 c2 : Constr K}
    {junk junk' : Junk K} (hu : Unreg c) (h0 : Accepted d ps0)
    (hi : c.initializeConstraint junk ps0 = .ok c1) (hh : History d c1 c2) :
    c2.autoSpan junk' = .ok c2 :=
  autoSpan_rowsAgree junk' (hh.reg (init_unreg hu h0 hi).1).1.rowsAgree

/-- C13 (constraints): `autoSpan` is idempotent whenever it succeeds, for every constraint object. -/
theorem c13_constraint_autoSpan_idempotent {c c' : Constr K} {junk junk' : Junk K}
    (h : c.autoSpan junk = .ok c') : c'.autoSpan junk' = .ok c' :=
  autoSpan_rowsAgree junk' (autoSpan_ok h).1

end Constr
end Copra
