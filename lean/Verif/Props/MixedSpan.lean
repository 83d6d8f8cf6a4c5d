import Verif.Props.CostSpan
import Verif.Props.ConstrExamples

/-! # C10 and C12 for any combination of per-step and horizon-long parts -/

namespace Copra

namespace Spec
variable {K α : Type} [Field K]

/-- Row `r` of step `k` of a matrix with `e` rows per step and `w` columns per step, applied to the `s` steps of `X`: a
per-step matrix is applied to step `k`, a horizon-long one to all steps. -/
def partRow (e w s : Nat) (M : Mat K) (X : Nat → Nat → K) (k r : Nat) : K :=
  if M.rows = e then ∑ c ∈ Finset.range w, M.e r c * X k c
  else ∑ l ∈ Finset.range s, ∑ c ∈ Finset.range w, M.e (k * e + r) (l * w + c) * X l c

/-- Entry `r` of step `k` of a vector with `e` entries per step: a per-step vector is the same at every step. -/
def partEntry (e : Nat) (v : Vec α) (k r : Nat) : α := if v.rows = e then v.e r else v.e (k * e + r)

/-- A per-step (`e` by `w`) or horizon-long (`e * N` by `w * s`) matrix. -/
def MatPart (e w N s : Nat) (M : Mat K) : Prop := (M.rows = e ∧ M.cols = w) ∨ (M.rows = e * N ∧ M.cols = w * s)

/-- A per-step or horizon-long vector. -/
def VecPart (e N : Nat) (v : Vec α) : Prop := v.rows = e ∨ v.rows = e * N

end Spec
open Spec

set_option linter.unusedSectionVars false

variable {K α : Type} [Field K]

theorem AutoSpan.spanMatrix_part {e w N a : Nat} {M : Mat K} (he : 0 < e) (hN : 2 ≤ N) (h : MatPart e w N (N + a) M) :
    ∃ R, AutoSpan.spanMatrix M (N * e) a = .ok R ∧ R.rows = N * e ∧ R.cols = w * (N + a) ∧
      ∀ X : Nat → Nat → K, ∀ k < N, ∀ r < e,
        (∑ l ∈ Finset.range (N + a), ∑ c ∈ Finset.range w, R.e (k * e + r) (l * w + c) * X l c) = partRow e w (N + a) M X k r := by
  rcases h with ⟨h1, h2⟩ | ⟨h1, h2⟩
  · obtain ⟨R, e1, hr, _, hc, hs⟩ := AutoSpan.spanMatrix_sums M N a (by omega)
    rw [h1] at e1 hr hc hs
    rw [h2] at hc hs
    refine ⟨R, e1, hr, hc (by omega) he, fun X k hk r hr' => ?_⟩
    rw [hs (by omega) he X k hk r hr']
    unfold partRow
    rw [if_pos h1]
  · refine ⟨M, AutoSpan.spanMatrix_id' (by rw [h1, Nat.mul_comm]), by rw [h1, Nat.mul_comm], h2, fun X k _ r _ => ?_⟩
    unfold partRow
    rw [if_neg]
    rw [h1]
    exact mul_ne_self he hN

theorem AutoSpan.spanVector_part {e N : Nat} {v : Vec α} (junk : Nat → α) (he : 0 < e) (hN : 2 ≤ N) (h : VecPart e N v) :
    ∃ g, AutoSpan.spanVector junk v (N * e) = .ok g ∧ g.rows = N * e ∧
      ∀ k < N, ∀ r < e, g.e (k * e + r) = partEntry e v k r := by
  rcases h with h1 | h1
  · obtain ⟨g, e1, hr, hs⟩ := AutoSpan.spanVector_copies junk v N
    rw [h1] at e1 hr hs
    refine ⟨g, e1, hr, fun k hk r hr' => ?_⟩
    rw [hs k hk r hr']
    unfold partEntry
    rw [if_pos h1]
  · refine ⟨v, AutoSpan.spanVector_id' _ (by rw [h1, Nat.mul_comm]), by rw [h1, Nat.mul_comm], fun k _ r _ => ?_⟩
    unfold partEntry
    rw [if_neg]
    rw [h1]
    exact mul_ne_self he hN

theorem part_le {e N a : Nat} (hN : 2 ≤ N) (h : a = e ∨ a = e * N) : a ≤ N * e := by
  rcases h with h | h
  · rw [h]; exact Nat.le_mul_of_pos_left _ (by omega)
  · rw [h, Nat.mul_comm]

namespace Constr
open AutoSpan
variable [LinearOrder K] [IsStrictOrderedRing K]

/-- **C10** (any combination): each of `E`, `G` and `f` of a mixed constraint is per-step or horizon-long, at least one
of them horizon-long.  `autoSpan` succeeds, and the result holds exactly when at every control step the row of that step
of `E` plus the one of `G` is related to the entry of that step of `f`. -/
theorem c10_mixed_autoSpan_parts {d : Dims} (hN : 2 ≤ d.N) (hn : 0 < d.n) {e : Nat} (he : 0 < e) {E G : Mat K}
    {f : Vec (Ext K)} {q : Bool} (hE : MatPart e d.n d.N (d.N + 1) E) (hG : MatPart e d.m d.N d.N G) (hf : VecPart e d.N f)
    (hl : E.rows = e * d.N ∨ G.rows = e * d.N ∨ f.rows = e * d.N) (junk : Junk K) :
    ∃ c, (mkMixed E G f q).autoSpan junk = .ok c ∧ Unreg c ∧ c.kind = .mixed ∧ c.ineq = q ∧ Fits d c ∧
      ∀ X U, c.userData.Holds d X U ↔ ∀ k < d.N, ∀ r < e,
        Rel q (partRow e d.n (d.N + 1) E X k r + partRow e d.m d.N G (fun k c => ctrl d U k c) k r) (partEntry e f k r) := by
  have hmax : max f.rows (max E.rows G.rows) = d.N * e := by
    have a := part_le hN (e := e) (a := E.rows) (by rcases hE with h | h <;> simp [h.1])
    have b := part_le hN (e := e) (a := G.rows) (by rcases hG with h | h <;> simp [h.1])
    have c := part_le hN (e := e) (a := f.rows) hf
    have : e * d.N = d.N * e := Nat.mul_comm _ _
    omega
  obtain ⟨R, e1, r1, c1, s1⟩ := spanMatrix_part he hN hE
  obtain ⟨S, e2, r2, c2, s2⟩ := spanMatrix_part (a := 0) he hN hG
  obtain ⟨g, e3, r3, s3⟩ := spanVector_part (junk.x 0) he hN hf
  have span : (mkMixed E G f q).autoSpan junk = .ok { mkMixed E G f q with E := R, G := S, f := g } := by
    unfold autoSpan mkMixed fresh
    simp only [autoSpanMixed]
    rw [hmax, e1]
    simp only [Res.map, Res.andThen]
    rw [e2]
    simp only
    rw [e3]
  refine ⟨_, span, (autoSpan_ok span).2.unreg (fresh_unreg (Or.inr (Or.inr (Or.inl ⟨E, G, f, q, rfl⟩)))), rfl, rfl,
    ⟨r1.trans r3.symm, r2.trans r3.symm, Or.inr ⟨c1, by simpa using c2⟩⟩, fun X U => ?_⟩
  change (ConstrData.mixed q R S g).Holds d X U ↔ _
  unfold ConstrData.Holds
  have hne : ¬ (R.cols = d.n ∧ S.cols = d.m) := fun h => mul_ne_self hn (by omega) (c1.symm.trans h.1)
  simp only [if_neg hne]
  unfold MixedFull
  rw [r1, Nat.mul_comm d.N, forall_blk]
  refine forall₂_congr fun k hk => forall₂_congr fun r hr => ?_
  rw [s1 X k hk r hr, s3 k hk r hr]
  have := s2 (fun l c => ctrl d U l c) k hk r hr
  rw [Nat.add_zero] at this
  rw [this]

/-- A per-step `E`, a horizon-long `G` and a per-step vector meet the hypotheses. -/
example : ∃ c, (mkMixed (⟨1, 2, fun _ j => j + 1⟩ : Mat ℚ) ⟨3, 3, fun i j => if j = i then 1 else 0⟩ ⟨1, fun _ => .fin 4⟩).autoSpan
      exJunk = .ok c ∧ Fits ⟨2, 1, 3⟩ c ∧ c.f.rows = 3 ∧ c.E.rows = 3 ∧ c.E.cols = 8 := by
  obtain ⟨c, h, _, _, _, hf, _⟩ := c10_mixed_autoSpan_parts (d := ⟨2, 1, 3⟩) (e := 1) (q := true) (by simp) (by simp) (by simp)
    (E := (⟨1, 2, fun _ j => j + 1⟩ : Mat ℚ)) (G := ⟨3, 3, fun i j => if j = i then 1 else 0⟩) (f := ⟨1, fun _ => .fin 4⟩)
    (Or.inl ⟨rfl, rfl⟩) (Or.inr ⟨rfl, rfl⟩) (Or.inl rfl) (Or.inr (Or.inl rfl)) exJunk
  refine ⟨c, h, hf, ?_⟩
  injection h with h
  subst h
  exact ⟨rfl, rfl, rfl⟩

end Constr

namespace Cost
open AutoSpan

/-- **C12** (mixed costs, any combination): each of `M`, `N`, the target and the weights is per-step or horizon-long, at
least one of them horizon-long.  `autoSpan` succeeds and the result is the weighted sum over the control steps of the
squared distances of the row of that step to the target of that step. -/
theorem c12_mixed_autoSpan_parts {d : Dims} (hN : 2 ≤ d.N) (hn : 0 < d.n) {e : Nat} (he : 0 < e) {c : Cost K}
    (hk : c.kind = .mixed) (hM : MatPart e d.n d.N (d.N + 1) c.M) (hG : MatPart e d.m d.N d.N c.N)
    (hp : VecPart e d.N c.p) (hw : VecPart e d.N c.weights)
    (hl : c.M.rows = e * d.N ∨ c.N.rows = e * d.N ∨ c.p.rows = e * d.N ∨ c.weights.rows = e * d.N) (junk : Junk K) :
    ∃ c', c.autoSpan junk = .ok c' ∧ SpanFrame c c' ∧ Fits d c' ∧
      ∀ X U, c'.userData.value d X U = ∑ k ∈ Finset.range d.N, ∑ r ∈ Finset.range e, partEntry e c.weights k r *
        (partRow e d.n (d.N + 1) c.M X k r + partRow e d.m d.N c.N (fun k j => ctrl d U k j) k r - partEntry e c.p k r) ^ 2 := by
  have hmax : max c.M.rows (max c.N.rows (max c.weights.rows c.p.rows)) = d.N * e := by
    have a := part_le hN (e := e) (a := c.M.rows) (by rcases hM with h | h <;> simp [h.1])
    have b := part_le hN (e := e) (a := c.N.rows) (by rcases hG with h | h <;> simp [h.1])
    have c' := part_le hN (e := e) (a := c.p.rows) hp
    have c'' := part_le hN (e := e) (a := c.weights.rows) hw
    have : e * d.N = d.N * e := Nat.mul_comm _ _
    omega
  obtain ⟨R, e1, r1, c1, s1⟩ := spanMatrix_part he hN hM
  obtain ⟨S, e2, r2, c2, s2⟩ := spanMatrix_part (a := 0) he hN hG
  obtain ⟨g, e3, r3, s3⟩ := spanVector_part (junk.v 0) he hN hp
  obtain ⟨v, e4, r4, s4⟩ := spanVector_part (junk.v 1) he hN hw
  have span : c.autoSpan junk = .ok { c with M := R, N := S, p := g, weights := v } := by
    unfold autoSpan autoSpanMixed
    rw [hk]
    simp only
    rw [hmax, e1]
    simp only [Res.map, Res.andThen]
    rw [e2]
    simp only
    rw [e3]
    simp only
    rw [e4]
  refine ⟨_, span, (autoSpan_ok span).2.1, ?_, fun X U => ?_⟩
  · unfold Fits
    show match c.kind with | .trajectory => _ | .target => _ | .control => _ | .mixed => _
    rw [hk]
    exact ⟨r1.trans r3.symm, r2.trans r3.symm, Or.inr ⟨c1, by simpa using c2⟩⟩
  · have ud : ({ c with M := R, N := S, p := g, weights := v } : Cost K).userData = .mixed R S g v := by
      unfold userData; simp only [hk]
    rw [ud]
    unfold CostData.value wsq
    have hne : ¬ (R.cols = d.n ∧ S.cols = d.m) := fun h => mul_ne_self hn (by omega) (c1.symm.trans h.1)
    simp only [if_neg hne]
    rw [r1, sum_blk]
    refine Finset.sum_congr rfl fun k hk => Finset.sum_congr rfl fun r hr => ?_
    rw [Finset.mem_range] at hk hr
    have t := s2 (fun l c => ctrl d U l c) k hk r hr
    rw [Nat.add_zero] at t
    rw [s1 X k hk r hr, t, s3 k hk r hr, s4 k hk r hr]

/-- A horizon-long `M`, a per-step `N` and a horizon-long target meet the hypotheses. -/
example : ∃ c : Cost ℚ, (mkMixed (⟨3, 8, fun i j => i + j⟩ : Mat ℚ) ⟨1, 1, fun _ _ => 2⟩ ⟨3, fun i => i⟩).autoSpan Constr.exJunk = .ok c ∧
    Fits ⟨2, 1, 3⟩ c := by
  obtain ⟨c, h, _, hf, _⟩ := c12_mixed_autoSpan_parts (d := ⟨2, 1, 3⟩) (e := 1) (by simp) (by simp) (by simp)
    (c := mkMixed (⟨3, 8, fun i j => i + j⟩ : Mat ℚ) ⟨1, 1, fun _ _ => 2⟩ ⟨3, fun i => i⟩) rfl
    (Or.inr ⟨rfl, rfl⟩) (Or.inl ⟨rfl, rfl⟩) (Or.inr rfl) (Or.inr rfl) (Or.inl rfl) Constr.exJunk
  exact ⟨c, h, hf⟩

end Cost
end Copra
