import Verif.SpecDecl
import Verif.Props.AutoSpan
import Verif.Props.CtlData
import Verif.Props.Registry
import Verif.Props.Tighter
import Verif.Props.EndToEnd

/-! # C90: the library behaves like the abstract machine of declarations -/

namespace Copra
open Spec

set_option linter.unusedSectionVars false
set_option maxRecDepth 100000

section
variable {K α : Type} [Field K]

theorem AutoSpan.spanMatrix_spanned {M R : Mat K} {n a : Nat} (h : AutoSpan.spanMatrix M n a = .ok R) : SpannedMat a n M R := by
  obtain ⟨h1, h2, h3, h4⟩ := c08_spanMatrix M n a
  by_cases hn : n = M.rows
  · rw [h2 hn] at h; injection h with h; exact Or.inl ⟨hn, h.symm⟩
  · rcases Nat.eq_zero_or_pos M.rows with h0 | h0
    · rw [h4 h0 (by omega)] at h; cases h
    · by_cases hd : M.rows ∣ n
      · obtain ⟨R', e, a1, a2, a3⟩ := h1 h0 hn hd
        rw [e] at h; injection h with h; subst h
        exact Or.inr ⟨hn, h0, hd, a1, a2, a3⟩
      · rw [h3 h0 hd] at h; cases h

theorem AutoSpan.spanVector_spanned {junk : Nat → α} {v r : Vec α} {n : Nat} (h : AutoSpan.spanVector junk v n = .ok r) :
    SpannedVec n v r := by
  obtain ⟨h1, h2, h3, h4⟩ := c07_spanVector junk v n
  by_cases hn : n = v.rows
  · rw [h2 hn] at h; injection h with h; exact Or.inl ⟨hn, h.symm⟩
  · rcases Nat.eq_zero_or_pos v.rows with h0 | h0
    · rw [h4 h0 (by omega)] at h; cases h
    · by_cases hd : v.rows ∣ n
      · obtain ⟨R', e, a1, a2⟩ := h1 h0 hd
        rw [e] at h; injection h with h; subst h
        exact Or.inr ⟨hn, h0, hd, a1, a2⟩
      · rw [h3 h0 hd] at h; cases h

theorem AutoSpan.spanMatrix_not_dvd {M R : Mat K} {n a : Nat} {e : Exn} (h : AutoSpan.spanMatrix M n a = .thrown e R) :
    ¬ M.rows ∣ n := by
  intro hd
  obtain ⟨h1, h2, _, _⟩ := c08_spanMatrix M n a
  by_cases hn : n = M.rows
  · rw [h2 hn] at h; cases h
  · rcases Nat.eq_zero_or_pos M.rows with h0 | h0
    · rw [h0, Nat.zero_dvd] at hd; omega
    · obtain ⟨R', e, _⟩ := h1 h0 hn hd
      rw [e] at h; cases h

theorem AutoSpan.spanVector_not_dvd {junk : Nat → α} {v r : Vec α} {n : Nat} {e : Exn}
    (h : AutoSpan.spanVector junk v n = .thrown e r) : ¬ v.rows ∣ n := by
  intro hd
  obtain ⟨h1, h2, _, _⟩ := c07_spanVector junk v n
  by_cases hn : n = v.rows
  · rw [h2 hn] at h; cases h
  · rcases Nat.eq_zero_or_pos v.rows with h0 | h0
    · rw [h0, Nat.zero_dvd] at hd; omega
    · obtain ⟨R', e, _⟩ := h1 h0 hd
      rw [e] at h; cases h

theorem Spec.SpannedMat.dvd {M M' : Mat K} {n a : Nat} (h : SpannedMat a n M M') : M.rows ∣ n := by
  rcases h with ⟨h, _⟩ | ⟨_, _, h, _⟩
  · exact ⟨1, by rw [h, Nat.mul_one]⟩
  · exact h

theorem Spec.SpannedVec.dvd {v v' : Vec α} {n : Nat} (h : SpannedVec n v v') : v.rows ∣ n := by
  rcases h with ⟨h, _⟩ | ⟨_, _, h, _⟩
  · exact ⟨1, by rw [h, Nat.mul_one]⟩
  · exact h

theorem Spec.ConstrData.Spanned.spannable {C C' : ConstrData K} (h : C.Spanned C') : C.Spannable := by
  cases C
  · obtain ⟨_, _, _, a, b⟩ := h; exact ⟨a.dvd, b.dvd⟩
  · obtain ⟨_, _, _, a, b⟩ := h; exact ⟨a.dvd, b.dvd⟩
  · obtain ⟨_, _, _, _, a, b, c⟩ := h; exact ⟨a.dvd, b.dvd, c.dvd⟩
  · obtain ⟨_, _, _, a, b⟩ := h; exact ⟨a.dvd, b.dvd⟩
  · obtain ⟨_, _, _, a, b⟩ := h; exact ⟨a.dvd, b.dvd⟩

theorem Spec.CostData.Spanned.spannable {C C' : CostData K} (h : C.Spanned C') : C.Spannable := by
  cases C
  · obtain ⟨_, _, _, _, a, b, c⟩ := h; exact ⟨a.dvd, b.dvd, c.dvd⟩
  · trivial
  · obtain ⟨_, _, _, _, a, b, c⟩ := h; exact ⟨a.dvd, b.dvd, c.dvd⟩
  · obtain ⟨_, _, _, _, _, a, b, c, d⟩ := h; exact ⟨a.dvd, b.dvd, c.dvd, d.dvd⟩

theorem Spec.ConstrData.spanned_self {C : ConstrData K}
    (h : match C with
      | .trajectory _ E f => f.rows = E.rows
      | .control _ G f => f.rows = G.rows
      | .mixed _ E G f => f.rows = E.rows ∧ G.rows = E.rows
      | .trajBound l u | .ctrlBound l u => u.rows = l.rows) : C.Spanned C := by
  cases C <;> simp only at h
  · exact ⟨_, _, rfl, Or.inl ⟨by rw [h, max_self], rfl⟩, Or.inl ⟨by rw [h, max_self], rfl⟩⟩
  · exact ⟨_, _, rfl, Or.inl ⟨by rw [h, max_self], rfl⟩, Or.inl ⟨by rw [h, max_self], rfl⟩⟩
  · exact ⟨_, _, _, rfl, Or.inl ⟨by rw [h.1, h.2, max_self, max_self], rfl⟩, Or.inl ⟨by rw [h.1, h.2, max_self, max_self], rfl⟩,
      Or.inl ⟨by rw [h.1, h.2, max_self, max_self], rfl⟩⟩
  · exact ⟨_, _, rfl, Or.inl ⟨by rw [h, max_self], rfl⟩, Or.inl ⟨by rw [h, max_self], rfl⟩⟩
  · exact ⟨_, _, rfl, Or.inl ⟨by rw [h, max_self], rfl⟩, Or.inl ⟨by rw [h, max_self], rfl⟩⟩

namespace Constr
open AutoSpan

theorem autoSpan_spanned {junk : Junk K} {c c' : Constr K} (hm : Once c → c.fullSizeEntry = false)
    (h : c.autoSpan junk = .ok c') : c.userData.Spanned c'.userData := by
  unfold Once at hm
  unfold autoSpan at h
  cases hk : c.kind <;> rw [hk] at h hm <;> simp only at h
  · unfold autoSpanTrajectory at h
    simp only [Res.andThen_ok, Res.map_ok] at h
    obtain ⟨_, ⟨E, hE, rfl⟩, f, hf, rfl⟩ := h
    simp only [userData, hk]
    exact ⟨E, f, rfl, spanMatrix_spanned hE, spanVector_spanned hf⟩
  · unfold autoSpanControl at h
    simp only [Res.andThen_ok, Res.map_ok] at h
    obtain ⟨_, ⟨E, hE, rfl⟩, f, hf, rfl⟩ := h
    simp only [userData, hk, hm (Or.inl rfl), Bool.false_eq_true, if_false]
    exact ⟨E, f, rfl, spanMatrix_spanned hE, spanVector_spanned hf⟩
  · unfold autoSpanMixed at h
    simp only [Res.andThen_ok, Res.map_ok] at h
    obtain ⟨_, ⟨E, hE, rfl⟩, _, ⟨G, hG, rfl⟩, f, hf, rfl⟩ := h
    simp only [userData, hk]
    exact ⟨E, G, f, rfl, spanMatrix_spanned hE, spanMatrix_spanned hG, spanVector_spanned hf⟩
  · unfold autoSpanTrajBound at h
    simp only [Res.andThen_ok, Res.map_ok] at h
    obtain ⟨_, ⟨E, hE, rfl⟩, _, ⟨G, hG, rfl⟩, h⟩ := h
    have e1 := spanVector_rows hE
    have e2 := spanVector_rows hG
    simp only [e1, e2, ne_eq, not_true_eq_false, if_false] at h
    cases h
    simp only [userData, hk]
    exact ⟨E, G, rfl, spanVector_spanned hE, spanVector_spanned hG⟩
  · unfold autoSpanCtrlBound at h
    simp only [Res.andThen_ok, Res.map_ok] at h
    obtain ⟨_, ⟨E, hE, rfl⟩, f, hf, rfl⟩ := h
    simp only [userData, hk, hm (Or.inr rfl), Bool.false_eq_true, if_false]
    exact ⟨E, f, rfl, spanVector_spanned hE, spanVector_spanned hf⟩

theorem autoSpan_halfSpanned {junk : Junk K} {c c' : Constr K} {e : Exn} (hm : Once c → c.fullSizeEntry = false)
    (h : c.autoSpan junk = .thrown e c') :
    c.userData.HalfSpanned c'.userData ∧ e = .domainError ∧ ¬ c.userData.Spannable := by
  unfold Once at hm
  unfold autoSpan at h
  cases hk : c.kind <;> rw [hk] at h hm <;> simp only at h
  · unfold autoSpanTrajectory at h
    simp only [Res.andThen_thrown, Res.map_thrown, Res.map_ok] at h
    rcases h with ⟨E, hE, rfl⟩ | ⟨_, ⟨E, hE, rfl⟩, f, hf, rfl⟩
    · simp only [userData, hk]
      exact ⟨⟨_, _, rfl, Or.inl (spanMatrix_thrown hE).1, Or.inl rfl⟩, (spanMatrix_thrown hE).2, fun h' => spanMatrix_not_dvd hE h'.1⟩
    · simp only [userData, hk]
      exact ⟨⟨_, _, rfl, Or.inr (spanMatrix_spanned hE), Or.inl (spanVector_thrown hf).1⟩, (spanVector_thrown hf).2, fun h' => spanVector_not_dvd hf h'.2⟩
  · unfold autoSpanControl at h
    simp only [Res.andThen_thrown, Res.map_thrown, Res.map_ok] at h
    rcases h with ⟨E, hE, rfl⟩ | ⟨_, ⟨E, hE, rfl⟩, f, hf, rfl⟩
    · simp only [userData, hk, hm (Or.inl rfl), Bool.false_eq_true, if_false]
      exact ⟨⟨_, _, rfl, Or.inl (spanMatrix_thrown hE).1, Or.inl rfl⟩, (spanMatrix_thrown hE).2, fun h' => spanMatrix_not_dvd hE h'.1⟩
    · simp only [userData, hk, hm (Or.inl rfl), Bool.false_eq_true, if_false]
      exact ⟨⟨_, _, rfl, Or.inr (spanMatrix_spanned hE), Or.inl (spanVector_thrown hf).1⟩, (spanVector_thrown hf).2, fun h' => spanVector_not_dvd hf h'.2⟩
  · unfold autoSpanMixed at h
    simp only [Res.andThen_thrown, Res.map_thrown, Res.map_ok] at h
    rcases h with ⟨E, hE, rfl⟩ | ⟨_, ⟨E, hE, rfl⟩, ⟨G, hG, rfl⟩ | ⟨_, ⟨G, hG, rfl⟩, f, hf, rfl⟩⟩
    · simp only [userData, hk]
      exact ⟨⟨_, _, _, rfl, Or.inl (spanMatrix_thrown hE).1, Or.inl rfl, Or.inl rfl⟩, (spanMatrix_thrown hE).2, fun h' => spanMatrix_not_dvd hE h'.1⟩
    · simp only [userData, hk]
      exact ⟨⟨_, _, _, rfl, Or.inr (spanMatrix_spanned hE), Or.inl (spanMatrix_thrown hG).1, Or.inl rfl⟩, (spanMatrix_thrown hG).2, fun h' => spanMatrix_not_dvd hG h'.2.1⟩
    · simp only [userData, hk]
      exact ⟨⟨_, _, _, rfl, Or.inr (spanMatrix_spanned hE), Or.inr (spanMatrix_spanned hG), Or.inl (spanVector_thrown hf).1⟩, (spanVector_thrown hf).2, fun h' => spanVector_not_dvd hf h'.2.2⟩
  · unfold autoSpanTrajBound at h
    simp only [Res.andThen_thrown, Res.map_thrown, Res.map_ok] at h
    rcases h with ⟨E, hE, rfl⟩ | ⟨_, ⟨E, hE, rfl⟩, ⟨G, hG, rfl⟩ | ⟨_, ⟨G, hG, rfl⟩, h⟩⟩
    · simp only [userData, hk]
      exact ⟨⟨_, _, rfl, Or.inl (spanVector_thrown hE).1, Or.inl rfl⟩, (spanVector_thrown hE).2, fun h' => spanVector_not_dvd hE h'.1⟩
    · simp only [userData, hk]
      exact ⟨⟨_, _, rfl, Or.inr (spanVector_spanned hE), Or.inl (spanVector_thrown hG).1⟩, (spanVector_thrown hG).2, fun h' => spanVector_not_dvd hG h'.2⟩
    · cases h
  · unfold autoSpanCtrlBound at h
    simp only [Res.andThen_thrown, Res.map_thrown, Res.map_ok] at h
    rcases h with ⟨E, hE, rfl⟩ | ⟨_, ⟨E, hE, rfl⟩, f, hf, rfl⟩
    · simp only [userData, hk, hm (Or.inr rfl), Bool.false_eq_true, if_false]
      exact ⟨⟨_, _, rfl, Or.inl (spanVector_thrown hE).1, Or.inl rfl⟩, (spanVector_thrown hE).2, fun h' => spanVector_not_dvd hE h'.1⟩
    · simp only [userData, hk, hm (Or.inr rfl), Bool.false_eq_true, if_false]
      exact ⟨⟨_, _, rfl, Or.inr (spanVector_spanned hE), Or.inl (spanVector_thrown hf).1⟩, (spanVector_thrown hf).2, fun h' => spanVector_not_dvd hf h'.2⟩

end Constr

namespace Cost
open AutoSpan

theorem autoSpan_spanned {junk : Junk K} {c c' : Cost K} (h : c.autoSpan junk = .ok c') : c.userData.Spanned c'.userData := by
  unfold autoSpan at h
  cases hk : c.kind <;> rw [hk] at h <;> simp only at h
  · unfold autoSpanTrajectory at h
    simp only [Res.andThen_ok, Res.map_ok] at h
    obtain ⟨_, ⟨E, hE, rfl⟩, _, ⟨f, hf, rfl⟩, w, hw, rfl⟩ := h
    simp only [userData, hk]
    exact ⟨_, _, _, rfl, spanMatrix_spanned hE, spanVector_spanned hf, spanVector_spanned hw⟩
  · cases h
    simp only [userData, hk]
    rfl
  · unfold autoSpanControl at h
    simp only [Res.andThen_ok, Res.map_ok] at h
    obtain ⟨_, ⟨E, hE, rfl⟩, _, ⟨f, hf, rfl⟩, w, hw, rfl⟩ := h
    simp only [userData, hk]
    exact ⟨_, _, _, rfl, spanMatrix_spanned hE, spanVector_spanned hf, spanVector_spanned hw⟩
  · unfold autoSpanMixed at h
    simp only [Res.andThen_ok, Res.map_ok] at h
    obtain ⟨_, ⟨E, hE, rfl⟩, _, ⟨G, hG, rfl⟩, _, ⟨f, hf, rfl⟩, w, hw, rfl⟩ := h
    simp only [userData, hk]
    exact ⟨_, _, _, _, rfl, spanMatrix_spanned hE, spanMatrix_spanned hG, spanVector_spanned hf, spanVector_spanned hw⟩

theorem autoSpan_halfSpanned {junk : Junk K} {c c' : Cost K} {e : Exn} (h : c.autoSpan junk = .thrown e c') :
    c.userData.HalfSpanned c'.userData ∧ e = .domainError ∧ ¬ c.userData.Spannable := by
  unfold autoSpan at h
  cases hk : c.kind <;> rw [hk] at h <;> simp only at h
  · unfold autoSpanTrajectory at h
    simp only [Res.andThen_thrown, Res.map_thrown, Res.map_ok] at h
    rcases h with ⟨E, hE, rfl⟩ | ⟨_, ⟨E, hE, rfl⟩, ⟨f, hf, rfl⟩ | ⟨_, ⟨f, hf, rfl⟩, w, hw, rfl⟩⟩ <;> simp only [userData, hk]
    · exact ⟨⟨_, _, _, rfl, Or.inl (spanMatrix_thrown hE).1, Or.inl rfl, Or.inl rfl⟩, (spanMatrix_thrown hE).2, fun h' => spanMatrix_not_dvd hE h'.1⟩
    · exact ⟨⟨_, _, _, rfl, Or.inr (spanMatrix_spanned hE), Or.inl (spanVector_thrown hf).1, Or.inl rfl⟩, (spanVector_thrown hf).2, fun h' => spanVector_not_dvd hf h'.2.1⟩
    · exact ⟨⟨_, _, _, rfl, Or.inr (spanMatrix_spanned hE), Or.inr (spanVector_spanned hf), Or.inl (spanVector_thrown hw).1⟩, (spanVector_thrown hw).2, fun h' => spanVector_not_dvd hw h'.2.2⟩
  · cases h
  · unfold autoSpanControl at h
    simp only [Res.andThen_thrown, Res.map_thrown, Res.map_ok] at h
    rcases h with ⟨E, hE, rfl⟩ | ⟨_, ⟨E, hE, rfl⟩, ⟨f, hf, rfl⟩ | ⟨_, ⟨f, hf, rfl⟩, w, hw, rfl⟩⟩ <;> simp only [userData, hk]
    · exact ⟨⟨_, _, _, rfl, Or.inl (spanMatrix_thrown hE).1, Or.inl rfl, Or.inl rfl⟩, (spanMatrix_thrown hE).2, fun h' => spanMatrix_not_dvd hE h'.1⟩
    · exact ⟨⟨_, _, _, rfl, Or.inr (spanMatrix_spanned hE), Or.inl (spanVector_thrown hf).1, Or.inl rfl⟩, (spanVector_thrown hf).2, fun h' => spanVector_not_dvd hf h'.2.1⟩
    · exact ⟨⟨_, _, _, rfl, Or.inr (spanMatrix_spanned hE), Or.inr (spanVector_spanned hf), Or.inl (spanVector_thrown hw).1⟩, (spanVector_thrown hw).2, fun h' => spanVector_not_dvd hw h'.2.2⟩
  · unfold autoSpanMixed at h
    simp only [Res.andThen_thrown, Res.map_thrown, Res.map_ok] at h
    rcases h with ⟨E, hE, rfl⟩ | ⟨_, ⟨E, hE, rfl⟩, ⟨G, hG, rfl⟩ | ⟨_, ⟨G, hG, rfl⟩, ⟨f, hf, rfl⟩ | ⟨_, ⟨f, hf, rfl⟩, w, hw, rfl⟩⟩⟩ <;>
      simp only [userData, hk]
    · exact ⟨⟨_, _, _, _, rfl, Or.inl (spanMatrix_thrown hE).1, Or.inl rfl, Or.inl rfl, Or.inl rfl⟩, (spanMatrix_thrown hE).2, fun h' => spanMatrix_not_dvd hE h'.1⟩
    · exact ⟨⟨_, _, _, _, rfl, Or.inr (spanMatrix_spanned hE), Or.inl (spanMatrix_thrown hG).1, Or.inl rfl, Or.inl rfl⟩, (spanMatrix_thrown hG).2, fun h' => spanMatrix_not_dvd hG h'.2.1⟩
    · exact ⟨⟨_, _, _, _, rfl, Or.inr (spanMatrix_spanned hE), Or.inr (spanMatrix_spanned hG), Or.inl (spanVector_thrown hf).1, Or.inl rfl⟩, (spanVector_thrown hf).2, fun h' => spanVector_not_dvd hf h'.2.2.1⟩
    · exact ⟨⟨_, _, _, _, rfl, Or.inr (spanMatrix_spanned hE), Or.inr (spanMatrix_spanned hG), Or.inr (spanVector_spanned hf),
        Or.inl (spanVector_thrown hw).1⟩, (spanVector_thrown hw).2, fun h' => spanVector_not_dvd hw h'.2.2.2⟩

theorem weightsOf_userData (c : Cost K) : c.userData.weightsOf = c.weights := by
  unfold userData; cases c.kind <;> rfl

theorem withWeights_userData (c : Cost K) (v : Vec K) : ({ c with weights := v } : Cost K).userData = c.userData.withWeights v := by
  unfold userData; cases c.kind <;> rfl

theorem setWeights_spanned {c c' : Cost K} {v : Vec K} (h : c.setWeights v = .ok c') :
    ∃ v', SpannedVec c.weights.rows v v' ∧ c' = { c with weights := v' } := by
  obtain ⟨h1, h2, h3, h4⟩ := setWeights_cases c v
  by_cases he : v.rows = c.weights.rows
  · rw [h1 he] at h; injection h with h; exact ⟨v, Or.inl ⟨he.symm, rfl⟩, h.symm⟩
  · rcases Nat.eq_zero_or_pos v.rows with h0 | h0
    · rw [h3 h0 (by omega)] at h; cases h
    · by_cases hd : v.rows ∣ c.weights.rows
      · obtain ⟨s, hs⟩ := hd
        rw [Nat.mul_comm] at hs
        obtain ⟨v', e, r, f⟩ := h2 s h0 hs
        rw [e] at h; injection h with h
        refine ⟨v', Or.inr ⟨Ne.symm he, h0, ⟨s, by rw [hs, Nat.mul_comm]⟩, r, fun i hi => ?_⟩, h.symm⟩
        rw [hs] at hi
        obtain ⟨k, j, hk, hj, rfl⟩ := blk_split hi
        rw [f k hk j hj, blk_mod hj]
      · rw [h4 h0 hd] at h; cases h

end Cost
end

section
variable {K : Type} [Field K] [LinearOrder K] [IsStrictOrderedRing K]

theorem Constr.singleUse_iff (c : Constr K) : c.userData.SingleUse ↔ Constr.Once c := by
  unfold Constr.userData Constr.Once
  cases c.kind <;> cases c.fullSizeEntry <;>
    simp only [ConstrData.SingleUse, reduceCtorEq, or_self, or_true, true_or, if_true, Bool.false_eq_true, if_false]

theorem Cost.suits_iff (d : Dims) (c : Cost K) : c.userData.Suits d.n d.m d.N ↔ Cost.Fits d c := by
  unfold Cost.userData Cost.Fits
  cases c.kind <;> exact Iff.rfl

namespace World
variable {d : Dims} {dmax : K} {E : World K → Op K → Prop} {w w' : World K} {g : Ghost} {op : Op K}

theorem Good.suits_iff (h : Good d dmax w g) {i : Nat} (hu : ¬ (Constr.Once (w.cons i) ∧ (w.cons i).hasBeenInitialized = true)) :
    (w.cons i).userData.Suits d.n d.m d.N ↔ Constr.Fits d (w.cons i) := by
  have hf : Constr.Once (w.cons i) → (w.cons i).fullSizeEntry = false := by
    intro ho
    rcases h.usable i with r | r
    · exact r.1
    · exfalso
      refine hu ⟨ho, ?_⟩
      unfold Constr.Reg at r
      rcases ho with hk | hk <;> rw [hk] at r <;> exact r.init
  unfold Constr.Once at hf
  unfold Constr.userData Constr.Fits
  cases hk : (w.cons i).kind <;> rw [hk] at hf <;> simp only
  · exact Iff.rfl
  · rw [hf (Or.inl rfl)]; exact Iff.rfl
  · exact Iff.rfl
  · exact Iff.rfl
  · rw [hf (Or.inr rfl)]; exact Iff.rfl

theorem Steps.nrU (h : Steps dmax w op w') (p : Nat) (hn : ∀ A B v x N, op ≠ .system p A B v x N) :
    (w'.pss p).nrUStep = (w.pss p).nrUStep := by
  have same : w'.pss = w.pss → (w'.pss p).nrUStep = (w.pss p).nrUStep := fun e => by rw [e]
  have away : ∀ {q : Nat} {s : PreviewSystem K}, (q = p → s.nrUStep = (w.pss p).nrUStep) → w'.pss = upd w.pss q s →
      (w'.pss p).nrUStep = (w.pss p).nrUStep := by
    intro q s hq e
    rw [e]
    by_cases hqp : q = p
    · subst hqp; rw [upd_same]; exact hq rfl
    · rw [upd_ne _ _ (Ne.symm hqp)]
  have O : ∃ ok, Out dmax w op ok w' := by
    rcases h with h | h
    · exact ⟨True, Or.inl ⟨trivial, h⟩⟩
    · exact ⟨False, Or.inr ⟨id, h⟩⟩
  obtain ⟨ok, O⟩ := O
  cases op with
  | addCost i junk => obtain ⟨_, _, _, _, a, _⟩ := addCost_inv O; exact same a
  | addConstraint i junk => obtain ⟨_, _, _, _, a, _⟩ := addConstraint_inv O; exact same a
  | solve env =>
    obtain ⟨_, b, q, hs⟩ := solve_out O
    obtain ⟨q, ps, _, hps, e, _⟩ := solve_withHeap hs
    refine away (fun hq => ?_) e
    subst hq
    split at hps
    · injection hps with hps; rw [← hps]
    · exact (PreviewSystem.updateSystem_decl hps).nrU
  | clearConstraints =>
    rcases h with h | ⟨e, h⟩ <;> simp only [step, Res.ofOption_ok] at h
    · exact same (clearConstraints_heap h).1
    · exact absurd h Res.ofOption_ne_thrown
  | system q A B v x N =>
    rcases h with h | ⟨e, h⟩ <;> simp only [step, Res.map_ok, Res.map_thrown] at h <;> obtain ⟨s, _, rfl⟩ := h <;>
      exact away (fun hq => absurd (by rw [hq]) (hn A B v x N)) rfl
  | xInit q x =>
    rcases h with h | ⟨e, h⟩ <;> simp only [step, Res.ok.injEq, reduceCtorEq] at h
    subst h
    exact away (fun hq => by subst hq; rfl) rfl
  | setDynamics q A B v =>
    rcases h with h | ⟨e, h⟩ <;> simp only [step, Res.ok.injEq, reduceCtorEq] at h
    subst h
    exact away (fun hq => by subst hq; rfl) rfl
  | updatePs q =>
    rcases h with h | ⟨e, h⟩ <;> simp only [step, Res.map_ok, Res.map_thrown, Res.ofOption_ok] at h
    · obtain ⟨s, hs, rfl⟩ := h
      exact away (fun hq => by subst hq; exact (PreviewSystem.updateSystem_decl hs).nrU) rfl
    · obtain ⟨s, hs, rfl⟩ := h
      exact absurd hs Res.ofOption_ne_thrown
  | _ =>
    rcases h with h | ⟨e, h⟩ <;>
      simp only [step, Res.map_ok, Res.map_thrown, Res.ok.injEq, reduceCtorEq] at h <;>
      first
      | (subst h; exact same rfl)
      | (obtain ⟨_, _, rfl⟩ := h; exact same rfl)

theorem declared_sys (h : Steps dmax w op w') (p : Nat) (h1 : ¬ Redynamics p op) (h2 : ¬ Reinit p op) :
    (declared w').sys p = (declared w).sys p := by
  obtain ⟨a, b⟩ := h.pssChange p
  obtain ⟨a1, a2, a3⟩ := a h1
  have hn : ∀ A B v x N, op ≠ .system p A B v x N := by
    rintro A B v x N rfl; exact h1 rfl
  exact SysDecl.ext a1 a2 a3 (b h2) (h.nrU p hn)

theorem declared_used (h : Steps dmax w op w')
    (h1 : ∀ i junk, op ≠ .addConstraint i junk) (h2 : ∀ i p junk, op ≠ .initConstr i p junk) :
    (declared w').used = (declared w).used := by
  funext i
  have id := h.ident i
  simp only [declared, Constr.singleUse_iff]
  apply propext
  have hk : Constr.Once (w'.cons i) ↔ Constr.Once (w.cons i) := by unfold Constr.Once; rw [id.kind]
  rw [hk]
  refine and_congr_right fun _ => ⟨fun hb => ?_, id.used⟩
  by_contra hc
  rw [Bool.not_eq_true] at hc
  obtain ⟨_, ⟨j, e⟩ | ⟨q, j, e⟩⟩ := h.flag hc hb
  · exact h1 _ _ e
  · exact h2 _ _ _ e

theorem declared_cons (hg : Good d dmax w g) (ho : OpOk d w g op) (h : Steps dmax w op w')
    (h1 : ∀ i junk, op ≠ .spanConstr i junk) : (declared w').cons = (declared w).cons :=
  funext fun i => hg.constrDecl ho h i (Or.inl (h1 i))

theorem declared_costs (hg : Good d dmax w g) (ho : OpOk d w g op) (h : Steps dmax w op w')
    (h1 : ∀ i junk, op ≠ .spanCost i junk) (h2 : ∀ i v, op ≠ .weights i v) (h3 : ∀ i v, op ≠ .weight i v) :
    (declared w').costs = (declared w).costs :=
  funext fun i => hg.costDecl ho h i (Or.inl (h1 i)) (h2 i) (h3 i)

theorem declared_upd {α β : Type} (f : α → β) (h : Nat → α) (i : Nat) (a : α) :
    (fun j => f (upd h i a j)) = Function.update (fun j => f (h j)) i (f a) := by
  funext j
  by_cases hj : j = i
  · subst hj; rw [upd_same, Function.update_self]
  · rw [upd_ne _ _ hj, Function.update_of_ne hj]

theorem constr_spanned (hg : Good d dmax w g) {i : Nat} {junk : Junk K} {c : Constr K}
    (h : (w.cons i).autoSpan junk = .ok c) : (w.cons i).userData.Spanned c.userData := by
  rcases hg.usable i with r | r
  · exact Constr.autoSpan_spanned (fun _ => r.1) h
  · rw [Constr.autoSpan_rowsAgree junk r.rowsAgree] at h
    injection h with h
    subst h
    apply ConstrData.spanned_self
    have R := r.rowsAgree
    unfold Constr.RowsAgree at R
    unfold Constr.Reg at r
    unfold Constr.userData
    cases hk : (w.cons i).kind <;> rw [hk] at R r <;> simp only
    · exact R
    · cases (w.cons i).fullSizeEntry
      · exact R
      · exact r.sizes.br.trans r.sizes.Ar.symm
    · exact R
    · exact R
    · cases (w.cons i).fullSizeEntry
      · exact R
      · exact r.ubr.trans r.lbr.symm

theorem constr_halfSpanned (hg : Good d dmax w g) {i : Nat} {junk : Junk K} {c : Constr K} {e : Exn}
    (h : (w.cons i).autoSpan junk = .thrown e c) :
    (w.cons i).userData.HalfSpanned c.userData ∧ e = .domainError ∧ ¬ (w.cons i).userData.Spannable := by
  rcases hg.usable i with r | r
  · exact Constr.autoSpan_halfSpanned (fun _ => r.1) h
  · rw [Constr.autoSpan_rowsAgree junk r.rowsAgree] at h
    cases h

/-- What `initializeConstraint` by a system of the program does, in terms of what was declared. -/
theorem constr_accepts (hg : Good d dmax w g) {i p : Nat} {junk : Junk K} (hp : HasSystem w p) :
    (∀ c, (w.cons i).initializeConstraint junk (w.pss p) = .ok c → ¬ (declared w).used i ∧
      ((declared w).sys p).Takes ((declared w).cons i)) ∧
    (∀ e c, (w.cons i).initializeConstraint junk (w.pss p) = .thrown e c →
      (e = .runtimeError ∧ (declared w).used i) ∨
      (e = .domainError ∧ ¬ (declared w).used i ∧ ¬ ((declared w).sys p).Takes ((declared w).cons i))) := by
  obtain ⟨S, _⟩ := hg.sys p hp
  have S' := S.dims.toSysShape
  have H := Constr.initializeConstraint_spec (c := w.cons i) junk S'
  have hu : (declared w).used i ↔ (Constr.Once (w.cons i) ∧ (w.cons i).hasBeenInitialized = true) := by
    simp only [declared, Constr.singleUse_iff]
  have ht : ((declared w).sys p).Takes ((declared w).cons i) ↔ (w.cons i).userData.Suits d.n d.m d.N := by
    unfold SysDecl.Takes
    simp only [declared, S.dims.Ac, S.dims.Bc, S'.nrU]
  rw [hu, ht]
  constructor
  · intro c hc
    obtain ⟨h1, h2, _⟩ := Constr.init_ok S' hc
    exact ⟨h1, (hg.suits_iff h1).2 h2⟩
  · intro e c hc
    by_cases h1 : Constr.Once (w.cons i) ∧ (w.cons i).hasBeenInitialized = true
    · rw [H.once h1.1 h1.2] at hc
      injection hc with hc
      exact Or.inl ⟨hc.symm, h1⟩
    · by_cases hf : Constr.Fits d (w.cons i)
      · exfalso
        by_cases hn : Constr.rowsNeeded d (w.cons i) ≤ intMax
        · obtain ⟨_, e', _⟩ := H.accept h1 hf hn
          rw [e'] at hc; cases hc
        · rw [H.overflow h1 hf hn] at hc; cases hc
      · rw [H.reject h1 hf] at hc
        injection hc with hc
        exact Or.inr ⟨hc.symm, h1, fun h => hf ((hg.suits_iff h1).1 h)⟩

theorem cost_accepts (hg : Good d dmax w g) {i p : Nat} {junk : Junk K} (hp : HasSystem w p) :
    (∀ c, (w.costs i).initializeCost junk (w.pss p) = .ok c → ((declared w).sys p).TakesCost ((declared w).costs i)) ∧
    (∀ e c, (w.costs i).initializeCost junk (w.pss p) = .thrown e c →
      e = .domainError ∧ ¬ ((declared w).sys p).TakesCost ((declared w).costs i)) := by
  obtain ⟨S, _⟩ := hg.sys p hp
  have S' := S.dims.toSysShape
  have ht : ((declared w).sys p).TakesCost ((declared w).costs i) ↔ Cost.Fits d (w.costs i) := by
    rw [← Cost.suits_iff]
    unfold SysDecl.TakesCost
    simp only [declared, S.dims.Ac, S.dims.Bc, S'.nrU]
  rw [ht]
  have H : (Cost.Fits d (w.costs i) → ∃ c1, (w.costs i).initializeCost junk (w.pss p) = .ok c1 ∧ Cost.Reg d c1 ∧
        Cost.Clean d c1 ∧ Cost.SameData (w.costs i) c1) ∧
      (¬ Cost.Fits d (w.costs i) → ∃ c1, (w.costs i).initializeCost junk (w.pss p) = .thrown .domainError c1 ∧
        Cost.SameData (w.costs i) c1 ∧ c1.fullSizeEntry = (w.costs i).fullSizeEntry) := by
    by_cases hk : g.cost i
    · exact Cost.init_spec junk S' (hg.costReg i hk).wr (Or.inr (hg.costReg i hk).data)
    · exact Cost.init_spec junk S' (hg.costUn i hk).2 (Or.inl (hg.costUn i hk).1)
  by_cases hf : Cost.Fits d (w.costs i)
  · obtain ⟨c1, e, _⟩ := H.1 hf
    rw [e]
    exact ⟨fun _ _ => hf, fun _ _ h => (by cases h)⟩
  · obtain ⟨c1, e, _⟩ := H.2 hf
    rw [e]
    refine ⟨fun _ h => (by cases h), fun _ _ h => ?_⟩
    injection h with h
    exact ⟨h.symm, hf⟩

theorem setWeights_thrown {c c' : Cost K} {v : Vec K} {e : Exn} (h : c.setWeights v = .thrown e c') :
    e = .domainError ∧ ¬ v.rows ∣ c.weights.rows ∧ c' = c := by
  obtain ⟨h1, h2, h3, h4⟩ := Cost.setWeights_cases c v
  by_cases he : v.rows = c.weights.rows
  · rw [h1 he] at h; cases h
  · rcases Nat.eq_zero_or_pos v.rows with h0 | h0
    · rw [h3 h0 (by omega)] at h; cases h
    · by_cases hd : v.rows ∣ c.weights.rows
      · obtain ⟨s, hs⟩ := hd
        rw [Nat.mul_comm] at hs
        obtain ⟨v', e, r, f⟩ := h2 s h0 hs
        rw [e] at h; cases h
      · rw [h4 h0 hd] at h; injection h with h1 h2; exact ⟨h1.symm, hd, h2.symm⟩

/-- A throwing call: it throws what the machine throws, and does to the declared data what the machine does. -/
theorem thrown_refines {e : Exn} (h : Hist d dmax E w g) (ho : OpOk d w g op) (hs : w.step dmax op = .thrown e w') :
    Rejects (declared w) op e ∧ FailedEffect (declared w) op (declared w') := by
  have hg := h.good
  have st : Steps dmax w op w' := Or.inr ⟨e, hs⟩
  obtain ⟨e1, e2, e3, e4, e5, e6⟩ := c65_rejected_partial h ho hs
  have used : (declared w').used = (declared w).used := by
    funext i
    have id := st.ident i
    simp only [declared, Constr.singleUse_iff]
    apply propext
    have hk : Constr.Once (w'.cons i) ↔ Constr.Once (w.cons i) := by unfold Constr.Once; rw [id.kind]
    rw [hk]
    refine and_congr_right fun _ => ⟨fun hb => ?_, id.used⟩
    by_contra hc
    rw [Bool.not_eq_true] at hc
    obtain ⟨h1, _⟩ := st.flag hc hb
    rw [hs] at h1; cases h1
  have all : ∀ D : Declared K, D.cons = (declared w').cons → D.costs = (declared w').costs →
      { declared w with cons := D.cons, costs := D.costs } = declared w' := by
    intro D h1 h2
    refine Declared.ext ?_ h1 h2 ?_ ?_ used.symm ?_ ?_ ?_ ?_ ?_ ?_ ?_ ?_ <;> simp only [declared, e1, e2, e3, e4]
  have same : (∀ i junk, op ≠ .spanConstr i junk) → (∀ i junk, op ≠ .spanCost i junk) → declared w' = declared w := by
    intro h1 h2
    exact (all (declared w) (funext fun i => (e5 i (Or.inl (h1 i))).symm) (funext fun i => (e6 i (Or.inl (h2 i))).symm)).symm
  cases op with
  | system p A B v x N =>
    refine ⟨?_, same (by simp) (by simp)⟩
    simp only [step, Res.map_thrown] at hs
    obtain ⟨s, hs, _⟩ := hs
    obtain ⟨h1, h2, h3⟩ := c04_system_accepts_iff (w.pss p) A B v x N
    by_cases hc : ConsistentData A B v x N
    · exfalso
      by_cases hr : RepresentableData A B N
      · obtain ⟨_, h', _⟩ := h2 hc hr
        rw [h'] at hs; cases hs
      · rw [h3 hc hr] at hs; cases hs
    · rw [h1 hc] at hs
      injection hs with hs
      refine ⟨hs.symm, fun ⟨a1, a2, a3, a4, a5⟩ => hc ?_⟩
      unfold ConsistentData
      omega
  | spanConstr i junk =>
    simp only [step, Res.map_thrown] at hs
    obtain ⟨c, hs, hw⟩ := hs
    obtain ⟨a1, a2, a3⟩ := constr_halfSpanned hg hs
    refine ⟨⟨a2, a3⟩, c.userData, a1, ?_⟩
    have hc : (declared w').cons = Function.update (declared w).cons i c.userData := by
      rw [← hw]; exact declared_upd Constr.userData w.cons i c
    rw [← all { declared w with cons := Function.update (declared w).cons i c.userData } hc.symm
      (funext fun j => (e6 j (Or.inl (by simp))).symm)]
  | spanCost i junk =>
    simp only [step, Res.map_thrown] at hs
    obtain ⟨c, hs, hw⟩ := hs
    obtain ⟨a1, a2, a3⟩ := Cost.autoSpan_halfSpanned hs
    refine ⟨⟨a2, a3⟩, c.userData, a1, ?_⟩
    have hc : (declared w').costs = Function.update (declared w).costs i c.userData := by
      rw [← hw]; exact declared_upd Cost.userData w.costs i c
    rw [← all { declared w with costs := Function.update (declared w).costs i c.userData }
      (funext fun j => (e5 j (Or.inl (by simp))).symm) hc.symm]
  | weights i v =>
    refine ⟨?_, same (by simp) (by simp)⟩
    simp only [step, Res.map_thrown] at hs
    obtain ⟨s, hs, _⟩ := hs
    obtain ⟨a, b, _⟩ := setWeights_thrown hs
    refine ⟨a, ?_⟩
    simp only [declared, Cost.weightsOf_userData]
    exact b
  | initConstr i p junk =>
    refine ⟨?_, same (by simp) (by simp)⟩
    simp only [step, Res.map_thrown] at hs
    obtain ⟨s, hs, _⟩ := hs
    exact (constr_accepts hg ho).2 _ _ hs
  | initCost i p junk =>
    refine ⟨?_, same (by simp) (by simp)⟩
    simp only [step, Res.map_thrown] at hs
    obtain ⟨s, hs, _⟩ := hs
    exact (cost_accepts hg ho).2 _ _ hs
  | addConstraint i junk =>
    refine ⟨?_, same (by simp) (by simp)⟩
    simp only [step] at hs
    unfold addConstraint at hs
    split at hs
    · cases hs
    · rename_i p hp
      split at hs
      · split at hs <;> cases hs
      · rename_i e' c hc
        injection hs with hs
        subst hs
        exact ⟨p, hp, (constr_accepts hg (hg.ctl p hp).1).2 _ _ hc⟩
      · cases hs
  | addCost i junk =>
    refine ⟨?_, same (by simp) (by simp)⟩
    simp only [step] at hs
    unfold addCost at hs
    split at hs
    · cases hs
    · rename_i p hp
      split at hs
      · cases hs
      · rename_i e' c hc
        injection hs with hs
        subst hs
        exact ⟨p, hp, (cost_accepts hg (hg.ctl p hp).1).2 _ _ hc⟩
      · cases hs
  | _ =>
    exfalso
    simp only [step, Res.map_thrown, reduceCtorEq] at hs <;>
      first
      | exact Res.ofOption_ne_thrown hs
      | (obtain ⟨_, hs, _⟩ := hs; exact Res.ofOption_ne_thrown hs)

/-- A returning call: the machine does not throw, and its effect is the machine's. -/
theorem ok_refines (h : Hist d dmax E w g) (ho : OpOk d w g op) (hs : w.step dmax op = .ok w') :
    (∀ e, ¬ Rejects (declared w) op e) ∧ Effect (declared w) op (declared w') := by
  have hg := h.good
  have st : Steps dmax w op w' := Or.inl hs
  have out : Out dmax w op True w' := Or.inl ⟨trivial, hs⟩
  have hsys : (∀ p, ¬ Redynamics p op) → (∀ p, ¬ Reinit p op) → (declared w').sys = (declared w).sys :=
    fun h1 h2 => funext fun p => declared_sys st p (h1 p) (h2 p)
  have hus := declared_used st
  have hcons := declared_cons hg ho st
  have hcosts := declared_costs hg ho st
  have href : NotRefs op → (declared w').refsC = (declared w).refsC ∧ (declared w').refsK = (declared w).refsK :=
    fun hn => out_ext hn out
  have hctl := c64_controller (Or.inl hs : w.step dmax op = .ok w' ∨ _)
  have usedNow : ∀ i, (∀ j junk, op = .addConstraint j junk → j = i) → (∀ j p junk, op = .initConstr j p junk → j = i) →
      (Constr.Once (w.cons i) → (w'.cons i).hasBeenInitialized = true) →
      (declared w').used = fun j => (declared w).used j ∨ (j = i ∧ ((declared w).cons i).SingleUse) := by
    intro i h1 h2 hi
    funext j
    have id := st.ident j
    simp only [declared, Constr.singleUse_iff]
    apply propext
    have hk : Constr.Once (w'.cons j) ↔ Constr.Once (w.cons j) := by unfold Constr.Once; rw [id.kind]
    rw [hk]
    constructor
    · rintro ⟨a, b⟩
      by_cases hb : (w.cons j).hasBeenInitialized = true
      · exact Or.inl ⟨a, hb⟩
      · rw [Bool.not_eq_true] at hb
        obtain ⟨_, ⟨k, e⟩ | ⟨q, k, e⟩⟩ := st.flag hb b
        · have := h1 _ _ e; subst this; exact Or.inr ⟨rfl, a⟩
        · have := h2 _ _ _ e; subst this; exact Or.inr ⟨rfl, a⟩
    · rintro (⟨a, b⟩ | ⟨rfl, a⟩)
      · exact ⟨a, id.used b⟩
      · exact ⟨a, hi a⟩
  cases op with
  | system p A B v x N =>
    simp only [step, Res.map_ok] at hs
    obtain ⟨s, hs, hw⟩ := hs
    obtain ⟨h1, h2, h3⟩ := c04_system_accepts_iff (w.pss p) A B v x N
    by_cases hc : ConsistentData A B v x N
    · by_cases hr : RepresentableData A B N
      · obtain ⟨s', h', a1, a2, a3, a4, a5, _⟩ := h2 hc hr
        rw [hs] at h'
        injection h' with h'
        subst h'
        unfold ConsistentData at hc
        refine ⟨fun e he => he.2 (by omega), ?_⟩
        obtain ⟨b1, b2⟩ := href trivial
        refine Declared.ext ?_ (hcons (by simp)) (hcosts (by simp) (by simp) (by simp)) b1 b2 (hus (by simp) (by simp))
          ?_ ?_ ?_ ?_ ?_ ?_ ?_ ?_ <;> rw [← hw] <;> try rfl
        refine (declared_upd (fun s => (⟨s.A, s.B, s.d, s.x0, s.nrUStep⟩ : SysDecl K)) w.pss p s).trans ?_
        have : s.nrUStep = N.toNat := by omega
        simp only [a1, a2, a3, a4, this, declared]
      · rw [h3 hc hr] at hs; cases hs
    · rw [h1 hc] at hs; cases hs
  | xInit p x =>
    refine ⟨fun e he => he, ?_⟩
    obtain ⟨b1, b2⟩ := href trivial
    simp only [step, Res.ok.injEq] at hs
    refine Declared.ext ?_ (hcons (by simp)) (hcosts (by simp) (by simp) (by simp)) b1 b2 (hus (by simp) (by simp))
      ?_ ?_ ?_ ?_ ?_ ?_ ?_ ?_ <;> rw [← hs] <;> try rfl
    exact declared_upd (fun s => (⟨s.A, s.B, s.d, s.x0, s.nrUStep⟩ : SysDecl K)) w.pss p _
  | setDynamics p A B v =>
    refine ⟨fun e he => he, ?_⟩
    obtain ⟨b1, b2⟩ := href trivial
    simp only [step, Res.ok.injEq] at hs
    refine Declared.ext ?_ (hcons (by simp)) (hcosts (by simp) (by simp) (by simp)) b1 b2 (hus (by simp) (by simp))
      ?_ ?_ ?_ ?_ ?_ ?_ ?_ ?_ <;> rw [← hs] <;> try rfl
    exact declared_upd (fun s => (⟨s.A, s.B, s.d, s.x0, s.nrUStep⟩ : SysDecl K)) w.pss p _
  | spanConstr i junk =>
    simp only [step, Res.map_ok] at hs
    obtain ⟨c, hs, hw⟩ := hs
    have sp := constr_spanned hg hs
    refine ⟨fun e he => he.2 sp.spannable, c.userData, sp, ?_⟩
    refine Declared.ext ?_ ?_ ?_ ?_ ?_ (hus (by simp) (by simp)) ?_ ?_ ?_ ?_ ?_ ?_ ?_ ?_ <;> rw [← hw] <;> try rfl
    exact declared_upd Constr.userData w.cons i c
  | spanCost i junk =>
    simp only [step, Res.map_ok] at hs
    obtain ⟨c, hs, hw⟩ := hs
    have sp := Cost.autoSpan_spanned hs
    refine ⟨fun e he => he.2 sp.spannable, c.userData, sp, ?_⟩
    refine Declared.ext ?_ ?_ ?_ ?_ ?_ (hus (by simp) (by simp)) ?_ ?_ ?_ ?_ ?_ ?_ ?_ ?_ <;> rw [← hw] <;> try rfl
    exact declared_upd Cost.userData w.costs i c
  | weights i v =>
    simp only [step, Res.map_ok] at hs
    obtain ⟨c, hs, hw⟩ := hs
    obtain ⟨v', sp, rfl⟩ := Cost.setWeights_spanned hs
    have e0 : ((declared w).costs i).weightsOf = (w.costs i).weights := Cost.weightsOf_userData _
    refine ⟨fun e he => he.2 (by rw [e0]; exact sp.dvd), v', by rw [e0]; exact sp, ?_⟩
    refine Declared.ext ?_ ?_ ?_ ?_ ?_ (hus (by simp) (by simp)) ?_ ?_ ?_ ?_ ?_ ?_ ?_ ?_ <;> rw [← hw] <;> try rfl
    rw [show ((declared w).costs i).withWeights v' = _ from (Cost.withWeights_userData _ _).symm]
    exact declared_upd Cost.userData w.costs i _
  | weight i x =>
    refine ⟨fun e he => he, ?_⟩
    simp only [step, Res.ok.injEq] at hs
    have e0 : ((declared w).costs i).weightsOf = (w.costs i).weights := Cost.weightsOf_userData _
    refine Declared.ext ?_ ?_ ?_ ?_ ?_ (hus (by simp) (by simp)) ?_ ?_ ?_ ?_ ?_ ?_ ?_ ?_ <;> rw [← hs] <;> try rfl
    rw [e0, show ((declared w).costs i).withWeights _ = _ from (Cost.withWeights_userData _ _).symm]
    exact declared_upd Cost.userData w.costs i _
  | refsConstr i n =>
    refine ⟨fun e he => he, ?_⟩
    simp only [step, Res.ok.injEq] at hs
    refine Declared.ext ?_ ?_ ?_ ?_ ?_ (hus (by simp) (by simp)) ?_ ?_ ?_ ?_ ?_ ?_ ?_ ?_ <;> rw [← hs] <;> try rfl
    exact declared_upd (fun n => n) w.extCons i n
  | refsCost i n =>
    refine ⟨fun e he => he, ?_⟩
    simp only [step, Res.ok.injEq] at hs
    refine Declared.ext ?_ ?_ ?_ ?_ ?_ (hus (by simp) (by simp)) ?_ ?_ ?_ ?_ ?_ ?_ ?_ ?_ <;> rw [← hs] <;> try rfl
    exact declared_upd (fun n => n) w.extCosts i n
  | updatePs p =>
    obtain ⟨b1, b2⟩ := href trivial
    obtain ⟨c1, c2, c3, c4⟩ := hctl id
    refine ⟨fun e he => he, ?_⟩
    refine Declared.ext (hsys (fun _ => id) (fun _ => id)) (hcons (by simp)) (hcosts (by simp) (by simp) (by simp)) b1 b2
      (hus (by simp) (by simp)) c1 (c2 (by simp)) (c3 (by simp)).1 (c3 (by simp)).2 (c4 (by simp)).1 (c4 (by simp)).2 ?_ ?_ <;>
    · simp only [step, Res.map_ok] at hs; obtain ⟨_, _, rfl⟩ := hs; rfl
  | updateConstr i p =>
    obtain ⟨b1, b2⟩ := href trivial
    obtain ⟨c1, c2, c3, c4⟩ := hctl id
    refine ⟨fun e he => he, ?_⟩
    refine Declared.ext (hsys (fun _ => id) (fun _ => id)) (hcons (by simp)) (hcosts (by simp) (by simp) (by simp)) b1 b2
      (hus (by simp) (by simp)) c1 (c2 (by simp)) (c3 (by simp)).1 (c3 (by simp)).2 (c4 (by simp)).1 (c4 (by simp)).2 ?_ ?_ <;>
    · simp only [step, Res.map_ok] at hs; obtain ⟨_, _, rfl⟩ := hs; rfl
  | updateCost i p =>
    obtain ⟨b1, b2⟩ := href trivial
    obtain ⟨c1, c2, c3, c4⟩ := hctl id
    refine ⟨fun e he => he, ?_⟩
    refine Declared.ext (hsys (fun _ => id) (fun _ => id)) (hcons (by simp)) (hcosts (by simp) (by simp) (by simp)) b1 b2
      (hus (by simp) (by simp)) c1 (c2 (by simp)) (c3 (by simp)).1 (c3 (by simp)).2 (c4 (by simp)).1 (c4 (by simp)).2 ?_ ?_ <;>
    · simp only [step, Res.map_ok] at hs; obtain ⟨_, _, rfl⟩ := hs; rfl
  | useSolver s =>
    obtain ⟨b1, b2⟩ := href trivial
    obtain ⟨c1, c2, c3, c4⟩ := hctl id
    refine ⟨fun e he => he, ?_⟩
    refine Declared.ext (hsys (fun _ => id) (fun _ => id)) (hcons (by simp)) (hcosts (by simp) (by simp) (by simp)) b1 b2
      (hus (by simp) (by simp)) c1 (c2 (by simp)) (c3 (by simp)).1 (c3 (by simp)).2 (c4 (by simp)).1 (c4 (by simp)).2 ?_ ?_ <;>
    · simp only [step, Res.ok.injEq] at hs; subst hs; rfl
  | initCost i p junk =>
    obtain ⟨b1, b2⟩ := href trivial
    obtain ⟨c1, c2, c3, c4⟩ := hctl id
    refine ⟨fun e he => ?_, ?_⟩
    · simp only [step, Res.map_ok] at hs
      obtain ⟨c, hs, _⟩ := hs
      exact he.2 ((cost_accepts hg ho).1 _ hs)
    refine Declared.ext (hsys (fun _ => id) (fun _ => id)) (hcons (by simp)) (hcosts (by simp) (by simp) (by simp)) b1 b2
      (hus (by simp) (by simp)) c1 (c2 (by simp)) (c3 (by simp)).1 (c3 (by simp)).2 (c4 (by simp)).1 (c4 (by simp)).2 ?_ ?_ <;>
    · simp only [step, Res.map_ok] at hs; obtain ⟨_, _, rfl⟩ := hs; rfl
  | initConstr i p junk =>
    obtain ⟨b1, b2⟩ := href trivial
    obtain ⟨c1, c2, c3, c4⟩ := hctl id
    have hs' := hs
    simp only [step, Res.map_ok] at hs'
    obtain ⟨c, hs', hw⟩ := hs'
    refine ⟨fun e he => ?_, ?_⟩
    · obtain ⟨a1, a2⟩ := (constr_accepts hg ho).1 _ hs'
      rcases he with ⟨_, he⟩ | ⟨_, _, he⟩
      · exact a1 he
      · exact he a2
    refine Declared.ext (hsys (fun _ => id) (fun _ => id)) (hcons (by simp)) (hcosts (by simp) (by simp) (by simp)) b1 b2
      (usedNow i (by simp) (by simp) fun h1 => accepted_flag hs h1 (Or.inr ⟨_, _, rfl⟩))
      c1 (c2 (by simp)) (c3 (by simp)).1 (c3 (by simp)).2 (c4 (by simp)).1 (c4 (by simp)).2 ?_ ?_ <;>
    · rw [← hw]; rfl
  | addConstraint i junk =>
    obtain ⟨b1, b2⟩ := href trivial
    obtain ⟨c1, c2, c3, c4⟩ := hctl id
    obtain ⟨r1, r2⟩ := add_step hs
    obtain ⟨p, c, hp, hi, _⟩ := addConstraint_inv out
    have hi : (w.cons i).initializeConstraint junk (w.pss p) = .ok c := by
      rcases hi with ⟨_, hi⟩ | ⟨hi, _⟩
      · exact hi
      · exact absurd trivial hi
    refine ⟨fun e he => ?_, ?_⟩
    · obtain ⟨p', hp', he⟩ := he
      have : p' = p := Option.some.inj (hp'.symm.trans hp)
      subst this
      obtain ⟨a1, a2⟩ := (constr_accepts hg (hg.ctl p' hp).1).1 _ hi
      rcases he with ⟨_, he⟩ | ⟨_, _, he⟩
      · exact a1 he
      · exact he a2
    exact Declared.ext (hsys (fun _ => id) (fun _ => id)) (hcons (by simp)) (hcosts (by simp) (by simp) (by simp)) b1 b2
      (usedNow i (by simp) (by simp) fun h1 => accepted_flag hs h1 (Or.inl ⟨_, rfl⟩))
      c1 (c2 (by simp)) (c3 (by simp)).1 (c3 (by simp)).2 (c4 (by simp)).1 (c4 (by simp)).2 r1 r2
  | addCost i junk =>
    obtain ⟨b1, b2⟩ := href trivial
    obtain ⟨c1, c2, c3, c4⟩ := hctl id
    obtain ⟨p, c, hp, hi, _⟩ := addCost_inv out
    have hi : (w.costs i).initializeCost junk (w.pss p) = .ok c := by
      rcases hi with ⟨_, hi⟩ | ⟨hi, _⟩
      · exact hi
      · exact absurd trivial hi
    refine ⟨fun e he => ?_, ?_⟩
    · obtain ⟨p', hp', _, he⟩ := he
      have : p' = p := Option.some.inj (hp'.symm.trans hp)
      subst this
      exact he ((cost_accepts hg (hg.ctl p' hp).1).1 _ hi)
    have hr : w'.ctl.spConstr = w.ctl.spConstr ∧ w'.ctl.spCost = w.ctl.spCost ++ [i] := by
      simp only [step] at hs
      unfold addCost at hs
      rw [hp] at hs
      simp only [hi, Res.ok.injEq] at hs
      subst hs
      exact ⟨rfl, rfl⟩
    exact Declared.ext (hsys (fun _ => id) (fun _ => id)) (hcons (by simp)) (hcosts (by simp) (by simp) (by simp)) b1 b2
      (hus (by simp) (by simp))
      c1 (c2 (by simp)) (c3 (by simp)).1 (c3 (by simp)).2 (c4 (by simp)).1 (c4 (by simp)).2 hr.1 hr.2
  | removeCost i =>
    refine ⟨fun e he => he, ?_⟩
    simp only [step, Res.ok.injEq] at hs
    subst hs
    rfl
  | clearCosts =>
    refine ⟨fun e he => he, ?_⟩
    simp only [step, Res.ok.injEq] at hs
    subst hs
    rfl
  | resetInitialStateCost R r =>
    refine ⟨fun e he => he, ?_⟩
    simp only [step, Res.ok.injEq] at hs
    subst hs
    rfl
  | resetInitialStateBounds l u =>
    refine ⟨fun e he => he, ?_⟩
    simp only [step, Res.ok.injEq] at hs
    subst hs
    rfl
  | removeConstraint i =>
    refine ⟨fun e he => he, ?_⟩
    rw [remove_step (hist_reachable h) i] at hs
    simp only [Res.ok.injEq] at hs
    subst hs
    rfl
  | clearConstraints =>
    refine ⟨fun e he => he, ?_⟩
    simp only [step, Res.ofOption_ok] at hs
    obtain ⟨p, n, _, _, rfl⟩ := clearConstraints_inv hs
    rfl
  | initializeController p junk =>
    refine ⟨fun e he => he, ?_⟩
    simp only [step, Res.map_ok, Res.ofOption_ok] at hs
    obtain ⟨l, hl, rfl⟩ := hs
    obtain ⟨n, _, rfl⟩ := initializeController_inv hl
    rfl
  | construct b s =>
    refine ⟨fun e he => he, ?_⟩
    simp only [step, Res.ok.injEq] at hs
    subst hs
    exact ⟨_, _, _, _, rfl, rfl, rfl, rfl, rfl, rfl⟩
  | constructPs b s p junk =>
    refine ⟨fun e he => he, ?_⟩
    simp only [step, Res.map_ok, Res.ofOption_ok] at hs
    obtain ⟨l, hl, rfl⟩ := hs
    obtain ⟨n, _, rfl⟩ := initializeController_inv hl
    obtain ⟨S, hx⟩ := hg.sys p ho
    cases b
    · exact ⟨_, _, _, _, rfl, by simp⟩
    · refine ⟨_, _, _, _, rfl, fun _ => ⟨?_, ?_, rfl, rfl⟩⟩
      · simp only [seedInit, LMPC.construct, if_true, declared, Mat.zero, S.dims.xDim, S.dims.Ac]
      · simp only [seedInit, LMPC.construct, if_true, declared, Vec.zero, S.dims.xDim, S.dims.Ac]
  | solve env =>
    obtain ⟨b1, b2⟩ := href trivial
    obtain ⟨c1, c2, c3, c4⟩ := hctl id
    refine ⟨fun e he => he, ?_⟩
    obtain ⟨b, q, hsol⟩ := step_solve_ok hs
    obtain ⟨r1, _, _, _, r2⟩ := c39_as_built (hist_reachable h) hsol
    exact Declared.ext (hsys (fun _ => id) (fun _ => id)) (hcons (by simp)) (hcosts (by simp) (by simp) (by simp)) b1 b2
      (hus (by simp) (by simp))
      c1 (c2 (by simp)) (c3 (by simp)).1 (c3 (by simp)).2 (c4 (by simp)).1 (c4 (by simp)).2 r1 r2

/-- **C90** (one call): in every state of every program, a call of the library returns or throws as the abstract machine
does, and what is declared afterwards is what the machine says. -/
theorem c90_step (h : Hist d dmax E w g) (ho : OpOk d w g op) :
    (w.step dmax op = .ok w' → Machine (declared w) op none (declared w')) ∧
    (∀ e, w.step dmax op = .thrown e w' → Machine (declared w) op (some e) (declared w')) :=
  ⟨fun hs => ok_refines h ho hs, fun _ hs => thrown_refines h ho hs⟩

theorem Executes.hist {w0 : World K} {l : List (Op K × Option Exn)} (h : Executes d dmax E w0 l w g) : Hist d dmax E w g := by
  induction h with
  | start h => exact .start h
  | ok _ ho he hs ih => exact .ok ih ho he hs
  | thrown _ ho he hs ih => exact .thrown ih ho he hs

/-- **C90**: every execution of the library is an execution of the abstract machine, with the same outcome of every call. -/
theorem c90_refines {w0 : World K} {l : List (Op K × Option Exn)} (h : Executes d dmax E w0 l w g) :
    Declares (declared w0) l (declared w) := by
  induction h with
  | start => exact .nil
  | ok h ho _ hs ih => exact .call ih ((c90_step (Executes.hist h) ho).1 hs)
  | thrown h ho _ hs ih => exact .call ih ((c90_step (Executes.hist h) ho).2 _ hs)

/-- **C90** (answers): and what a successful `solve()` then returns is the solution of the machine's problem. -/
theorem c90_answer {w0 : World K} {l : List (Op K × Option Exn)} {env : SolveEnv K} {q : QP K} {p : Nat} {k : SolverKind} {junk : Junk K}
    (h : Executes d dmax NoBoundSpan w0 l w g)
    (ho : OpOk d w g (.solve env)) (hi : w.ctl.isInit = false) (hb : w.ctl.spBoundConstr = [] → g.clean)
    (hh : ∀ i ∈ w.ctl.spConstr, (w.cons i).userData.Honest) (hf : CostsFresh d w g)
    (hs : w.solve env = some (w', true, q)) (hp : w.ctl.ps = some p)
    (hn : q.nrEq + q.nrIneq + 2 * q.nrVar ≤ intMax)
    (hopt : BackEndOptimal dmax junk k q (env.answer q).2.e) :
    ∃ D, Declares (declared w0) l D ∧ D.ps = some p ∧ D.isInit = false ∧
      D.Admits d p w'.ctl.control.e ∧ IsStacked d (D.traj d p w'.ctl.control.e) w'.ctl.trajectory ∧
      ∀ V : Nat → K, D.Admits d p V → (∀ j < d.m * d.N, -dmax ≤ V j ∧ V j ≤ dmax) →
        (k = .osqp → ∀ i < q.Aineq.rows, -dmax ≤ rowValue q.Aineq V i) →
        D.cost d p w'.ctl.control.e ≤ D.cost d p V :=
  ⟨declared w, c90_refines h, hp, hi, c59_end_to_end (Executes.hist h) (fun _ _ h => h) ho hi hb hh hf hs hp hn hopt⟩

end World
end
end Copra
