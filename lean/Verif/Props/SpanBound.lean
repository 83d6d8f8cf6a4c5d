import Verif.Props.ConstrExamples

/-! # C11, as built: what an `autoSpan`ned trajectory bound imposes

`autoSpan` repeats the shorter of the two bound vectors, but the list of its finite entries stays that of the short
vector, so the side that was spanned is imposed at step 0 only. -/

namespace Copra
open Spec
set_option linter.unusedSectionVars false
set_option maxRecDepth 100000

namespace Constr
open AutoSpan
section
variable {K : Type} [Field K] [LinearOrder K] [IsStrictOrderedRing K]

/-- A per-step lower bound next to a horizon-long upper bound, after `autoSpan`: the finite lower entries are imposed (as
upper bounds, C17) on the initial state only, the upper bounds at every step. -/
def SpannedLowerAsBuilt (d : Dims) (l u : Vec (Ext K)) (X : Nat → Nat → K) : Prop :=
  (∀ r < d.n, l.e r ≠ .ninf → Ext.fin (X 0 r) ≤ l.e r) ∧ ∀ k ≤ d.N, ∀ r < d.n, Ext.fin (X k r) ≤ u.e (k * d.n + r)

/-- A horizon-long lower bound next to a per-step upper bound, after `autoSpan`: the upper bounds are imposed on the
initial state only. -/
def SpannedUpperAsBuilt (d : Dims) (l u : Vec (Ext K)) (X : Nat → Nat → K) : Prop :=
  (∀ k ≤ d.N, ∀ r < d.n, l.e (k * d.n + r) ≠ .ninf → Ext.fin (X k r) ≤ l.e (k * d.n + r)) ∧
  ∀ r < d.n, Ext.fin (X 0 r) ≤ u.e r

/-- C11, as built, lower side spanned: for every data, system and later history. -/
theorem c11_lower_as_built {d : Dims} {l u : Vec (Ext K)} {junk junk' : Junk K} (hn : 0 < d.n) (hN : 0 < d.N)
    (hlr : l.rows = d.n) (hur : u.rows = d.n * (d.N + 1))
    {ps0 ps : PreviewSystem K} (h0 : Accepted d ps0) (hp : Current d ps) :
    ∃ c, (mkTrajBound l u).autoSpan junk = .ok c ∧ ∀ c1 c2, c.initializeConstraint junk' ps0 = .ok c1 →
      History d c1 c2 → ∃ c3 nr, c2.update ps = some c3 ∧
        RowsExact d ps c3 true nr (fun X _ => SpannedLowerAsBuilt d l u X) := by
  have hle : d.n ≤ d.n * (d.N + 1) := Nat.le_mul_of_pos_right _ (by omega)
  have hne : d.n * (d.N + 1) ≠ d.n := by
    have : 0 < d.n * d.N := Nat.mul_pos hn hN
    rw [Nat.mul_add]; omega
  have hmax : max l.rows u.rows = (d.N + 1) * l.rows := by
    rw [hlr, hur, Nat.mul_comm]; exact max_eq_right (by rw [Nat.mul_comm]; exact hle)
  obtain ⟨g, eg, hg, he⟩ := spanVector_rep (junk.x 0) l (s := d.N + 1) (by omega)
  have hug : u.rows = (d.N + 1) * l.rows := by rw [hlr, hur, Nat.mul_comm]
  have span : (mkTrajBound l u).autoSpan junk = .ok { mkTrajBound l u with lower := g } := by
    unfold autoSpan mkTrajBound fresh
    simp only [autoSpanTrajBound]
    rw [hmax, eg]
    simp only [Res.map, Res.andThen]
    rw [spanVector_id' _ hug.symm]
    simp only
    rw [if_neg (by simp [hg]; exact hug), if_neg (by simp [hg])]
  refine ⟨_, span, ?_⟩
  intro c1 c2 hi hh
  have hu : Unreg { mkTrajBound l u with lower := g } :=
    (autoSpan_ok span).2.unreg (fresh_unreg (Or.inr (Or.inr (Or.inr (Or.inl ⟨l, u, rfl⟩)))))
  obtain ⟨c3, e, H⟩ := history_rows hu (by simp [mkTrajBound, fresh]) h0 hi hh hp
  obtain ⟨r1, hud, k1, _, _, l1, u1⟩ := init_unreg hu h0 hi
  have hk : c1.kind = .trajBound := by rw [k1]; rfl
  have hgu : c1.lower = g ∧ c1.upper = u := by
    have e : c1.userData = .trajBound c1.lower c1.upper := by unfold userData; rw [hk]
    rw [e] at hud
    have e2 : ({ mkTrajBound l u with lower := g } : Constr K).userData = .trajBound g u := rfl
    rw [e2] at hud
    injection hud with a b
    exact ⟨a, b⟩
  refine ⟨c3, _, e, H.congr ?_⟩
  intro X U
  unfold Sem
  rw [hk]
  simp only
  unfold Reg at r1
  rw [hk] at r1
  have hl1 : c1.lowerLines = finiteLines Ext.isNinf l := l1
  have hu1 : c1.upperLines = finiteLines Ext.isPinf u := u1
  have hfull : c1.fullSizeEntry = true := by
    by_contra hf
    have D := r1.dims
    rw [if_neg hf, hgu.1, hg, hlr, Nat.mul_comm] at D
    exact hne D
  have hb : boundSteps d c1 = 1 := by unfold boundSteps; rw [if_pos hfull]
  unfold BoundRowsHold SpannedLowerAsBuilt
  rw [hb, hl1, hu1, hgu.1, hgu.2]
  have first : ∀ r < d.n, g.e r = l.e r := fun r hr => by
    have := he 0 (by omega) r (by omega)
    rwa [Nat.zero_mul, Nat.zero_add] at this
  constructor
  · intro H
    obtain ⟨H1, H2⟩ := H 0 (by omega)
    refine ⟨fun r hr hne' => ?_, fun k hk r hr => ?_⟩
    · have := H1 r (mem_lines_ninf.2 ⟨by omega, hne'⟩)
      rwa [Nat.mul_zero, Nat.add_zero, Nat.div_eq_of_lt hr, Nat.mod_eq_of_lt hr, first r hr] at this
    · by_cases hp' : u.e (k * d.n + r) = .pinf
      · rw [hp']; exact Ext.le_pinf _
      · have := H2 (k * d.n + r) (mem_lines_pinf.2 ⟨by rw [hur]; exact blk_lt' (by omega) hr, hp'⟩)
        rwa [Nat.mul_zero, Nat.add_zero, blk_div hr, blk_mod hr] at this
  · rintro ⟨H1, H2⟩ t ht
    have : t = 0 := by omega
    subst this
    refine ⟨fun r hr => ?_, fun i hi => ?_⟩
    · obtain ⟨a, b⟩ := mem_lines_ninf.1 hr
      rw [hlr] at a
      rw [Nat.mul_zero, Nat.add_zero, Nat.div_eq_of_lt a, Nat.mod_eq_of_lt a, first r a]
      exact H1 r a b
    · obtain ⟨a, _⟩ := mem_lines_pinf.1 hi
      rw [hur, Nat.mul_comm] at a
      obtain ⟨k, r, hk', hr, rfl⟩ := blk_split a
      rw [Nat.mul_zero, Nat.add_zero, blk_div hr, blk_mod hr]
      exact H2 k (by omega) r hr

/-- C11, as built, upper side spanned: for every data, system and later history. -/
theorem c11_upper_as_built {d : Dims} {l u : Vec (Ext K)} {junk junk' : Junk K} (hn : 0 < d.n) (hN : 0 < d.N)
    (hlr : l.rows = d.n * (d.N + 1)) (hur : u.rows = d.n)
    {ps0 ps : PreviewSystem K} (h0 : Accepted d ps0) (hp : Current d ps) :
    ∃ c, (mkTrajBound l u).autoSpan junk = .ok c ∧ ∀ c1 c2, c.initializeConstraint junk' ps0 = .ok c1 →
      History d c1 c2 → ∃ c3 nr, c2.update ps = some c3 ∧
        RowsExact d ps c3 true nr (fun X _ => SpannedUpperAsBuilt d l u X) := by
  have hle : d.n ≤ d.n * (d.N + 1) := Nat.le_mul_of_pos_right _ (by omega)
  have hne : d.n * (d.N + 1) ≠ d.n := by
    have : 0 < d.n * d.N := Nat.mul_pos hn hN
    rw [Nat.mul_add]; omega
  have hug : l.rows = (d.N + 1) * u.rows := by rw [hlr, hur, Nat.mul_comm]
  have hmax : max l.rows u.rows = (d.N + 1) * u.rows := by
    rw [← hug]; exact max_eq_left (by rw [hlr, hur]; exact hle)
  obtain ⟨g, eg, hg, he⟩ := spanVector_rep (junk.x 1) u (s := d.N + 1) (by omega)
  have span : (mkTrajBound l u).autoSpan junk = .ok { mkTrajBound l u with upper := g } := by
    unfold autoSpan mkTrajBound fresh
    simp only [autoSpanTrajBound]
    rw [hmax, spanVector_id' _ hug.symm]
    simp only [Res.map, Res.andThen]
    rw [eg]
    simp only
    rw [if_neg (by simp [hg]), if_neg (by simp; exact hug)]
  refine ⟨_, span, ?_⟩
  intro c1 c2 hi hh
  have hu : Unreg { mkTrajBound l u with upper := g } :=
    (autoSpan_ok span).2.unreg (fresh_unreg (Or.inr (Or.inr (Or.inr (Or.inl ⟨l, u, rfl⟩)))))
  obtain ⟨c3, e, H⟩ := history_rows hu (by simp [mkTrajBound, fresh]) h0 hi hh hp
  obtain ⟨r1, hud, k1, _, _, l1, u1⟩ := init_unreg hu h0 hi
  have hk : c1.kind = .trajBound := by rw [k1]; rfl
  have hgu : c1.lower = l ∧ c1.upper = g := by
    have e : c1.userData = .trajBound c1.lower c1.upper := by unfold userData; rw [hk]
    rw [e] at hud
    have e2 : ({ mkTrajBound l u with upper := g } : Constr K).userData = .trajBound l g := rfl
    rw [e2] at hud
    injection hud with a b
    exact ⟨a, b⟩
  refine ⟨c3, _, e, H.congr ?_⟩
  intro X U
  unfold Sem
  rw [hk]
  simp only
  unfold Reg at r1
  rw [hk] at r1
  have hl1 : c1.lowerLines = finiteLines Ext.isNinf l := l1
  have hu1 : c1.upperLines = finiteLines Ext.isPinf u := u1
  have hfull : c1.fullSizeEntry = true := by
    by_contra hf
    have D := r1.dims
    rw [if_neg hf, hgu.1, hlr] at D
    exact hne D
  have hb : boundSteps d c1 = 1 := by unfold boundSteps; rw [if_pos hfull]
  unfold BoundRowsHold SpannedUpperAsBuilt
  rw [hb, hl1, hu1, hgu.1, hgu.2]
  have first : ∀ r < d.n, g.e r = u.e r := fun r hr => by
    have := he 0 (by omega) r (by omega)
    rwa [Nat.zero_mul, Nat.zero_add] at this
  constructor
  · intro H
    obtain ⟨H1, H2⟩ := H 0 (by omega)
    refine ⟨fun k hk r hr hne' => ?_, fun r hr => ?_⟩
    · have := H1 (k * d.n + r) (mem_lines_ninf.2 ⟨by rw [hlr]; exact blk_lt' (by omega) hr, hne'⟩)
      rwa [Nat.mul_zero, Nat.add_zero, blk_div hr, blk_mod hr] at this
    · by_cases hp' : u.e r = .pinf
      · rw [hp']; exact Ext.le_pinf _
      · have := H2 r (mem_lines_pinf.2 ⟨by omega, hp'⟩)
        rwa [Nat.mul_zero, Nat.add_zero, Nat.div_eq_of_lt hr, Nat.mod_eq_of_lt hr, first r hr] at this
  · rintro ⟨H1, H2⟩ t ht
    have : t = 0 := by omega
    subst this
    refine ⟨fun i hi => ?_, fun r hr => ?_⟩
    · obtain ⟨a, b⟩ := mem_lines_ninf.1 hi
      rw [hlr, Nat.mul_comm] at a
      obtain ⟨k, r, hk', hr, rfl⟩ := blk_split a
      rw [Nat.mul_zero, Nat.add_zero, blk_div hr, blk_mod hr]
      exact H1 k (by omega) r hr b
    · obtain ⟨a, _⟩ := mem_lines_pinf.1 hr
      rw [hur] at a
      rw [Nat.mul_zero, Nat.add_zero, Nat.div_eq_of_lt a, Nat.mod_eq_of_lt a, first r a]
      exact H2 r a

end

/-- The hypotheses of `c11_upper_as_built` are met: one state, one step, `lower = [-inf, -inf]`, `upper = [1]`; the
spanned constraint is registered and updated, and its rows say `x_0 ≤ 1` and nothing about `x_1`. -/
example : ∃ (ps : PreviewSystem ℚ) (c c1 c3 : Constr ℚ) (nr : Nat), Current ⟨1, 1, 1⟩ ps ∧
    (mkTrajBound (⟨2, fun _ => .ninf⟩ : Vec (Ext ℚ)) ⟨1, fun _ => .fin 1⟩).autoSpan exJunk = .ok c ∧
    c.initializeConstraint exJunk ps = .ok c1 ∧ c1.update ps = some c3 ∧
    RowsExact ⟨1, 1, 1⟩ ps c3 true nr (fun X _ => X 0 0 ≤ 1) := by
  obtain ⟨ps, hp, -⟩ := one_current 0
  set l : Vec (Ext ℚ) := ⟨2, fun _ => .ninf⟩ with hl
  set u : Vec (Ext ℚ) := ⟨1, fun _ => .fin 1⟩ with hu
  obtain ⟨c, span, H⟩ := c11_upper_as_built (l := l) (u := u) (junk := exJunk) (junk' := exJunk) (ps0 := ps)
    (by decide) (by decide) rfl rfl hp.1 hp
  obtain ⟨c1, e1⟩ : ∃ c1, c.initializeConstraint exJunk ps = .ok c1 := by
    obtain ⟨g, eg, hg, -⟩ := AutoSpan.spanVector_rep (exJunk.x 1) u (s := 2) (by simp [hu])
    have hg2 : g.rows = 2 := hg.trans rfl
    have span' : (mkTrajBound l u).autoSpan exJunk = .ok { mkTrajBound l u with upper := g } := by
      unfold autoSpan mkTrajBound fresh
      simp only [autoSpanTrajBound]
      have : max l.rows u.rows = 2 := rfl
      rw [this, AutoSpan.spanVector_id' _ (by rfl)]
      simp only [Res.map, Res.andThen]
      have h2 : 2 * u.rows = 2 := rfl
      rw [h2] at eg
      rw [eg]
      simp only
      rw [if_neg (by simp [hg2]), if_neg (by simp [hl])]
    rw [span'] at span
    injection span with e
    subst e
    obtain ⟨c1, e1, _⟩ := (initializeConstraint_spec (c := { mkTrajBound l u with upper := g }) exJunk
      hp.1.shape).accept (by simp [Once, mkTrajBound, fresh]) ⟨hg2.symm, Or.inr rfl⟩
      (by
        unfold rowsNeeded
        have : ({ mkTrajBound l u with upper := g } : Constr ℚ).kind = .trajBound := rfl
        rw [this]
        have h1 : (mkTrajBound l u).lowerLines = [] := rfl
        have h2 : (mkTrajBound l u).upperLines = [0] := rfl
        simp only [h1, h2, List.length_nil, List.length_cons, intMax]
        split <;> simp)
    exact ⟨c1, e1⟩
  obtain ⟨c3, nr, e3, R⟩ := H c1 c1 e1 Relation.ReflTransGen.refl
  refine ⟨ps, c, c1, c3, nr, hp, span, e1, e3, R.congr fun X U => ?_⟩
  unfold SpannedUpperAsBuilt
  constructor
  · intro h
    have := h.2 0 (by decide)
    exact this
  · intro h
    refine ⟨fun k _ r _ hne => absurd rfl hne, fun r hr => ?_⟩
    have : r = 0 := by simp only at hr; omega
    subst this
    exact h

end Constr
end Copra
