import Verif.Proofs.CostSem
import Verif.Proofs.ConstrHist

/-! # Histories of a cost object -/

namespace Copra
open Spec

set_option linter.unusedSectionVars false
set_option linter.unusedSimpArgs false

namespace Cost
open AutoSpan
variable {K : Type} [Field K]

/-- The number of weights equals the number of target entries. -/
def WOk (c : Cost K) : Prop := c.weights.rows = c.p.rows

/-- Never accepted with full-size data. -/
def Unreg (c : Cost K) : Prop := (c.kind ≠ .target → c.fullSizeEntry = false) ∧ WOk c

theorem fresh_unreg {c : Cost K} (h : World.FreshCost c) : Unreg c := by
  rcases h with ⟨M, p, rfl⟩ | ⟨M, p, rfl⟩ | ⟨N, p, rfl⟩ | ⟨M, N, p, rfl⟩ <;> exact ⟨fun _ => rfl, rfl⟩

/-- Same declared data. -/
structure SameData (c c' : Cost K) : Prop where
  kind : c'.kind = c.kind
  M : c'.M = c.M
  N : c'.N = c.N
  p : c'.p = c.p
  weights : c'.weights = c.weights

theorem SameData.refl (c : Cost K) : SameData c c := ⟨rfl, rfl, rfl, rfl, rfl⟩

theorem SameData.trans {c c' c'' : Cost K} (h : SameData c c') (h' : SameData c' c'') : SameData c c'' :=
  ⟨h'.kind.trans h.kind, h'.M.trans h.M, h'.N.trans h.N, h'.p.trans h.p, h'.weights.trans h.weights⟩

theorem SameData.userData {c c' : Cost K} (h : SameData c c') : c'.userData = c.userData := by
  unfold Cost.userData
  rw [h.kind, h.M, h.N, h.p, h.weights]

theorem SameData.wok {c c' : Cost K} (h : SameData c c') : WOk c' ↔ WOk c := by
  unfold WOk; rw [h.weights, h.p]

theorem SameData.fits {d : Dims} {c c' : Cost K} (h : SameData c c') : Fits d c' ↔ Fits d c := by
  unfold Fits; rw [h.kind, h.M, h.N, h.p]

theorem Same.data {c c' : Cost K} (h : Same c c') : SameData c c' :=
  ⟨h.kind, h.M, h.N, h.p, h.weights⟩

/-! ## initializeCost -/

/-- `initializeCost` never changes the declared data, for any system. -/
theorem init_any {junk : Junk K} {ps : PreviewSystem K} {c : Cost K} :
    ∃ c1, (c.initializeCost junk ps = .ok c1 ∨ c.initializeCost junk ps = .thrown .domainError c1) ∧
      SameData c c1 ∧ (c1.fullSizeEntry = c.fullSizeEntry ∨ c1.fullSizeEntry = true) := by
  unfold initializeCost
  cases hk : c.kind <;> simp only
  · unfold initTrajectory
    simp only
    repeat' split
    all_goals first
      | exact ⟨_, Or.inr rfl, ⟨rfl, rfl, rfl, rfl, rfl⟩, Or.inl rfl⟩
      | exact ⟨_, Or.inl rfl, ⟨rfl, rfl, rfl, rfl, rfl⟩, Or.inl rfl⟩
      | exact ⟨_, Or.inl rfl, ⟨rfl, rfl, rfl, rfl, rfl⟩, Or.inr rfl⟩
  · unfold initTarget
    simp only
    repeat' split
    all_goals first
      | exact ⟨_, Or.inr rfl, ⟨rfl, rfl, rfl, rfl, rfl⟩, Or.inl rfl⟩
      | exact ⟨_, Or.inl rfl, ⟨rfl, rfl, rfl, rfl, rfl⟩, Or.inl rfl⟩
  · unfold initControl
    simp only
    repeat' split
    all_goals first
      | exact ⟨_, Or.inr rfl, ⟨rfl, rfl, rfl, rfl, rfl⟩, Or.inl rfl⟩
      | exact ⟨_, Or.inl rfl, ⟨rfl, rfl, rfl, rfl, rfl⟩, Or.inl rfl⟩
      | exact ⟨_, Or.inl rfl, ⟨rfl, rfl, rfl, rfl, rfl⟩, Or.inr rfl⟩
  · unfold initMixed
    simp only
    repeat' split
    all_goals first
      | exact ⟨_, Or.inr rfl, ⟨rfl, rfl, rfl, rfl, rfl⟩, Or.inl rfl⟩
      | exact ⟨_, Or.inl rfl, ⟨rfl, rfl, rfl, rfl, rfl⟩, Or.inl rfl⟩
      | exact ⟨_, Or.inl rfl, ⟨rfl, rfl, rfl, rfl, rfl⟩, Or.inr rfl⟩

theorem init_frame {junk : Junk K} {ps : PreviewSystem K} {c c1 : Cost K}
    (h : c.initializeCost junk ps = .ok c1 ∨ ∃ e, c.initializeCost junk ps = .thrown e c1) :
    SameData c c1 ∧ (c1.fullSizeEntry = c.fullSizeEntry ∨ c1.fullSizeEntry = true) := by
  obtain ⟨c2, h2, h3⟩ := init_any (junk := junk) (ps := ps) (c := c)
  have : c2 = c1 := by
    rcases h with h | ⟨e, h⟩ <;> rw [h] at h2 <;> rcases h2 with h2 | h2 <;> cases h2 <;> rfl
  rw [← this]; exact h3

theorem allocBase_sizes {junk : Junk K} {ps : PreviewSystem K} {c : Cost K} {d : Dims} (S : SysShape d ps) :
    Sizes d (c.allocBase junk ps) := ⟨S.fullU, S.fullU, S.fullU, S.xDim, S.fullU, S.fullU⟩

theorem zeroAll_sizes {c : Cost K} {d : Dims} (h : Sizes d c) : Sizes d c.zeroAll :=
  ⟨h.Qr, h.Qc, h.cr, h.Er, h.Ec, h.fr⟩

/-- `initializeCost` accepts exactly fitting data; an accepted cost is ready for its first update. -/
theorem init_spec {d : Dims} {ps : PreviewSystem K} {c : Cost K} (junk : Junk K) (S : SysShape d ps)
    (hw : WOk c) (hc : (c.kind ≠ .target → c.fullSizeEntry = false) ∨ DataOk d c) :
    (Fits d c → ∃ c1, c.initializeCost junk ps = .ok c1 ∧ Reg d c1 ∧ Clean d c1 ∧ SameData c c1) ∧
    (¬ Fits d c → ∃ c1, c.initializeCost junk ps = .thrown .domainError c1 ∧ SameData c c1 ∧
      c1.fullSizeEntry = c.fullSizeEntry) := by
  have Z := allocBase_sizes (junk := junk) (c := c) S
  unfold initializeCost Fits
  cases hk : c.kind <;> simp only
  · have hD : c.fullSizeEntry = true → c.M.cols ≠ d.n := by
      intro h
      rcases hc with hc | hc
      · have hc := hc (by rw [hk]; simp); rw [h] at hc; cases hc
      · unfold DataOk at hc; rw [hk] at hc; simp only [h, if_true] at hc; exact hc.2.1
    unfold initTrajectory
    show (_ → ∃ c1, (if c.M.rows ≠ c.p.rows then _ else if c.M.cols = ps.xDim then _ else
      if c.M.cols = ps.fullXDim then _ else _) = _ ∧ _) ∧ (_ → ∃ c1, (if c.M.rows ≠ c.p.rows then _
      else if c.M.cols = ps.xDim then _ else if c.M.cols = ps.fullXDim then _ else _) = _ ∧ _)
    rw [S.xDim, S.fullX]
    by_cases h1 : c.M.rows = c.p.rows
    · rw [if_neg (not_not.2 h1)]
      by_cases h2 : c.M.cols = d.n
      · rw [if_pos h2]
        refine ⟨fun _ => ⟨_, rfl, ⟨hw, ?_, zeroAll_sizes Z, ?_⟩, ?_, rfl, rfl, rfl, rfl, rfl⟩,
          fun h => absurd ⟨h1, Or.inl h2⟩ h⟩
        · unfold DataOk
          show match c.kind with | .trajectory => _ | .target => _ | .control => _ | .mixed => _
          rw [hk]
          refine ⟨h1, ?_⟩
          show if c.fullSizeEntry then _ else c.M.cols = d.n
          rw [if_neg (fun h => hD h h2)]
          exact h2
        · intro h; exact absurd (hk.symm.trans h) (by simp)
        · intro _; exact ⟨fun _ _ _ _ => rfl, fun _ _ _ _ => rfl, fun _ _ => rfl, fun _ _ => rfl⟩
      · rw [if_neg h2]
        by_cases h3 : c.M.cols = d.n * (d.N + 1)
        · rw [if_pos h3]
          refine ⟨fun _ => ⟨_, rfl, ⟨hw, ?_, ⟨Z.Qr, Z.Qc, Z.cr, Z.Er, Z.Ec, Z.fr⟩, ?_⟩, ?_, rfl, rfl, rfl, rfl, rfl⟩,
            fun h => absurd ⟨h1, Or.inr h3⟩ h⟩
          · unfold DataOk
            show match c.kind with | .trajectory => _ | .target => _ | .control => _ | .mixed => _
            rw [hk]
            exact ⟨h1, h2, h3⟩
          · intro h; exact absurd (hk.symm.trans h) (by simp)
          · rintro ⟨_, h⟩; cases h
        · rw [if_neg h3]
          exact ⟨fun h => absurd h.2 (by simp [h2, h3]), fun _ => ⟨_, rfl, ⟨rfl, rfl, rfl, rfl, rfl⟩, rfl⟩⟩
    · rw [if_pos h1]
      exact ⟨fun h => absurd h.1 h1, fun _ => ⟨_, rfl, ⟨rfl, rfl, rfl, rfl, rfl⟩, rfl⟩⟩
  · unfold initTarget
    show (_ → ∃ c1, (if c.M.rows ≠ c.p.rows then _ else if c.M.cols ≠ ps.xDim then _ else _) = _ ∧ _) ∧
      (_ → ∃ c1, (if c.M.rows ≠ c.p.rows then _ else if c.M.cols ≠ ps.xDim then _ else _) = _ ∧ _)
    rw [S.xDim]
    by_cases h1 : c.M.rows = c.p.rows
    · rw [if_neg (not_not.2 h1)]
      by_cases h2 : c.M.cols = d.n
      · rw [if_neg (not_not.2 h2)]
        refine ⟨fun _ => ⟨_, rfl, ⟨hw, ?_, Z, ?_⟩, ?_, rfl, rfl, rfl, rfl, rfl⟩, fun h => absurd ⟨h1, h2⟩ h⟩
        · unfold DataOk
          show match c.kind with | .trajectory => _ | .target => _ | .control => _ | .mixed => _
          rw [hk]
          exact ⟨h1, h2⟩
        · intro h; exact absurd (hk.symm.trans h) (by simp)
        · rintro ⟨h | h, _⟩ <;> exact absurd (hk.symm.trans h) (by simp)
      · rw [if_pos h2]
        exact ⟨fun h => absurd h.2 h2, fun _ => ⟨_, rfl, ⟨rfl, rfl, rfl, rfl, rfl⟩, rfl⟩⟩
    · rw [if_pos h1]
      exact ⟨fun h => absurd h.1 h1, fun _ => ⟨_, rfl, ⟨rfl, rfl, rfl, rfl, rfl⟩, rfl⟩⟩
  · have hD : c.fullSizeEntry = true → c.N.cols ≠ d.m := by
      intro h
      rcases hc with hc | hc
      · have hc := hc (by rw [hk]; simp); rw [h] at hc; cases hc
      · unfold DataOk at hc; rw [hk] at hc; simp only [h, if_true] at hc; exact hc.2.1
    unfold initControl
    show (_ → ∃ c1, (if c.N.rows ≠ c.p.rows then _ else if c.N.cols = ps.uDim then _ else
      if c.N.cols = ps.fullUDim then _ else _) = _ ∧ _) ∧ (_ → ∃ c1, (if c.N.rows ≠ c.p.rows then _
      else if c.N.cols = ps.uDim then _ else if c.N.cols = ps.fullUDim then _ else _) = _ ∧ _)
    rw [S.uDim, S.fullU]
    by_cases h1 : c.N.rows = c.p.rows
    · rw [if_neg (not_not.2 h1)]
      by_cases h2 : c.N.cols = d.m
      · rw [if_pos h2]
        refine ⟨fun _ => ⟨_, rfl, ⟨hw, ?_, ⟨Z.Qr, Z.Qc, Z.cr, Z.Er, Z.Ec, Z.fr⟩, ?_⟩, ?_, rfl, rfl, rfl, rfl, rfl⟩,
          fun h => absurd ⟨h1, Or.inl h2⟩ h⟩
        · unfold DataOk
          show match c.kind with | .trajectory => _ | .target => _ | .control => _ | .mixed => _
          rw [hk]
          refine ⟨h1, ?_⟩
          show if c.fullSizeEntry then _ else c.N.cols = d.m
          rw [if_neg (fun h => hD h h2)]
          exact h2
        · intro _ _ k _ l _ _ i _ j _; rfl
        · rintro ⟨h | h, _⟩ <;> exact absurd (hk.symm.trans h) (by simp)
      · rw [if_neg h2]
        by_cases h3 : c.N.cols = d.m * d.N
        · rw [if_pos h3]
          refine ⟨fun _ => ⟨_, rfl, ⟨hw, ?_, ⟨Z.Qr, Z.Qc, Z.cr, Z.Er, Z.Ec, Z.fr⟩, ?_⟩, ?_, rfl, rfl, rfl, rfl, rfl⟩,
            fun h => absurd ⟨h1, Or.inr h3⟩ h⟩
          · unfold DataOk
            show match c.kind with | .trajectory => _ | .target => _ | .control => _ | .mixed => _
            rw [hk]
            exact ⟨h1, h2, h3⟩
          · intro _ h; cases h
          · rintro ⟨_, h⟩; cases h
        · rw [if_neg h3]
          exact ⟨fun h => absurd h.2 (by simp [h2, h3]), fun _ => ⟨_, rfl, ⟨rfl, rfl, rfl, rfl, rfl⟩, rfl⟩⟩
    · rw [if_pos h1]
      exact ⟨fun h => absurd h.1 h1, fun _ => ⟨_, rfl, ⟨rfl, rfl, rfl, rfl, rfl⟩, rfl⟩⟩
  · have hD : c.fullSizeEntry = true → ¬ (c.M.cols = d.n ∧ c.N.cols = d.m) := by
      intro h
      rcases hc with hc | hc
      · have hc := hc (by rw [hk]; simp); rw [h] at hc; cases hc
      · unfold DataOk at hc; rw [hk] at hc; simp only [h, if_true] at hc; exact hc.2.2.1
    unfold initMixed
    show (_ → ∃ c1, (if c.M.rows ≠ c.p.rows then _ else if c.N.rows ≠ c.p.rows then _ else
      if c.M.cols = ps.xDim ∧ c.N.cols = ps.uDim then _ else
      if c.M.cols = ps.fullXDim ∧ c.N.cols = ps.fullUDim then _ else _) = _ ∧ _) ∧
      (_ → ∃ c1, (if c.M.rows ≠ c.p.rows then _ else if c.N.rows ≠ c.p.rows then _ else
      if c.M.cols = ps.xDim ∧ c.N.cols = ps.uDim then _ else
      if c.M.cols = ps.fullXDim ∧ c.N.cols = ps.fullUDim then _ else _) = _ ∧ _)
    rw [S.xDim, S.uDim, S.fullX, S.fullU]
    by_cases h1 : c.M.rows = c.p.rows
    · rw [if_neg (not_not.2 h1)]
      by_cases h1' : c.N.rows = c.p.rows
      · rw [if_neg (not_not.2 h1')]
        by_cases h2 : c.M.cols = d.n ∧ c.N.cols = d.m
        · rw [if_pos h2]
          refine ⟨fun _ => ⟨_, rfl, ⟨hw, ?_, zeroAll_sizes Z, ?_⟩, ?_, rfl, rfl, rfl, rfl, rfl⟩,
            fun h => absurd ⟨h1, h1', Or.inl h2⟩ h⟩
          · unfold DataOk
            show match c.kind with | .trajectory => _ | .target => _ | .control => _ | .mixed => _
            rw [hk]
            refine ⟨h1, h1', ?_⟩
            show if c.fullSizeEntry then _ else c.M.cols = d.n ∧ c.N.cols = d.m
            rw [if_neg (fun h => hD h h2)]
            exact h2
          · intro h; exact absurd (hk.symm.trans h) (by simp)
          · intro _; exact ⟨fun _ _ _ _ => rfl, fun _ _ _ _ => rfl, fun _ _ => rfl, fun _ _ => rfl⟩
        · rw [if_neg h2]
          by_cases h3 : c.M.cols = d.n * (d.N + 1) ∧ c.N.cols = d.m * d.N
          · rw [if_pos h3]
            refine ⟨fun _ => ⟨_, rfl, ⟨hw, ?_, ⟨Z.Qr, Z.Qc, Z.cr, Z.Er, Z.Ec, Z.fr⟩, ?_⟩, ?_, rfl, rfl, rfl, rfl, rfl⟩,
              fun h => absurd ⟨h1, h1', Or.inr h3⟩ h⟩
            · unfold DataOk
              show match c.kind with | .trajectory => _ | .target => _ | .control => _ | .mixed => _
              rw [hk]
              exact ⟨h1, h1', h2, h3⟩
            · intro h; exact absurd (hk.symm.trans h) (by simp)
            · rintro ⟨_, h⟩; cases h
          · rw [if_neg h3]
            exact ⟨fun h => absurd h.2.2 (by tauto), fun _ => ⟨_, rfl, ⟨rfl, rfl, rfl, rfl, rfl⟩, rfl⟩⟩
      · rw [if_pos h1']
        exact ⟨fun h => absurd h.2.1 h1', fun _ => ⟨_, rfl, ⟨rfl, rfl, rfl, rfl, rfl⟩, rfl⟩⟩
    · rw [if_pos h1]
      exact ⟨fun h => absurd h.1 h1, fun _ => ⟨_, rfl, ⟨rfl, rfl, rfl, rfl, rfl⟩, rfl⟩⟩

theorem DataOk.fits {d : Dims} {c : Cost K} (h : DataOk d c) : Fits d c := by
  unfold DataOk at h
  unfold Fits
  cases hk : c.kind <;> rw [hk] at h <;> simp only at h ⊢
  · cases hf : c.fullSizeEntry <;> simp only [hf, if_true, Bool.false_eq_true, if_false] at h
    · exact ⟨h.1, Or.inl h.2⟩
    · exact ⟨h.1, Or.inr h.2.2⟩
  · exact h
  · cases hf : c.fullSizeEntry <;> simp only [hf, if_true, Bool.false_eq_true, if_false] at h
    · exact ⟨h.1, Or.inl h.2⟩
    · exact ⟨h.1, Or.inr h.2.2⟩
  · cases hf : c.fullSizeEntry <;> simp only [hf, if_true, Bool.false_eq_true, if_false] at h
    · exact ⟨h.1, h.2.1, Or.inl h.2.2⟩
    · exact ⟨h.1, h.2.1, Or.inr h.2.2.2⟩

/-! ## weights -/

/-- The result of `weights(w)`. -/
theorem setWeights_cases (c : Cost K) (w : Vec K) :
    (w.rows = c.weights.rows → c.setWeights w = .ok { c with weights := w }) ∧
    (∀ s, 0 < w.rows → c.weights.rows = s * w.rows → ∃ v, c.setWeights w = .ok { c with weights := v } ∧
      v.rows = c.weights.rows ∧ ∀ k < s, ∀ r < w.rows, v.e (k * w.rows + r) = w.e r) ∧
    (w.rows = 0 → c.weights.rows ≠ 0 → c.setWeights w = .ub) ∧
    (0 < w.rows → ¬ w.rows ∣ c.weights.rows → c.setWeights w = .thrown .domainError c) := by
  refine ⟨?_, ?_, ?_, ?_⟩
  · intro h; unfold setWeights; rw [if_pos h]
  · intro s h0 hs
    unfold setWeights
    by_cases h1 : w.rows = c.weights.rows
    · rw [if_pos h1]
      have hs1 : s = 1 := by
        rw [hs] at h1
        rcases Nat.lt_trichotomy s 1 with h | h | h
        · have : s = 0 := by omega
          subst this; omega
        · exact h
        · have : 2 * w.rows ≤ s * w.rows := Nat.mul_le_mul_right _ h
          omega
      refine ⟨w, rfl, h1, ?_⟩
      intro k hk r hr
      have : k = 0 := by omega
      subst this; simp
    · have hd : c.weights.rows % w.rows = 0 := by rw [hs]; exact Nat.mul_mod_left _ _
      rw [if_neg h1, if_neg (by omega), if_pos hd]
      have hq : c.weights.rows / w.rows = s := by rw [hs]; exact Nat.mul_div_cancel _ h0
      rw [hq]
      obtain ⟨v, e, hv⟩ : Ok (loop 0 s (fun i v => v.setSegment? (i * w.rows) w.rows w) c.weights)
          (fun v => v.rows = c.weights.rows ∧ ∀ k < s, ∀ r < w.rows, v.e (k * w.rows + r) = w.e r) := by
        apply Ok.loop (I := fun t v => v.rows = c.weights.rows ∧ ∀ k < t, ∀ r < w.rows, v.e (k * w.rows + r) = w.e r)
        · exact Nat.zero_le _
        · exact ⟨rfl, fun k hk => absurd hk (Nat.not_lt_zero _)⟩
        · rintro t v _ ht ⟨v1, v2⟩
          apply Ok.setSegment? (by rw [v1, hs]; exact blk_le ht) rfl
          refine ⟨v1, ?_⟩
          intro k hk r hr
          rw [setSegment_blk _ _ hr]
          split
          · rfl
          · exact v2 k (by omega) r hr
        · exact fun v h => h
      rw [e]
      exact ⟨v, rfl, hv.1, hv.2⟩
  · intro h h'
    unfold setWeights
    rw [if_neg (by omega), if_pos h]
  · intro h0 hd
    unfold setWeights
    rw [if_neg (by rintro h; exact hd (h ▸ dvd_refl _)), if_neg (by omega), if_neg (fun h => hd (Nat.dvd_of_mod_eq_zero h))]

/-- `weights(w)` changes only the weights, and never their number. -/
theorem setWeights_frame {c c' : Cost K} {w : Vec K}
    (h : c.setWeights w = .ok c' ∨ ∃ e, c.setWeights w = .thrown e c') :
    ∃ v, c' = { c with weights := v } ∧ v.rows = c.weights.rows := by
  obtain ⟨h1, h2, h3, h4⟩ := setWeights_cases c w
  by_cases a : w.rows = c.weights.rows
  · rw [h1 a] at h
    rcases h with h | ⟨e, h⟩ <;> cases h
    exact ⟨w, rfl, a⟩
  · rcases Nat.eq_zero_or_pos w.rows with h0 | h0
    · rw [h3 h0 (by omega)] at h
      rcases h with h | ⟨e, h⟩ <;> cases h
    · by_cases hd : w.rows ∣ c.weights.rows
      · obtain ⟨s, hs⟩ := hd
        obtain ⟨v, e, v1, _⟩ := h2 s h0 (by rw [hs, Nat.mul_comm])
        rw [e] at h
        rcases h with h | ⟨e, h⟩ <;> cases h
        exact ⟨v, rfl, v1⟩
      · rw [h4 h0 hd] at h
        rcases h with h | ⟨e, h⟩ <;> cases h
        exact ⟨c.weights, rfl, rfl⟩

/-! ## autoSpan -/

/-- All pieces of the data have the same number of rows. -/
def RowsAgree (c : Cost K) : Prop :=
  match c.kind with
  | .trajectory => c.p.rows = c.M.rows ∧ c.weights.rows = c.M.rows
  | .target => True
  | .control => c.p.rows = c.N.rows ∧ c.weights.rows = c.N.rows
  | .mixed => c.p.rows = c.M.rows ∧ c.weights.rows = c.M.rows ∧ c.N.rows = c.M.rows

theorem Pre.rowsAgree {d : Dims} {c : Cost K} (h : Pre d c) : RowsAgree c := by
  have D := h.data
  have W := h.wr
  unfold DataOk at D
  unfold RowsAgree
  cases hk : c.kind <;> rw [hk] at D <;> simp only at D ⊢
  · exact ⟨D.1.symm, W.trans D.1.symm⟩
  · exact ⟨D.1.symm, W.trans D.1.symm⟩
  · exact ⟨D.1.symm, W.trans D.1.symm, D.2.1.trans D.1.symm⟩

theorem Reg.rowsAgree {d : Dims} {c : Cost K} (h : Reg d c) : RowsAgree c := h.pre.rowsAgree

theorem autoSpan_rowsAgree (junk : Junk K) {c : Cost K} (h : RowsAgree c) : c.autoSpan junk = .ok c := by
  unfold RowsAgree at h
  unfold autoSpan
  cases hk : c.kind <;> rw [hk] at h <;> simp only at h ⊢
  · unfold autoSpanTrajectory
    have e : max c.M.rows (max c.weights.rows c.p.rows) = c.M.rows := by rw [h.1, h.2, max_self, max_self]
    simp only [e]
    rw [spanMatrix_id]
    simp only [Res.map, Res.andThen]
    rw [spanVector_id' _ h.1.symm]
    simp only
    rw [spanVector_id' _ h.2.symm]
  · unfold autoSpanControl
    have e : max c.N.rows (max c.weights.rows c.p.rows) = c.N.rows := by rw [h.1, h.2, max_self, max_self]
    simp only [e]
    rw [spanMatrix_id]
    simp only [Res.map, Res.andThen]
    rw [spanVector_id' _ h.1.symm]
    simp only
    rw [spanVector_id' _ h.2.symm]
  · unfold autoSpanMixed
    have e : max c.M.rows (max c.N.rows (max c.weights.rows c.p.rows)) = c.M.rows := by
      rw [h.1, h.2.1, h.2.2, max_self, max_self, max_self]
    simp only [e]
    rw [spanMatrix_id]
    simp only [Res.map, Res.andThen]
    rw [spanMatrix_id' h.2.2.symm]
    simp only
    rw [spanVector_id' _ h.1.symm]
    simp only
    rw [spanVector_id' _ h.2.1.symm]

/-- What `autoSpan` never changes. -/
structure SpanFrame (c c' : Cost K) : Prop where
  kind : c'.kind = c.kind
  full : c'.fullSizeEntry = c.fullSizeEntry
  Q : c'.Q = c.Q
  E : c'.E = c.E
  f : c'.f = c.f
  c : c'.c = c.c

theorem autoSpan_ok {junk : Junk K} {c c' : Cost K} (h : c.autoSpan junk = .ok c') :
    RowsAgree c' ∧ SpanFrame c c' ∧ (WOk c → WOk c') := by
  unfold autoSpan at h
  cases hk : c.kind <;> rw [hk] at h <;> simp only at h
  · unfold autoSpanTrajectory at h
    simp only [Res.andThen_ok, Res.map_ok] at h
    obtain ⟨_, ⟨E, hE, rfl⟩, _, ⟨f, hf, rfl⟩, w, hw, rfl⟩ := h
    have e1 := spanMatrix_rows hE
    have e2 := spanVector_rows hf
    have e3 := spanVector_rows hw
    refine ⟨?_, ⟨rfl, rfl, rfl, rfl, rfl, rfl⟩, fun _ => ?_⟩
    · unfold RowsAgree; simp only [hk]; rw [e1, e2, e3]; exact ⟨rfl, rfl⟩
    · exact e3.trans e2.symm
  · cases h
    exact ⟨by unfold RowsAgree; rw [hk]; trivial, ⟨rfl, rfl, rfl, rfl, rfl, rfl⟩, id⟩
  · unfold autoSpanControl at h
    simp only [Res.andThen_ok, Res.map_ok] at h
    obtain ⟨_, ⟨E, hE, rfl⟩, _, ⟨f, hf, rfl⟩, w, hw, rfl⟩ := h
    have e1 := spanMatrix_rows hE
    have e2 := spanVector_rows hf
    have e3 := spanVector_rows hw
    refine ⟨?_, ⟨rfl, rfl, rfl, rfl, rfl, rfl⟩, fun _ => ?_⟩
    · unfold RowsAgree; simp only [hk]; rw [e1, e2, e3]; exact ⟨rfl, rfl⟩
    · exact e3.trans e2.symm
  · unfold autoSpanMixed at h
    simp only [Res.andThen_ok, Res.map_ok] at h
    obtain ⟨_, ⟨E, hE, rfl⟩, _, ⟨G, hG, rfl⟩, _, ⟨f, hf, rfl⟩, w, hw, rfl⟩ := h
    have e1 := spanMatrix_rows hE
    have e2 := spanVector_rows hf
    have e3 := spanVector_rows hw
    have e4 := spanMatrix_rows hG
    refine ⟨?_, ⟨rfl, rfl, rfl, rfl, rfl, rfl⟩, fun _ => ?_⟩
    · unfold RowsAgree; simp only [hk]; rw [e1, e2, e3, e4]; exact ⟨rfl, rfl, rfl⟩
    · exact e3.trans e2.symm

/-- Spanning vectors of equal size succeeds or fails for both. -/
theorem spanVector_same {α β : Type} {j : Nat → α} {j' : Nat → β} {u : Vec α} {v w : Vec β} {r : Vec α} {n : Nat} {e : Exn}
    (h : u.rows = v.rows) (hu : spanVector j u n = .ok r) : spanVector j' v n ≠ .thrown e w := by
  intro hv
  rcases Nat.eq_zero_or_pos v.rows with h0 | h0
  · by_cases hn : n = 0
    · rw [hn, ← h0, spanVector_id] at hv; cases hv
    · rw [spanVector_ub j' v h0 hn] at hv; cases hv
  · by_cases hd : v.rows ∣ n
    · obtain ⟨s, hs⟩ := hd
      rw [Nat.mul_comm] at hs
      subst hs
      obtain ⟨r', h1, _⟩ := spanVector_rep j' v (s := s) h0
      rw [h1] at hv; cases hv
    · rw [← h] at hd h0
      rw [spanVector_throw j u h0 hd] at hu; cases hu

theorem autoSpan_thrown {junk : Junk K} {c c' : Cost K} {e : Exn} (h : c.autoSpan junk = .thrown e c') :
    e = .domainError ∧ SpanFrame c c' ∧ (WOk c → WOk c') := by
  unfold autoSpan at h
  cases hk : c.kind <;> rw [hk] at h <;> simp only at h
  · unfold autoSpanTrajectory at h
    simp only [Res.andThen_thrown, Res.map_thrown, Res.map_ok] at h
    rcases h with ⟨E, hE, rfl⟩ | ⟨_, ⟨E, hE, rfl⟩, ⟨f, hf, rfl⟩ | ⟨_, ⟨f, hf, rfl⟩, w, hw, rfl⟩⟩
    · exact ⟨(spanMatrix_thrown hE).2, ⟨rfl, rfl, rfl, rfl, rfl, rfl⟩, id⟩
    · obtain ⟨rfl, h2⟩ := spanVector_thrown hf
      exact ⟨h2, ⟨rfl, rfl, rfl, rfl, rfl, rfl⟩, id⟩
    · exact ⟨(spanVector_thrown hw).2, ⟨rfl, rfl, rfl, rfl, rfl, rfl⟩,
        fun h => absurd hw (spanVector_same h.symm hf)⟩
  · cases h
  · unfold autoSpanControl at h
    simp only [Res.andThen_thrown, Res.map_thrown, Res.map_ok] at h
    rcases h with ⟨E, hE, rfl⟩ | ⟨_, ⟨E, hE, rfl⟩, ⟨f, hf, rfl⟩ | ⟨_, ⟨f, hf, rfl⟩, w, hw, rfl⟩⟩
    · exact ⟨(spanMatrix_thrown hE).2, ⟨rfl, rfl, rfl, rfl, rfl, rfl⟩, id⟩
    · obtain ⟨rfl, h2⟩ := spanVector_thrown hf
      exact ⟨h2, ⟨rfl, rfl, rfl, rfl, rfl, rfl⟩, id⟩
    · exact ⟨(spanVector_thrown hw).2, ⟨rfl, rfl, rfl, rfl, rfl, rfl⟩,
        fun h => absurd hw (spanVector_same h.symm hf)⟩
  · unfold autoSpanMixed at h
    simp only [Res.andThen_thrown, Res.map_thrown, Res.map_ok] at h
    rcases h with ⟨E, hE, rfl⟩ | ⟨_, ⟨E, hE, rfl⟩, ⟨G, hG, rfl⟩ | ⟨_, ⟨G, hG, rfl⟩,
      ⟨f, hf, rfl⟩ | ⟨_, ⟨f, hf, rfl⟩, w, hw, rfl⟩⟩⟩
    · exact ⟨(spanMatrix_thrown hE).2, ⟨rfl, rfl, rfl, rfl, rfl, rfl⟩, id⟩
    · exact ⟨(spanMatrix_thrown hG).2, ⟨rfl, rfl, rfl, rfl, rfl, rfl⟩, id⟩
    · obtain ⟨rfl, h2⟩ := spanVector_thrown hf
      exact ⟨h2, ⟨rfl, rfl, rfl, rfl, rfl, rfl⟩, id⟩
    · exact ⟨(spanVector_thrown hw).2, ⟨rfl, rfl, rfl, rfl, rfl, rfl⟩,
        fun h => absurd hw (spanVector_same h.symm hf)⟩

end Cost
end Copra
