import Verif.Proofs.CostHist
import Verif.Props.Constraints
import Mathlib.Algebra.Order.BigOperators.Group.Finset

/-! # Properties C22-C26, C28: cost functions

The life of a cost object: constructed, possibly `autoSpan`ned, given weights, accepted by
`initializeCost` for a system of dimensions `d` (this is what `addCost` calls), then `update`d (this is
what every `solve` calls), re-weighted, `autoSpan`ned or re-initialised any number of times with any
systems of the same dimensions. -/

namespace Copra
open Spec

set_option linter.unusedSectionVars false

variable {K : Type} [Field K]

namespace Cost

/-- One thing other than `update` that can happen to a registered cost. -/
inductive Quiet (d : Dims) : Cost K → Cost K → Prop
  | span {c c' junk} : c.autoSpan junk = .ok c' → Quiet d c c'
  | spanThrown {c c' junk e} : c.autoSpan junk = .thrown e c' → Quiet d c c'
  | weights {c c' w} : c.setWeights w = .ok c' → Quiet d c c'
  | weightsThrown {c c' w e} : c.setWeights w = .thrown e c' → Quiet d c c'
  | weight {c w} : Quiet d c (c.setWeight w)
  | reinit {c c' ps junk} : Accepted d ps → c.initializeCost junk ps = .ok c' → Quiet d c c'
  | rejected {c c' ps junk e} : Accepted d ps → c.initializeCost junk ps = .thrown e c' → Quiet d c c'

/-- One thing that can happen to a registered cost. -/
inductive Step (d : Dims) : Cost K → Cost K → Prop
  | quiet {c c'} : Quiet d c c' → Step d c c'
  | update {c c' ps} : Current d ps → c.update ps = some c' → Step d c c'

/-- Any history without an update. -/
def QuietHistory (d : Dims) : Cost K → Cost K → Prop := Relation.ReflTransGen (Quiet d)

/-- Any history of a registered cost. -/
def History (d : Dims) : Cost K → Cost K → Prop := Relation.ReflTransGen (Step d)

/-- Everything but the weights and the results is the same. -/
structure Frame (c c' : Cost K) : Prop where
  kind : c'.kind = c.kind
  full : c'.fullSizeEntry = c.fullSizeEntry
  M : c'.M = c.M
  N : c'.N = c.N
  p : c'.p = c.p

theorem Frame.refl (c : Cost K) : Frame c c := ⟨rfl, rfl, rfl, rfl, rfl⟩

theorem Frame.trans {c c' c'' : Cost K} (h : Frame c c') (h' : Frame c' c'') : Frame c c'' :=
  ⟨h'.kind.trans h.kind, h'.full.trans h.full, h'.M.trans h.M, h'.N.trans h.N, h'.p.trans h.p⟩

theorem Frame.acc {c c' : Cost K} (h : Frame c c') : Accumulates c' ↔ Accumulates c := by
  unfold Accumulates; rw [h.kind, h.full]

theorem Frame.data {d : Dims} {c c' : Cost K} (h : Frame c c') (hd : DataOk d c) : DataOk d c' := by
  unfold DataOk at *; rw [h.kind, h.full, h.M, h.N, h.p]; exact hd

/-- Whether accepted data is full-size is determined by its dimensions. -/
theorem DataOk.unique {d : Dims} {c c' : Cost K} (hs : SameData c c') (h : DataOk d c) (h' : DataOk d c')
    (hk : c.kind ≠ .target) : c'.fullSizeEntry = c.fullSizeEntry := by
  unfold DataOk at h h'
  rw [hs.kind, hs.M, hs.N, hs.p] at h'
  cases hkk : c.kind <;> rw [hkk] at h h' <;> simp only at h h'
  · cases hf : c.fullSizeEntry <;> cases hf' : c'.fullSizeEntry <;> simp [hf, hf'] at h h' ⊢
    · exact h'.2.1 h.2
    · exact h.2.1 h'.2
  · exact absurd hkk hk
  · cases hf : c.fullSizeEntry <;> cases hf' : c'.fullSizeEntry <;> simp [hf, hf'] at h h' ⊢
    · exact h'.2.1 h.2
    · exact h.2.1 h'.2
  · cases hf : c.fullSizeEntry <;> cases hf' : c'.fullSizeEntry <;> simp [hf, hf'] at h h' ⊢
    · exact h'.2.2.1 h.2.2.1 h.2.2.2
    · exact h.2.2.1 h'.2.2.1 h'.2.2.2

theorem init_target_full {junk : Junk K} {ps : PreviewSystem K} {c c1 : Cost K} (hk : c.kind = .target)
    (h : c.initializeCost junk ps = .ok c1) : c1.fullSizeEntry = c.fullSizeEntry := by
  unfold initializeCost at h
  rw [hk] at h
  simp only [initTarget] at h
  split at h
  · cases h
  · split at h
    · cases h
    · cases h; rfl

/-- Re-initialising a registered cost for the same dimensions. -/
theorem reinit_reg {d : Dims} {ps : PreviewSystem K} {c c1 : Cost K} {junk : Junk K} (S : SysShape d ps)
    (hr : Pre d c) (h : c.initializeCost junk ps = .ok c1) : Reg d c1 ∧ Clean d c1 ∧ Frame c c1 := by
  obtain ⟨c2, e, r, cl, hs⟩ := (init_spec junk S hr.wr (Or.inr hr.data)).1 hr.data.fits
  rw [h] at e; cases e
  refine ⟨r, cl, hs.kind, ?_, hs.M, hs.N, hs.p⟩
  by_cases hk : c.kind = .target
  · exact init_target_full hk h
  · exact DataOk.unique hs hr.data r.data hk

theorem Pre.weights {d : Dims} {c : Cost K} (h : Pre d c) {v : Vec K} (hv : v.rows = c.weights.rows) :
    Pre d { c with weights := v } :=
  ⟨hv.trans h.wr, h.data, fun hk => ⟨(h.sizes hk).Qr, (h.sizes hk).Qc, (h.sizes hk).cr, (h.sizes hk).Er, (h.sizes hk).Ec,
    (h.sizes hk).fr⟩, h.off⟩

theorem Reg.weights {d : Dims} {c : Cost K} (h : Reg d c) {v : Vec K} (hv : v.rows = c.weights.rows) :
    Reg d { c with weights := v } :=
  ⟨hv.trans h.wr, h.data, ⟨h.sizes.Qr, h.sizes.Qc, h.sizes.cr, h.sizes.Er, h.sizes.Ec, h.sizes.fr⟩, h.off⟩

theorem Quiet.reg {d : Dims} {c c' : Cost K} (h : Quiet d c c') (hr : Reg d c) :
    Reg d c' ∧ Frame c c' ∧ (Clean d c → Clean d c') ∧
      ((c'.Q = c.Q ∧ c'.E = c.E ∧ c'.f = c.f ∧ c'.c = c.c) ∨ Clean d c') := by
  have span : ∀ {junk}, c.autoSpan junk = .ok c := fun {junk} => autoSpan_rowsAgree junk hr.rowsAgree
  cases h with
  | span h => rw [span] at h; cases h; exact ⟨hr, Frame.refl c, id, Or.inl ⟨rfl, rfl, rfl, rfl⟩⟩
  | spanThrown h => rw [span] at h; cases h
  | weights h =>
    obtain ⟨v, rfl, hv⟩ := setWeights_frame (Or.inl h)
    exact ⟨hr.weights hv, ⟨rfl, rfl, rfl, rfl, rfl⟩, id, Or.inl ⟨rfl, rfl, rfl, rfl⟩⟩
  | weightsThrown h =>
    obtain ⟨v, rfl, hv⟩ := setWeights_frame (Or.inr ⟨_, h⟩)
    exact ⟨hr.weights hv, ⟨rfl, rfl, rfl, rfl, rfl⟩, id, Or.inl ⟨rfl, rfl, rfl, rfl⟩⟩
  | weight => exact ⟨hr.weights rfl, ⟨rfl, rfl, rfl, rfl, rfl⟩, id, Or.inl ⟨rfl, rfl, rfl, rfl⟩⟩
  | reinit hp h =>
    obtain ⟨h1, h2, h3⟩ := reinit_reg hp.shape hr.pre h
    exact ⟨h1, h3, fun _ => h2, Or.inr h2⟩
  | rejected hp h =>
    obtain ⟨c2, e2, _⟩ := (init_spec _ hp.shape hr.wr (Or.inr hr.data)).1 hr.data.fits
    rw [h] at e2; cases e2

theorem Same.frame {c c' : Cost K} (h : Same c c') : Frame c c' := ⟨h.kind, h.full, h.M, h.N, h.p⟩

theorem Step.reg {d : Dims} {c c' : Cost K} (h : Step d c c') (hr : Reg d c) : Reg d c' ∧ Frame c c' := by
  cases h with
  | quiet h => exact ⟨(h.reg hr).1, (h.reg hr).2.1⟩
  | update hp hu =>
    obtain ⟨h1, h2⟩ := (update_ok hr.pre hp.1.shape hp.2.2).of_eq hu
    exact ⟨h1, h2.same.frame⟩

theorem History.reg {d : Dims} {c c' : Cost K} (h : History d c c') (hr : Reg d c) : Reg d c' ∧ Frame c c' := by
  induction h with
  | refl => exact ⟨hr, Frame.refl c⟩
  | tail _ hs ih =>
    obtain ⟨h1, h2⟩ := hs.reg ih.1
    exact ⟨h1, ih.2.trans h2⟩

theorem QuietHistory.reg {d : Dims} {c c' : Cost K} (h : QuietHistory d c c') (hr : Reg d c) (hc : Clean d c) :
    Reg d c' ∧ Frame c c' ∧ Clean d c' := by
  induction h with
  | refl => exact ⟨hr, Frame.refl c, hc⟩
  | tail _ hs ih =>
    obtain ⟨h1, h2, h3, _⟩ := hs.reg ih.1
    exact ⟨h1, ih.2.1.trans h2, h3 ih.2.2⟩

/-- Acceptance of a cost that was never accepted before. -/
theorem init_unreg {d : Dims} {ps : PreviewSystem K} {c c1 : Cost K} {junk : Junk K} (hu : Unreg c)
    (hp : Accepted d ps) (hi : c.initializeCost junk ps = .ok c1) :
    Reg d c1 ∧ Clean d c1 ∧ SameData c c1 := by
  have H := init_spec junk hp.shape hu.2 (Or.inl hu.1)
  by_cases hf : Fits d c
  · obtain ⟨c2, e, h⟩ := H.1 hf
    rw [hi] at e; cases e; exact h
  · obtain ⟨c2, e, h⟩ := H.2 hf
    rw [hi] at e; cases e

/-- The matrices of an updated cost represent the declared cost `D`: with `x_k` the simulated trajectory,
`1/2 U'QU + c'U` is half the declared value up to its value at `U = 0`, and `1/2 U'QU + (E'x + f)'U` is
the same for every initial state `x`. -/
structure CostExact (d : Dims) (ps : PreviewSystem K) (c : Cost K) (D : CostData K) : Prop where
  sizes : c.Q.rows = d.m * d.N ∧ c.Q.cols = d.m * d.N ∧ c.c.rows = d.m * d.N ∧ c.E.rows = d.n ∧
    c.E.cols = d.m * d.N ∧ c.f.rows = d.m * d.N
  value : ∀ U : Nat → K, quadValue (d.m * d.N) c.Q c.c U =
    1 / 2 * (D.value d (sim d ps.A ps.B ps.d ps.x0.e U) U
      - D.value d (sim d ps.A ps.B ps.d ps.x0.e fun _ => 0) fun _ => 0)
  joint : ∀ x U : Nat → K,
    1 / 2 * (∑ i ∈ Finset.range (d.m * d.N), ∑ j ∈ Finset.range (d.m * d.N), U i * c.Q.e i j * U j)
    + (∑ j ∈ Finset.range (d.m * d.N), ((∑ i ∈ Finset.range d.n, c.E.e i j * x i) + c.f.e j) * U j) =
    1 / 2 * (D.value d (sim d ps.A ps.B ps.d x U) U
      - D.value d (sim d ps.A ps.B ps.d x fun _ => 0) fun _ => 0)

/-- Update of a registered cost into which nothing has been accumulated. -/
theorem update_exact {d : Dims} {ps : PreviewSystem K} {c : Cost K} (h2 : (2 : K) ≠ 0) (hr : Reg d c) (hc : Clean d c)
    (hp : Current d ps) :
    ∃ c', c.update ps = some c' ∧ CostExact d ps c' c.userData ∧ Reg d c' ∧ Frame c c' := by
  obtain ⟨c', e, r, u⟩ := update_ok hr.pre hp.1.shape hp.2.2
  have joint : ∀ x U, c'.formValue d x U = 1 / 2 * (c.userData.value d (sim d ps.A ps.B ps.d x U) U
      - c.userData.value d (sim d ps.A ps.B ps.d x fun _ => 0) fun _ => 0) := by
    intro x U
    rw [u.value h2 hr.pre hp.pred x U]
    split
    · next h => rw [formValue_clean hc h, zero_add]
    · rw [zero_add]
  refine ⟨c', e, ⟨⟨r.sizes.Qr, r.sizes.Qc, r.sizes.cr, r.sizes.Er, r.sizes.Ec, r.sizes.fr⟩, ?_, joint⟩,
    r, u.same.frame⟩
  intro U
  rw [← joint ps.x0.e U]
  unfold quadValue formValue
  congr 1
  apply Finset.sum_congr rfl
  intro j hj
  rw [u.lin hc j (Finset.mem_range.1 hj)]

theorem clean_of_not_acc {d : Dims} {c : Cost K} (h : ¬ Accumulates c) : Clean d c := fun h' => absurd h' h

section exact
variable [LinearOrder K] [IsStrictOrderedRing K]

theorem two_ne : (2 : K) ≠ 0 := two_ne_zero

/-- Any accepted cost, first update after acceptance (re-weighting and `autoSpan` in between allowed). -/
theorem first_update_exact {d : Dims} {ps0 ps : PreviewSystem K} {c c1 c2 : Cost K} {junk : Junk K}
    (hu : Unreg c) (h0 : Accepted d ps0) (hi : c.initializeCost junk ps0 = .ok c1) (hh : QuietHistory d c1 c2)
    (hp : Current d ps) :
    ∃ c3, c2.update ps = some c3 ∧ CostExact d ps c3 c2.userData ∧ c2.kind = c.kind ∧ c2.M = c.M ∧ c2.N = c.N ∧
      c2.p = c.p := by
  obtain ⟨r1, cl1, s1⟩ := init_unreg hu h0 hi
  obtain ⟨r2, f2, cl2⟩ := hh.reg r1 cl1
  obtain ⟨c3, e, h, _⟩ := update_exact two_ne r2 cl2 hp
  exact ⟨c3, e, h, f2.kind.trans s1.kind, f2.M.trans s1.M, f2.N.trans s1.N, f2.p.trans s1.p⟩

/-- Any accepted cost that assigns its results, any update. -/
theorem any_update_exact {d : Dims} {ps0 ps : PreviewSystem K} {c c1 c2 : Cost K} {junk : Junk K}
    (hu : Unreg c) (h0 : Accepted d ps0) (hi : c.initializeCost junk ps0 = .ok c1) (hna : ¬ Accumulates c1)
    (hh : History d c1 c2) (hp : Current d ps) :
    ∃ c3, c2.update ps = some c3 ∧ CostExact d ps c3 c2.userData ∧ c2.kind = c.kind ∧ c2.M = c.M ∧ c2.N = c.N ∧
      c2.p = c.p := by
  obtain ⟨r1, _, s1⟩ := init_unreg hu h0 hi
  obtain ⟨r2, f2⟩ := hh.reg r1
  obtain ⟨c3, e, h, _⟩ := update_exact two_ne r2 (clean_of_not_acc (fun h => hna (f2.acc.1 h))) hp
  exact ⟨c3, e, h, f2.kind.trans s1.kind, f2.M.trans s1.M, f2.N.trans s1.N, f2.p.trans s1.p⟩

/-- C22: a `TrajectoryCost(M, p)` after being added and updated once. -/
theorem c22_trajectory_value_exact {d : Dims} {M : Mat K} {p : Vec K} {junk : Junk K}
    {ps0 ps : PreviewSystem K} {c1 c2 : Cost K} (h0 : Accepted d ps0)
    (hi : (mkTrajectory M p).initializeCost junk ps0 = .ok c1) (hh : QuietHistory d c1 c2) (hp : Current d ps) :
    ∃ c3, c2.update ps = some c3 ∧ CostExact d ps c3 (.trajectory M p c2.weights) := by
  obtain ⟨c3, e, h, hk, hM, hN, hp'⟩ := first_update_exact (fresh_unreg (Or.inl ⟨M, p, rfl⟩)) h0 hi hh hp
  refine ⟨c3, e, ?_⟩
  have : c2.userData = .trajectory M p c2.weights := by
    unfold userData; rw [hk, hM, hp']; rfl
  rw [← this]; exact h

/-- C22 (full-size data): exact after any number of updates. -/
theorem c22_trajectory_full_any_update {d : Dims} {M : Mat K} {p : Vec K} {junk : Junk K}
    {ps0 ps : PreviewSystem K} {c1 c2 : Cost K} (h0 : Accepted d ps0) (hfull : M.cols ≠ d.n)
    (hi : (mkTrajectory M p).initializeCost junk ps0 = .ok c1) (hh : History d c1 c2) (hp : Current d ps) :
    ∃ c3, c2.update ps = some c3 ∧ CostExact d ps c3 (.trajectory M p c2.weights) := by
  have hu := fresh_unreg (Or.inl ⟨M, p, rfl⟩ : World.FreshCost (mkTrajectory M p))
  have hna : ¬ Accumulates c1 := by
    obtain ⟨r1, _, s1⟩ := init_unreg hu h0 hi
    have D := r1.data
    unfold DataOk at D
    rw [s1.kind, s1.M, s1.p] at D
    simp only [mkTrajectory, construct] at D
    rintro ⟨_, hf⟩
    rw [hf] at D
    exact hfull (by simpa using D.2)
  obtain ⟨c3, e, h, hk, hM, hN, hp'⟩ := any_update_exact hu h0 hi hna hh hp
  refine ⟨c3, e, ?_⟩
  have : c2.userData = .trajectory M p c2.weights := by
    unfold userData; rw [hk, hM, hp']; rfl
  rw [← this]; exact h

/-- C23: a `TargetCost(M, p)` after any history. -/
theorem c23_target_value_exact {d : Dims} {M : Mat K} {p : Vec K} {junk : Junk K}
    {ps0 ps : PreviewSystem K} {c1 c2 : Cost K} (h0 : Accepted d ps0)
    (hi : (mkTarget M p).initializeCost junk ps0 = .ok c1) (hh : History d c1 c2) (hp : Current d ps) :
    ∃ c3, c2.update ps = some c3 ∧ CostExact d ps c3 (.target M p c2.weights) := by
  have hu := fresh_unreg (Or.inr (Or.inl ⟨M, p, rfl⟩) : World.FreshCost (mkTarget M p))
  have hna : ¬ Accumulates c1 := by
    obtain ⟨_, _, s1⟩ := init_unreg hu h0 hi
    rintro ⟨h, _⟩
    rw [s1.kind] at h
    rcases h with h | h <;> cases h
  obtain ⟨c3, e, h, hk, hM, hN, hp'⟩ := any_update_exact hu h0 hi hna hh hp
  refine ⟨c3, e, ?_⟩
  have : c2.userData = .target M p c2.weights := by
    unfold userData; rw [hk, hM, hp']; rfl
  rw [← this]; exact h

/-- C24: a `ControlCost(N, p)` after any history. -/
theorem c24_control_value_exact {d : Dims} {N : Mat K} {p : Vec K} {junk : Junk K}
    {ps0 ps : PreviewSystem K} {c1 c2 : Cost K} (h0 : Accepted d ps0)
    (hi : (mkControl N p).initializeCost junk ps0 = .ok c1) (hh : History d c1 c2) (hp : Current d ps) :
    ∃ c3, c2.update ps = some c3 ∧ CostExact d ps c3 (.control N p c2.weights) := by
  have hu := fresh_unreg (Or.inr (Or.inr (Or.inl ⟨N, p, rfl⟩)) : World.FreshCost (mkControl N p))
  have hna : ¬ Accumulates c1 := by
    obtain ⟨_, _, s1⟩ := init_unreg hu h0 hi
    rintro ⟨h, _⟩
    rw [s1.kind] at h
    rcases h with h | h <;> cases h
  obtain ⟨c3, e, h, hk, hM, hN, hp'⟩ := any_update_exact hu h0 hi hna hh hp
  refine ⟨c3, e, ?_⟩
  have : c2.userData = .control N p c2.weights := by
    unfold userData; rw [hk, hN, hp']; rfl
  rw [← this]; exact h

/-- C25: a `MixedCost(M, N, p)` after being added and updated once. -/
theorem c25_mixed_value_exact {d : Dims} {M N : Mat K} {p : Vec K} {junk : Junk K}
    {ps0 ps : PreviewSystem K} {c1 c2 : Cost K} (h0 : Accepted d ps0)
    (hi : (mkMixed M N p).initializeCost junk ps0 = .ok c1) (hh : QuietHistory d c1 c2) (hp : Current d ps) :
    ∃ c3, c2.update ps = some c3 ∧ CostExact d ps c3 (.mixed M N p c2.weights) := by
  obtain ⟨c3, e, h, hk, hM, hN, hp'⟩ :=
    first_update_exact (fresh_unreg (Or.inr (Or.inr (Or.inr ⟨M, N, p, rfl⟩)))) h0 hi hh hp
  refine ⟨c3, e, ?_⟩
  have : c2.userData = .mixed M N p c2.weights := by
    unfold userData; rw [hk, hM, hN, hp']; rfl
  rw [← this]; exact h

/-- C25 (full-size data): exact after any number of updates. -/
theorem c25_mixed_full_any_update {d : Dims} {M N : Mat K} {p : Vec K} {junk : Junk K}
    {ps0 ps : PreviewSystem K} {c1 c2 : Cost K} (h0 : Accepted d ps0) (hfull : ¬ (M.cols = d.n ∧ N.cols = d.m))
    (hi : (mkMixed M N p).initializeCost junk ps0 = .ok c1) (hh : History d c1 c2) (hp : Current d ps) :
    ∃ c3, c2.update ps = some c3 ∧ CostExact d ps c3 (.mixed M N p c2.weights) := by
  have hu := fresh_unreg (Or.inr (Or.inr (Or.inr ⟨M, N, p, rfl⟩)) : World.FreshCost (mkMixed M N p))
  have hna : ¬ Accumulates c1 := by
    obtain ⟨r1, _, s1⟩ := init_unreg hu h0 hi
    have D := r1.data
    unfold DataOk at D
    rw [s1.kind, s1.M, s1.N, s1.p] at D
    simp only [mkMixed, construct] at D
    rintro ⟨_, hf⟩
    rw [hf] at D
    exact hfull (by simpa using D.2.2)
  obtain ⟨c3, e, h, hk, hM, hN, hp'⟩ := any_update_exact hu h0 hi hna hh hp
  refine ⟨c3, e, ?_⟩
  have : c2.userData = .mixed M N p c2.weights := by
    unfold userData; rw [hk, hM, hN, hp']; rfl
  rw [← this]; exact h

/-! ## C26 -/

/-- Nonnegative weights. -/
def NonnegW (c : Cost K) : Prop := ∀ r < c.weights.rows, 0 ≤ c.weights.e r

theorem PSD.sum {n s : Nat} {Q : Mat K} {F : Nat → Nat → Nat → K} (R : Nat) (w : Nat → K) (A : Nat → Nat → Nat → K)
    (hF : ∀ k, F k = eE R w (A k) (A k)) {g : Nat → Nat → K} (hg : PSD n ⟨n, n, g⟩)
    (hw : ∀ r < R, 0 ≤ w r)
    (hQ : ∀ a < n, ∀ b < n, Q.e a b = g a b + ∑ k ∈ Finset.range s, F k a b) : PSD n Q := by
  constructor
  · intro i hi j hj
    rw [hQ i hi j hj, hQ j hj i hi, show g i j = g j i from hg.1 i hi j hj]
    congr 1
    apply Finset.sum_congr rfl; intro k _
    rw [hF]; unfold eE
    apply Finset.sum_congr rfl; intro r _
    ring
  · intro x
    have e : ∑ i ∈ Finset.range n, ∑ j ∈ Finset.range n, x i * Q.e i j * x j =
        (∑ i ∈ Finset.range n, ∑ j ∈ Finset.range n, x i * g i j * x j) +
        ∑ k ∈ Finset.range s, ∑ i ∈ Finset.range n, ∑ j ∈ Finset.range n, x i * eE R w (A k) (A k) i j * x j := by
      have : ∀ i ∈ Finset.range n, ∀ j ∈ Finset.range n, x i * Q.e i j * x j =
          x i * g i j * x j + ∑ k ∈ Finset.range s, x i * eE R w (A k) (A k) i j * x j := by
        intro i hi j hj
        rw [hQ i (Finset.mem_range.1 hi) j (Finset.mem_range.1 hj), mul_add, add_mul, Finset.mul_sum, Finset.sum_mul]
        simp only [hF]
      rw [Finset.sum_congr rfl fun i hi => Finset.sum_congr rfl fun j hj => this i hi j hj]
      simp only [Finset.sum_add_distrib]
      congr 1
      symm
      rw [Finset.sum_comm]
      apply Finset.sum_congr rfl; intro i _
      rw [Finset.sum_comm]
    rw [e]
    apply add_nonneg (hg.2 x)
    apply Finset.sum_nonneg; intro k _
    rw [quad_eE]
    apply Finset.sum_nonneg; intro r hr
    rw [mul_assoc]
    exact mul_nonneg (hw r (Finset.mem_range.1 hr)) (mul_self_nonneg _)

theorem PSD.zero {n : Nat} {Q : Mat K} (h : ∀ a < n, ∀ b < n, Q.e a b = 0) : PSD n Q := by
  constructor
  · intro i hi j hj; rw [h i hi j hj, h j hj i hi]
  · intro x
    apply le_of_eq
    symm
    apply Finset.sum_eq_zero; intro i hi
    apply Finset.sum_eq_zero; intro j hj
    rw [h i (Finset.mem_range.1 hi) j (Finset.mem_range.1 hj), mul_zero, zero_mul]

/-- One update keeps the Hessian positive semidefinite. -/
theorem Updated.psd {d : Dims} {ps : PreviewSystem K} {c c' : Cost K} (hr : Pre d c) (hu : Updated d ps c c')
    (hw : NonnegW c) (h : Accumulates c → PSD (d.m * d.N) c.Q) : PSD (d.m * d.N) c'.Q := by
  classical
  apply PSD.sum (s := c.steps d) c.p.rows c.weights.e (c.T d ps) (fun k => rfl)
    (g := fun a b => if Accumulates c then c.Q.e a b else 0)
  · by_cases ha : Accumulates c
    · simp only [if_pos ha]; exact h ha
    · simp only [if_neg ha]; exact PSD.zero (fun _ _ _ _ => rfl)
  · intro r hr'; exact hw r (by rw [hr.wr]; exact hr')
  · exact hu.Q

/-- A history in which the weights are nonnegative at every moment. -/
def NonnegHistory (d : Dims) : Cost K → Cost K → Prop :=
  Relation.ReflTransGen (fun c c' => Step d c c' ∧ NonnegW c')

theorem NonnegHistory.psd {d : Dims} {c c' : Cost K} (h : NonnegHistory d c c') (hr : Reg d c) (hc : Clean d c)
    (hw : NonnegW c) : Reg d c' ∧ NonnegW c' ∧ (Accumulates c' → PSD (d.m * d.N) c'.Q) := by
  induction h with
  | refl => exact ⟨hr, hw, fun ha => PSD.zero (hc ha).1⟩
  | tail _ hs ih =>
    obtain ⟨r, w, p⟩ := ih
    refine ⟨(hs.1.reg r).1, hs.2, ?_⟩
    intro ha
    cases hs.1 with
    | quiet hq =>
      obtain ⟨_, f, _, h4⟩ := hq.reg r
      rcases h4 with h4 | h4
      · rw [h4.1]; exact p (f.acc.1 ha)
      · exact PSD.zero (h4 ha).1
    | update hp hu =>
      obtain ⟨_, h2⟩ := (update_ok r.pre hp.1.shape hp.2.2).of_eq hu
      exact h2.psd r.pre w p

/-- C26: with nonnegative weights, every update of every cost gives a positive semidefinite Hessian,
whatever happened since the cost was accepted. -/
theorem c26_costs_convex {d : Dims} {ps0 ps : PreviewSystem K} {c c1 c2 : Cost K} {junk : Junk K}
    (hu : Unreg c) (h0 : Accepted d ps0) (hi : c.initializeCost junk ps0 = .ok c1) (hw : NonnegW c)
    (hh : NonnegHistory d c1 c2) (hp : Current d ps) :
    ∃ c3, c2.update ps = some c3 ∧ PSD (d.m * d.N) c3.Q := by
  obtain ⟨r1, cl1, s1⟩ := init_unreg hu h0 hi
  obtain ⟨r2, w2, p2⟩ := hh.psd r1 cl1 (by unfold NonnegW; rw [s1.weights]; exact hw)
  obtain ⟨c3, e, _, u⟩ := update_ok r2.pre hp.1.shape hp.2.2
  exact ⟨c3, e, u.psd r2.pre w2 p2⟩

end exact

/-! ## C28 -/

/-- C28 (`weights`): accepted sizes and the resulting weights. -/
theorem c28_weights (c : Cost K) (v : Vec K) :
    (∀ s, 0 < v.rows → c.weights.rows = s * v.rows → ∃ c', c.setWeights v = .ok c' ∧
      c'.weights.rows = c.weights.rows ∧ (∀ k < s, ∀ r < v.rows, c'.weights.e (k * v.rows + r) = v.e r) ∧
      c' = { c with weights := c'.weights }) ∧
    (0 < v.rows → ¬ v.rows ∣ c.weights.rows → c.setWeights v = .thrown .domainError c) ∧
    (v.rows = 0 → c.weights.rows = 0 → c.setWeights v = .ok { c with weights := v }) ∧
    (v.rows = 0 → c.weights.rows ≠ 0 → c.setWeights v = .ub) := by
  obtain ⟨h1, h2, h3, h4⟩ := setWeights_cases c v
  refine ⟨?_, h4, fun a b => h1 (a.trans b.symm), h3⟩
  intro s h0 hs
  obtain ⟨w, e, w1, w2⟩ := h2 s h0 hs
  exact ⟨_, e, w1, w2, rfl⟩

end Cost
end Copra
