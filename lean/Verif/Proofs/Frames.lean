import Verif.Proofs.CostHist

/-! # What the operations on constraints and costs never change, whatever the system -/

namespace Copra
open Spec

set_option linter.unusedSectionVars false
set_option linter.unusedSimpArgs false

variable {K σ α : Type} [Field K]

/-- Partial correctness of `foldlM` for a reflexive transitive relation. -/
theorem foldlM_rel {R : σ → σ → Prop} (hr : ∀ s, R s s) (ht : ∀ {a b c}, R a b → R b c → R a c)
    {f : σ → α → Option σ} (hf : ∀ s a s', f s a = some s' → R s s') :
    ∀ (l : List α) {s s' : σ}, l.foldlM f s = some s' → R s s' := by
  intro l
  induction l with
  | nil => intro s s' h; simp only [List.foldlM_nil, Option.pure_def, Option.some.injEq] at h; rw [← h]; exact hr s
  | cons a l ih =>
    intro s s' h
    rw [List.foldlM_cons, Option.bind_eq_bind, Option.bind_eq_some_iff] at h
    obtain ⟨s1, h1, h2⟩ := h
    exact ht (hf _ _ _ h1) (ih h2)

/-- Partial correctness of `loop` for a reflexive transitive relation. -/
theorem loop_rel {R : σ → σ → Prop} (hr : ∀ s, R s s) (ht : ∀ {a b c}, R a b → R b c → R a c)
    {f : Nat → σ → Option σ} (hf : ∀ i s s', f i s = some s' → R s s') {a b : Nat} {s s' : σ}
    (h : loop a b f s = some s') : R s s' :=
  foldlM_rel hr ht (fun s i s' h => hf i s s' h) _ h

namespace Constr

/-- The data members that `update` never writes. -/
structure Keeps (c c' : Constr K) : Prop where
  kind : c'.kind = c.kind
  isIneq : c'.isIneq = c.isIneq
  nr : c'.nrConstr = c.nrConstr
  full : c'.fullSizeEntry = c.fullSizeEntry
  hbi : c'.hasBeenInitialized = c.hasBeenInitialized
  E : c'.E = c.E
  G : c'.G = c.G
  f : c'.f = c.f
  lower : c'.lower = c.lower
  upper : c'.upper = c.upper
  lowerLines : c'.lowerLines = c.lowerLines
  upperLines : c'.upperLines = c.upperLines

theorem Keeps.refl (c : Constr K) : Keeps c c := ⟨rfl, rfl, rfl, rfl, rfl, rfl, rfl, rfl, rfl, rfl, rfl, rfl⟩

theorem Keeps.trans {a b c : Constr K} (h : Keeps a b) (g : Keeps b c) : Keeps a c :=
  ⟨g.kind.trans h.kind, g.isIneq.trans h.isIneq, g.nr.trans h.nr, g.full.trans h.full, g.hbi.trans h.hbi,
    g.E.trans h.E, g.G.trans h.G, g.f.trans h.f, g.lower.trans h.lower, g.upper.trans h.upper,
    g.lowerLines.trans h.lowerLines, g.upperLines.trans h.upperLines⟩

theorem updateFullYzb_keeps {ps : PreviewSystem K} {c c' : Constr K} (h : c.updateFullYzb ps = some c') :
    Keeps c c' := by
  unfold updateFullYzb at h
  simp only [Option.bind_eq_bind, Option.bind_eq_some_iff, Option.pure_def, Option.some.injEq] at h
  obtain ⟨_, _, _, _, _, _, _, _, _, _, rfl⟩ := h
  exact ⟨rfl, rfl, rfl, rfl, rfl, rfl, rfl, rfl, rfl, rfl, rfl, rfl⟩

theorem updateStepYzb_keeps {ps : PreviewSystem K} {i : Nat} {c c' : Constr K}
    (h : c.updateStepYzb ps i = some c') : Keeps c c' := by
  unfold updateStepYzb at h
  simp only [Option.bind_eq_bind, Option.bind_eq_some_iff, Option.pure_def, Option.some.injEq] at h
  obtain ⟨_, _, _, _, _, _, _, _, _, _, _, _, _, _, _, _, _, _, _, _, _, _, _, _, rfl⟩ := h
  exact ⟨rfl, rfl, rfl, rfl, rfl, rfl, rfl, rfl, rfl, rfl, rfl, rfl⟩

theorem Keeps.setA {c c' : Constr K} {A : Mat K} (h : Keeps { c with A := A } c') : Keeps c c' :=
  ⟨h.kind, h.isIneq, h.nr, h.full, h.hbi, h.E, h.G, h.f, h.lower, h.upper, h.lowerLines, h.upperLines⟩

/-- `update` never writes the declared data, whatever the system. -/
theorem update_keeps {ps : PreviewSystem K} {c c' : Constr K} (h : c.update ps = some c') : Keeps c c' := by
  unfold update at h
  cases hk : c.kind <;> rw [hk] at h <;> simp only at h
  · unfold updateTrajectory at h
    split at h
    · simp only [Option.bind_eq_bind, Option.bind_eq_some_iff] at h
      obtain ⟨A, _, h⟩ := h
      exact (updateFullYzb_keeps h).setA
    · refine loop_rel Keeps.refl Keeps.trans ?_ h
      intro i s s' h
      unfold updateTrajectoryStep at h
      simp only [Option.bind_eq_bind, Option.bind_eq_some_iff] at h
      obtain ⟨_, _, _, _, A, _, h⟩ := h
      exact (updateStepYzb_keeps h).setA
  · unfold updateControl at h
    split at h
    · cases h; exact Keeps.refl _
    · simp only [Option.bind_eq_bind, Option.bind_eq_some_iff, Option.pure_def, Option.some.injEq] at h
      obtain ⟨c1, h, rfl⟩ := h
      have : Keeps c c1 := by
        refine loop_rel Keeps.refl Keeps.trans ?_ h
        intro i s s' h
        unfold updateControlStep at h
        simp only [Option.bind_eq_bind, Option.bind_eq_some_iff, Option.pure_def, Option.some.injEq] at h
        obtain ⟨_, _, _, _, rfl⟩ := h
        exact ⟨rfl, rfl, rfl, rfl, rfl, rfl, rfl, rfl, rfl, rfl, rfl, rfl⟩
      exact ⟨this.kind, this.isIneq, this.nr, this.full, this.hbi, this.E, this.G, this.f, this.lower, this.upper,
        this.lowerLines, this.upperLines⟩
  · unfold updateMixed at h
    split at h
    · simp only [Option.bind_eq_bind, Option.bind_eq_some_iff] at h
      obtain ⟨_, _, A, _, h⟩ := h
      exact (updateFullYzb_keeps h).setA
    · simp only [Option.bind_eq_bind, Option.bind_eq_some_iff] at h
      obtain ⟨c1, h1, h⟩ := h
      have k1 : Keeps c c1 := by
        unfold updateMixedFirst at h1
        simp only [Option.bind_eq_bind, Option.bind_eq_some_iff, Option.pure_def, Option.some.injEq] at h1
        obtain ⟨_, _, _, _, _, _, _, _, _, _, _, _, _, _, _, _, rfl⟩ := h1
        exact ⟨rfl, rfl, rfl, rfl, rfl, rfl, rfl, rfl, rfl, rfl, rfl, rfl⟩
      refine k1.trans (loop_rel Keeps.refl Keeps.trans ?_ h)
      intro i s s' h
      unfold updateMixedStep at h
      simp only [Option.bind_eq_bind, Option.bind_eq_some_iff] at h
      obtain ⟨_, _, _, _, _, _, A, _, h⟩ := h
      exact (updateStepYzb_keeps h).setA
  · unfold updateTrajBound at h
    simp only [Option.bind_eq_bind, Option.bind_eq_some_iff, Option.pure_def, Option.some.injEq] at h
    obtain ⟨s1, h1, s2, h2, rfl⟩ := h
    have key : ∀ (bound : Vec (Ext K)) (lines : List Nat) (n : Nat) (s s' : Nat × Constr K),
        loop 0 n (updateTrajBoundLines ps bound lines) s = some s' → Keeps s.2 s'.2 := by
      intro bound lines n s s' h
      refine loop_rel (R := fun s s' => Keeps s.2 s'.2) (fun s => Keeps.refl s.2) Keeps.trans ?_ h
      intro i s s' h
      unfold updateTrajBoundLines at h
      refine foldlM_rel (R := fun s s' => Keeps s.2 s'.2) (fun s => Keeps.refl s.2) Keeps.trans ?_ _ h
      intro s a s' h
      unfold updateTrajBoundLine at h
      simp only [Option.bind_eq_bind, Option.bind_eq_some_iff, Option.pure_def, Option.some.injEq] at h
      obtain ⟨_, _, _, _, _, _, _, _, _, _, _, _, _, _, _, _, _, _, _, _, _, _, rfl⟩ := h
      exact ⟨rfl, rfl, rfl, rfl, rfl, rfl, rfl, rfl, rfl, rfl, rfl, rfl⟩
    exact (key _ _ _ _ _ h1).trans (key _ _ _ _ _ h2)
  · unfold updateCtrlBound at h
    split at h
    · cases h; exact Keeps.refl _
    · refine loop_rel Keeps.refl Keeps.trans ?_ h
      intro i s s' h
      unfold updateCtrlBoundStep at h
      simp only [Option.bind_eq_bind, Option.bind_eq_some_iff, Option.pure_def, Option.some.injEq] at h
      obtain ⟨_, _, _, _, rfl⟩ := h
      exact ⟨rfl, rfl, rfl, rfl, rfl, rfl, rfl, rfl, rfl, rfl, rfl, rfl⟩

/-- `initializeConstraint` for any system: the class and kind stay, and control (bound) constraints are
marked as used. -/
theorem init_any {junk : Junk K} {ps : PreviewSystem K} {c c' : Constr K}
    (h : c.initializeConstraint junk ps = .ok c') :
    c'.kind = c.kind ∧ c'.isIneq = c.isIneq ∧ (c.hasBeenInitialized = true → c'.hasBeenInitialized = true) ∧
    (Once c → c.hasBeenInitialized = false ∧ c'.hasBeenInitialized = true) := by
  unfold initializeConstraint at h
  unfold Once
  cases hk : c.kind <;> rw [hk] at h <;> simp only at h
  · unfold initTrajectory at h
    split_ifs at h
    all_goals
      simp only [Res.ofOption_ok, allocRows, Option.bind_eq_bind, Option.bind_eq_some_iff, chkInt_eq,
        Option.pure_def, Option.some.injEq] at h
      obtain ⟨_, ⟨_, rfl⟩, rfl⟩ := h
      exact ⟨hk, rfl, id, fun h => by simp at h⟩
  · unfold initControl at h
    split_ifs at h with h1
    all_goals
      simp only [Res.ofOption_ok, Option.bind_eq_bind, Option.bind_eq_some_iff, chkInt_eq,
        Option.pure_def, Option.some.injEq] at h
      obtain ⟨_, ⟨_, rfl⟩, rfl⟩ := h
      exact ⟨hk, rfl, fun _ => rfl, fun _ => ⟨by simpa using h1, rfl⟩⟩
  · unfold initMixed at h
    split_ifs at h
    all_goals
      simp only [Res.ofOption_ok, allocRows, Option.bind_eq_bind, Option.bind_eq_some_iff, chkInt_eq,
        Option.pure_def, Option.some.injEq] at h
      obtain ⟨_, ⟨_, ⟨_, rfl⟩, rfl⟩, rfl⟩ := h
      exact ⟨hk, rfl, id, fun h => by simp at h⟩
  · unfold initTrajBound at h
    split_ifs at h
    all_goals
      simp only [Res.ofOption_ok, allocRows, Option.bind_eq_bind, Option.bind_eq_some_iff, chkInt_eq,
        Option.pure_def, Option.some.injEq] at h
      obtain ⟨_, ⟨_, rfl⟩, rfl⟩ := h
      exact ⟨hk, rfl, id, fun h => by simp at h⟩
  · unfold initCtrlBound at h
    split_ifs at h with h1
    · cases h
      exact ⟨hk, rfl, fun _ => rfl, fun _ => ⟨by simpa using h1, rfl⟩⟩
    · simp only [Res.ofOption_ok, Option.bind_eq_bind, Option.bind_eq_some_iff, chkInt_eq,
        Option.pure_def, Option.some.injEq] at h
      obtain ⟨_, ⟨_, rfl⟩, rfl⟩ := h
      exact ⟨hk, rfl, fun _ => rfl, fun _ => ⟨by simpa using h1, rfl⟩⟩

/-- A used control (bound) constraint is refused by every system. -/
theorem init_used {junk : Junk K} {ps : PreviewSystem K} {c : Constr K} (ho : Once c)
    (hb : c.hasBeenInitialized = true) : c.initializeConstraint junk ps = .thrown .runtimeError c := by
  unfold initializeConstraint
  rcases ho with hk | hk <;> rw [hk] <;> simp only
  · unfold initControl; rw [if_pos hb]
  · unfold initCtrlBound; rw [if_pos hb]

/-- What never changes in the life of a constraint object, and the one-way flag. -/
structure Ident (c c' : Constr K) : Prop where
  kind : c'.kind = c.kind
  isIneq : c'.isIneq = c.isIneq
  used : c.hasBeenInitialized = true → c'.hasBeenInitialized = true

theorem Ident.refl (c : Constr K) : Ident c c := ⟨rfl, rfl, id⟩

theorem Ident.trans {a b c : Constr K} (h : Ident a b) (g : Ident b c) : Ident a c :=
  ⟨g.kind.trans h.kind, g.isIneq.trans h.isIneq, g.used ∘ h.used⟩

theorem Ident.type {c c' : Constr K} (h : Ident c c') : c'.constraintType = c.constraintType := by
  unfold constraintType; rw [h.kind, h.isIneq]

theorem Keeps.ident {c c' : Constr K} (h : Keeps c c') : Ident c c' := ⟨h.kind, h.isIneq, fun x => h.hbi.trans x⟩

theorem SpanFrame.ident {c c' : Constr K} (h : SpanFrame c c') : Ident c c' := ⟨h.kind, h.isIneq, fun x => h.hbi.trans x⟩

theorem init_ident {junk : Junk K} {ps : PreviewSystem K} {c c' : Constr K}
    (h : c.initializeConstraint junk ps = .ok c') : Ident c c' :=
  ⟨(init_any h).1, (init_any h).2.1, (init_any h).2.2.1⟩

end Constr

namespace Cost

theorem assignTerms_same {ps : PreviewSystem K} {c c' : Cost K} {tmp Phi : Mat K} {xi : Vec K}
    (h : c.assignTerms ps tmp Phi xi = some c') : Same c c' := by
  unfold assignTerms at h
  simp only [Option.bind_eq_bind, Option.bind_eq_some_iff, Option.pure_def, Option.some.injEq] at h
  obtain ⟨_, _, _, _, rfl⟩ := h
  rfl

theorem accumTerms_same {c c' : Cost K} {tmp Phi : Mat K} {xi : Vec K}
    (h : c.accumTerms tmp Phi xi = some c') : Same c c' := by
  unfold accumTerms at h
  simp only [Option.bind_eq_bind, Option.bind_eq_some_iff, Option.pure_def, Option.some.injEq] at h
  obtain ⟨_, _, _, _, _, _, _, _, rfl⟩ := h
  rfl

/-- `update` writes nothing but `Q_`, `c_`, `E_`, `f_`, whatever the system. -/
theorem update_same {ps : PreviewSystem K} {c c' : Cost K} (h : c.update ps = some c') : Same c c' := by
  unfold update at h
  cases hk : c.kind <;> rw [hk] at h <;> simp only at h
  · unfold updateTrajectory at h
    split at h
    · simp only [Option.bind_eq_bind, Option.bind_eq_some_iff] at h
      obtain ⟨_, _, h⟩ := h
      exact assignTerms_same h
    · simp only [Option.bind_eq_bind, Option.bind_eq_some_iff, Option.pure_def, Option.some.injEq] at h
      obtain ⟨c1, h1, _, _, rfl⟩ := h
      have : Same c c1 := by
        refine loop_rel Same.refl Same.trans ?_ h1
        intro i s s' h
        unfold updateTrajectoryStep at h
        simp only [Option.bind_eq_bind, Option.bind_eq_some_iff] at h
        obtain ⟨_, _, _, _, _, _, _, _, h⟩ := h
        exact accumTerms_same h
      exact this.trans rfl
  · unfold updateTarget at h
    simp only [Option.bind_eq_bind, Option.bind_eq_some_iff] at h
    obtain ⟨_, _, _, _, _, _, _, _, h⟩ := h
    exact assignTerms_same h
  · unfold updateControl at h
    split at h
    · simp only [Option.bind_eq_bind, Option.bind_eq_some_iff, Option.pure_def, Option.some.injEq] at h
      obtain ⟨_, _, _, _, rfl⟩ := h
      rfl
    · simp only [Option.bind_eq_bind, Option.bind_eq_some_iff] at h
      obtain ⟨_, _, _, _, h⟩ := h
      refine loop_rel Same.refl Same.trans ?_ h
      intro i s s' h
      unfold updateControlStep at h
      simp only [Option.bind_eq_bind, Option.bind_eq_some_iff, Option.pure_def, Option.some.injEq] at h
      obtain ⟨_, _, _, _, _, _, _, _, _, _, rfl⟩ := h
      rfl
  · unfold updateMixed at h
    split at h
    · simp only [Option.bind_eq_bind, Option.bind_eq_some_iff] at h
      obtain ⟨_, _, _, _, h⟩ := h
      exact assignTerms_same h
    · simp only [Option.bind_eq_bind, Option.bind_eq_some_iff, Option.pure_def, Option.some.injEq] at h
      obtain ⟨c1, h1, _, _, _, _, rfl⟩ := h
      have : Same c c1 := by
        refine loop_rel Same.refl Same.trans ?_ h1
        intro i s s' h
        unfold updateMixedStep at h
        simp only [Option.bind_eq_bind, Option.bind_eq_some_iff] at h
        obtain ⟨_, _, _, _, _, _, _, _, _, _, h⟩ := h
        exact accumTerms_same h
      exact this.trans rfl

end Cost
end Copra
