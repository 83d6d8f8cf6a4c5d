import Verif.Props.Registry
import Verif.Proofs.Mask
import Verif.Props.System

/-! # C54: changing the dimensions of the system -/

namespace Copra
open Spec

set_option linter.unusedSectionVars false
set_option linter.unusedSimpArgs false

variable {K σ α : Type} [Field K] [LinearOrder K] [IsStrictOrderedRing K]

/-! ## Sizes that an update keeps, whatever the system -/

theorem Mat.setBlock?_dims {A S B : Mat K} {i j m n : Nat} (h : A.setBlock? i j m n S = some B) :
    B.rows = A.rows ∧ B.cols = A.cols := by
  unfold Mat.setBlock? at h
  split at h
  · cases h; exact ⟨rfl, rfl⟩
  · cases h

theorem Mat.setRow?_dims {A B : Mat K} {v : Vec K} {i : Nat} (h : A.setRow? i v = some B) :
    B.rows = A.rows ∧ B.cols = A.cols := by
  unfold Mat.setRow? at h
  split at h
  · cases h; exact ⟨rfl, rfl⟩
  · cases h

theorem Mat.add?_dims {A S B : Mat K} (h : A.add? S = some B) :
    B.rows = A.rows ∧ B.cols = A.cols ∧ S.rows = A.rows ∧ S.cols = A.cols := by
  unfold Mat.add? at h
  split at h
  · next e => cases h; exact ⟨rfl, rfl, e.1.symm, e.2.symm⟩
  · cases h

theorem foldlM_mem {I : σ → Prop} {f : σ → α → Option σ} (hf : ∀ s a s', I s → f s a = some s' → I s') :
    ∀ (L : List α) {s s' : σ}, I s → L.foldlM f s = some s' → ∀ a ∈ L, ∃ t t', I t ∧ f t a = some t' := by
  intro L
  induction L with
  | nil => intro s s' _ _ a ha; cases ha
  | cons b L ih =>
    intro s s' hI h a ha
    rw [List.foldlM_cons, Option.bind_eq_bind, Option.bind_eq_some_iff] at h
    obtain ⟨s1, h1, h2⟩ := h
    rcases List.mem_cons.1 ha with rfl | ha
    · exact ⟨s, s1, hI, h1⟩
    · exact ih (hf _ _ _ hI h1) h2 a ha

namespace Constr

/-- The rows were allocated by `initializeConstraint`. -/
def Sized (c : Constr K) : Prop := c.kind ≠ .ctrlBound ∧ (c.kind = .trajBound ∨ c.fullSizeEntry = false)

theorem updateStepYzb_A {ps : PreviewSystem K} {i : Nat} {c c' : Constr K}
    (h : c.updateStepYzb ps i = some c') : c'.A = c.A := by
  unfold updateStepYzb at h
  simp only [Option.bind_eq_bind, Option.bind_eq_some_iff, Option.pure_def, Option.some.injEq] at h
  obtain ⟨_, _, _, _, _, _, _, _, _, _, _, _, _, _, _, _, _, _, _, _, _, _, _, _, rfl⟩ := h
  rfl

theorem update_cols {ps : PreviewSystem K} {c c' : Constr K} (h : c.update ps = some c') (hs : Sized c) :
    c'.A.cols = c.A.cols := by
  obtain ⟨hb, hs⟩ := hs
  unfold update at h
  cases hk : c.kind <;> rw [hk] at h <;> simp only at h
  · have hs : c.fullSizeEntry = false := by rcases hs with e | e; · rw [hk] at e; cases e
                                            · exact e
    unfold updateTrajectory at h
    rw [hs, if_neg (by decide)] at h
    refine loop_rel (R := fun a b : Constr K => b.A.cols = a.A.cols) (fun _ => rfl) (fun a b => b.trans a) ?_ h
    intro i s s' h
    unfold updateTrajectoryStep at h
    simp only [Option.bind_eq_bind, Option.bind_eq_some_iff] at h
    obtain ⟨_, _, _, _, A, hA, h⟩ := h
    rw [updateStepYzb_A h]; exact (Mat.setBlock?_dims hA).2
  · have hs : c.fullSizeEntry = false := by rcases hs with e | e; · rw [hk] at e; cases e
                                            · exact e
    unfold updateControl at h
    rw [hs, if_neg (by decide)] at h
    simp only [Option.bind_eq_bind, Option.bind_eq_some_iff, Option.pure_def, Option.some.injEq] at h
    obtain ⟨c1, h, rfl⟩ := h
    show c1.A.cols = _
    refine loop_rel (R := fun a b : Constr K => b.A.cols = a.A.cols) (fun _ => rfl) (fun a b => b.trans a) ?_ h
    intro i s s' h
    unfold updateControlStep at h
    simp only [Option.bind_eq_bind, Option.bind_eq_some_iff, Option.pure_def, Option.some.injEq] at h
    obtain ⟨A, hA, _, _, rfl⟩ := h
    exact (Mat.setBlock?_dims hA).2
  · have hs : c.fullSizeEntry = false := by rcases hs with e | e; · rw [hk] at e; cases e
                                            · exact e
    unfold updateMixed at h
    rw [hs, if_neg (by decide)] at h
    simp only [Option.bind_eq_bind, Option.bind_eq_some_iff] at h
    obtain ⟨c1, h1, h⟩ := h
    have k1 : c1.A.cols = c.A.cols := by
      unfold updateMixedFirst at h1
      simp only [Option.bind_eq_bind, Option.bind_eq_some_iff, Option.pure_def, Option.some.injEq] at h1
      obtain ⟨A, hA, _, _, _, _, _, _, _, _, _, _, _, _, _, _, rfl⟩ := h1
      exact (Mat.setBlock?_dims hA).2
    rw [← k1]
    refine loop_rel (R := fun a b : Constr K => b.A.cols = a.A.cols) (fun _ => rfl) (fun a b => b.trans a) ?_ h
    intro i s s' h
    unfold updateMixedStep at h
    simp only [Option.bind_eq_bind, Option.bind_eq_some_iff] at h
    obtain ⟨_, _, _, _, A0, hA0, A, hA, h⟩ := h
    rw [updateStepYzb_A h]
    refine Eq.trans ?_ (Mat.setBlock?_dims hA0).2
    refine loop_rel (R := fun a b : Mat K => b.cols = a.cols) (fun _ => rfl) (fun a b => b.trans a) ?_ hA
    intro j s s' h
    unfold updateMixedShift at h
    simp only [Option.bind_eq_bind, Option.bind_eq_some_iff] at h
    obtain ⟨_, _, h⟩ := h
    exact (Mat.setBlock?_dims h).2
  · unfold updateTrajBound at h
    simp only [Option.bind_eq_bind, Option.bind_eq_some_iff, Option.pure_def, Option.some.injEq] at h
    obtain ⟨s1, h1, s2, h2, rfl⟩ := h
    have key : ∀ (bound : Vec (Ext K)) (lines : List Nat) (n : Nat) (s s' : Nat × Constr K),
        loop 0 n (updateTrajBoundLines ps bound lines) s = some s' → s'.2.A.cols = s.2.A.cols := by
      intro bound lines n s s' h
      refine loop_rel (R := fun s s' : Nat × Constr K => s'.2.A.cols = s.2.A.cols) (fun s => rfl) (fun a b => b.trans a) ?_ h
      intro i s s' h
      unfold updateTrajBoundLines at h
      refine foldlM_rel (R := fun s s' : Nat × Constr K => s'.2.A.cols = s.2.A.cols) (fun s => rfl)
        (fun a b => b.trans a) ?_ _ h
      intro s a s' h
      unfold updateTrajBoundLine at h
      simp only [Option.bind_eq_bind, Option.bind_eq_some_iff, Option.pure_def, Option.some.injEq] at h
      obtain ⟨_, _, A, hA, _, _, _, _, _, _, _, _, _, _, _, _, _, _, _, _, _, _, rfl⟩ := h
      exact (Mat.setRow?_dims hA).2
    exact (key _ _ _ _ _ h2).trans (key _ _ _ _ _ h1)
  · exact absurd hk hb

/-- What happens to all constraints in the constraint loop of a solve. -/
def Kept (c c' : Constr K) : Prop := Keeps c c' ∧ (Sized c → c'.A.cols = c.A.cols)

theorem Kept.refl (c : Constr K) : Kept c c := ⟨Keeps.refl c, fun _ => rfl⟩

theorem Kept.trans {a b c : Constr K} (h : Kept a b) (g : Kept b c) : Kept a c :=
  ⟨h.1.trans g.1, fun s => (g.2 ⟨by rw [h.1.kind]; exact s.1, by rw [h.1.kind, h.1.full]; exact s.2⟩).trans (h.2 s)⟩

end Constr

namespace Cost

/-- The Hessian was allocated by `initializeCost`. -/
def Sized (c : Cost K) : Prop := c.kind ≠ .target ∧ c.fullSizeEntry = false

theorem accumTerms_rows {c c' : Cost K} {tmp Phi : Mat K} {xi : Vec K}
    (h : c.accumTerms tmp Phi xi = some c') : c'.Q.rows = c.Q.rows := by
  unfold accumTerms at h
  simp only [Option.bind_eq_bind, Option.bind_eq_some_iff, Option.pure_def, Option.some.injEq] at h
  obtain ⟨_, _, Q, hQ, _, _, _, _, rfl⟩ := h
  exact (Mat.add?_dims hQ).1

theorem update_rows {ps : PreviewSystem K} {c c' : Cost K} (h : c.update ps = some c') (hs : Sized c) :
    c'.Q.rows = c.Q.rows := by
  obtain ⟨ht, hs⟩ := hs
  unfold update at h
  cases hk : c.kind <;> rw [hk] at h <;> simp only at h
  · unfold updateTrajectory at h
    rw [hs, if_neg (by decide)] at h
    simp only [Option.bind_eq_bind, Option.bind_eq_some_iff, Option.pure_def, Option.some.injEq] at h
    obtain ⟨c1, h1, _, _, rfl⟩ := h
    show c1.Q.rows = _
    refine loop_rel (R := fun a b : Cost K => b.Q.rows = a.Q.rows) (fun _ => rfl) (fun a b => b.trans a) ?_ h1
    intro i s s' h
    unfold updateTrajectoryStep at h
    simp only [Option.bind_eq_bind, Option.bind_eq_some_iff] at h
    obtain ⟨_, _, _, _, _, _, _, _, h⟩ := h
    exact accumTerms_rows h
  · exact absurd hk ht
  · unfold updateControl at h
    rw [hs, if_neg (by decide)] at h
    simp only [Option.bind_eq_bind, Option.bind_eq_some_iff] at h
    obtain ⟨_, _, _, _, h⟩ := h
    refine loop_rel (R := fun a b : Cost K => b.Q.rows = a.Q.rows) (fun _ => rfl) (fun a b => b.trans a) ?_ h
    intro i s s' h
    unfold updateControlStep at h
    simp only [Option.bind_eq_bind, Option.bind_eq_some_iff, Option.pure_def, Option.some.injEq] at h
    obtain ⟨Q, hQ, _, _, _, _, _, _, _, _, rfl⟩ := h
    exact (Mat.setBlock?_dims hQ).1
  · unfold updateMixed at h
    rw [hs, if_neg (by decide)] at h
    simp only [Option.bind_eq_bind, Option.bind_eq_some_iff, Option.pure_def, Option.some.injEq] at h
    obtain ⟨c1, h1, _, _, _, _, rfl⟩ := h
    show c1.Q.rows = _
    refine loop_rel (R := fun a b : Cost K => b.Q.rows = a.Q.rows) (fun _ => rfl) (fun a b => b.trans a) ?_ h1
    intro i s s' h
    unfold updateMixedStep at h
    simp only [Option.bind_eq_bind, Option.bind_eq_some_iff] at h
    obtain ⟨_, _, _, _, _, _, _, _, _, _, h⟩ := h
    exact accumTerms_rows h

/-- What happens to all costs in the cost loop of a solve. -/
def Kept (c c' : Cost K) : Prop := Same c c' ∧ (Sized c → c'.Q.rows = c.Q.rows)

theorem Kept.refl (c : Cost K) : Kept c c := ⟨Same.refl c, fun _ => rfl⟩

theorem Kept.trans {a b c : Cost K} (h : Kept a b) (g : Kept b c) : Kept a c :=
  ⟨h.1.trans g.1, fun s => (g.2 ⟨by rw [h.1.kind]; exact s.1, by rw [h.1.full]; exact s.2⟩).trans (h.2 s)⟩

end Cost

namespace World

theorem updateConstrs_kept {ps : PreviewSystem K} {cons cons' : Nat → Constr K} {L : List Nat}
    (h : L.foldlM (updateConstr ps) cons = some cons') (i : Nat) : Constr.Kept (cons i) (cons' i) := by
  refine foldlM_rel (R := fun a b : Nat → Constr K => ∀ i, Constr.Kept (a i) (b i)) (fun a i => Constr.Kept.refl _)
    (fun a b i => (a i).trans (b i)) ?_ L h i
  intro s j s' h k
  unfold updateConstr at h
  simp only [Option.bind_eq_bind, Option.bind_eq_some_iff, Option.pure_def, Option.some.injEq] at h
  obtain ⟨c, hc, rfl⟩ := h
  unfold upd
  split
  · next e => subst e; exact ⟨Constr.update_keeps hc, Constr.update_cols hc⟩
  · exact Constr.Kept.refl _

theorem updateCosts_kept {ps : PreviewSystem K} {costs costs' : Nat → Cost K} {L : List Nat}
    (h : L.foldlM (updateCost ps) costs = some costs') (i : Nat) : Cost.Kept (costs i) (costs' i) := by
  refine foldlM_rel (R := fun a b : Nat → Cost K => ∀ i, Cost.Kept (a i) (b i)) (fun a i => Cost.Kept.refl _)
    (fun a b i => (a i).trans (b i)) ?_ L h i
  intro s j s' h k
  unfold updateCost at h
  simp only [Option.bind_eq_bind, Option.bind_eq_some_iff, Option.pure_def, Option.some.injEq] at h
  obtain ⟨c, hc, rfl⟩ := h
  unfold upd
  split
  · next e => subst e; exact ⟨Cost.update_same hc, Cost.update_rows hc⟩
  · exact Cost.Kept.refl _

/-- Every registered row constraint has as many columns as the QP's controls. -/
theorem makeQP_cols {inverse : Mat K → Mat K} {cons : Nat → Constr K} {costs : Nat → Cost K}
    {ps : PreviewSystem K} {l l' : LMPC K} (h : l.makeQPForm inverse cons costs ps = some l') {i : Nat}
    (hi : i ∈ l.spEqConstr ∨ i ∈ l.spIneqConstr) : (cons i).A.cols = ps.fullUDim := by
  have kA : ∀ {nr : Nat} {A B : Mat K} {r c : Nat}, A.setBlock? nr r c ps.fullUDim (cons i).A = some B →
      (cons i).A.cols = ps.fullUDim := by
    intro nr A B r c h
    unfold Mat.setBlock? at h
    split at h
    · next e => exact e.2.2.2
    · cases h
  have kb : ∀ (L : List Nat) {s s' : Nat × Mat K × Vec (Ext K)}, L.foldlM (LMPC.putRows cons ps) s = some s' →
      i ∈ L → (cons i).A.cols = ps.fullUDim := by
    intro L s s' h hi
    obtain ⟨t, t', _, h⟩ := foldlM_mem (I := fun _ => True) (fun _ _ _ _ _ => trivial) L trivial h i hi
    unfold LMPC.putRows at h
    simp only [Option.bind_eq_bind, Option.bind_eq_some_iff] at h
    obtain ⟨A, hA, _⟩ := h
    exact kA hA
  have ki : ∀ (L : List Nat) {s s' : Nat × Mat K × Vec (Ext K)}, L.foldlM (LMPC.putRowsInit cons ps) s = some s' →
      i ∈ L → (cons i).A.cols = ps.fullUDim := by
    intro L s s' h hi
    obtain ⟨t, t', _, h⟩ := foldlM_mem (I := fun _ => True) (fun _ _ _ _ _ => trivial) L trivial h i hi
    unfold LMPC.putRowsInit at h
    simp only [Option.bind_eq_bind, Option.bind_eq_some_iff] at h
    obtain ⟨_, _, A, hA, _⟩ := h
    exact kA hA
  unfold LMPC.makeQPForm at h
  split at h
  · unfold LMPC.makeQPFormInit at h
    simp only [Option.bind_eq_bind, Option.bind_eq_some_iff] at h
    obtain ⟨l1, h1, s2, h2, s3, h3, _⟩ := h
    have f := foldlM_rel (R := LMPC.Fixed) LMPC.Fixed.refl LMPC.Fixed.trans
      (fun _ _ _ h => LMPC.addCostTermsInit_fixed h) _ h1
    rw [f.spEqConstr] at h2
    rw [f.spIneqConstr] at h3
    rcases hi with hi | hi
    · exact ki _ h2 hi
    · exact ki _ h3 hi
  · unfold LMPC.makeQPFormBase at h
    simp only [Option.bind_eq_bind, Option.bind_eq_some_iff] at h
    obtain ⟨l1, h1, s2, h2, s3, h3, _⟩ := h
    have f := foldlM_rel (R := LMPC.Fixed) LMPC.Fixed.refl LMPC.Fixed.trans
      (fun _ _ _ h => LMPC.addCostTerms_fixed h) _ h1
    rw [f.spEqConstr] at h2
    rw [f.spIneqConstr] at h3
    rcases hi with hi | hi
    · exact kb _ h2 hi
    · exact kb _ h3 hi

/-- Every registered cost has a Hessian of the size of the QP's controls. -/
theorem makeQP_rows {inverse : Mat K → Mat K} {cons : Nat → Constr K} {costs : Nat → Cost K}
    {ps : PreviewSystem K} {l l' : LMPC K} (h : l.makeQPForm inverse cons costs ps = some l')
    (hQ : l.isInit = false → l.Q.rows = ps.fullUDim) {i : Nat} (hi : i ∈ l.spCost) :
    (costs i).Q.rows = ps.fullUDim := by
  unfold LMPC.makeQPForm at h
  split at h
  · unfold LMPC.makeQPFormInit at h
    simp only [Option.bind_eq_bind, Option.bind_eq_some_iff] at h
    obtain ⟨l1, h1, _⟩ := h
    obtain ⟨t, t', _, h⟩ := foldlM_mem (I := fun _ => True) (fun _ _ _ _ _ => trivial) _ trivial h1 i hi
    unfold LMPC.addCostTermsInit Mat.addBlock? at h
    simp only [Option.bind_eq_bind, Option.bind_eq_some_iff] at h
    obtain ⟨_, _, _, _, _, ⟨b, hb, b', hb', _⟩, _⟩ := h
    rw [(Mat.add?_dims hb').2.2.1]
    unfold Mat.block? at hb
    split at hb
    · cases hb; rfl
    · cases hb
  · next hI =>
    unfold LMPC.makeQPFormBase at h
    simp only [Option.bind_eq_bind, Option.bind_eq_some_iff] at h
    obtain ⟨l1, h1, _⟩ := h
    obtain ⟨t, t', ht, h⟩ := foldlM_mem (I := fun t : LMPC K => t.Q.rows = ps.fullUDim) (by
      intro s a s' hs h
      unfold LMPC.addCostTerms at h
      simp only [Option.bind_eq_bind, Option.bind_eq_some_iff, Option.pure_def, Option.some.injEq] at h
      obtain ⟨Q, hQ, c, hc, rfl⟩ := h
      exact (Mat.add?_dims hQ).1.trans hs) _ (hQ (by simpa using hI)) h1 i hi
    unfold LMPC.addCostTerms at h
    simp only [Option.bind_eq_bind, Option.bind_eq_some_iff, Option.pure_def, Option.some.injEq] at h
    obtain ⟨Q, hQ, c, hc, rfl⟩ := h
    exact (Mat.add?_dims hQ).2.2.1.trans ht

/-! ## The property

The header says that `initializeController` "needs to be called each time the system dimension changes".
That is not enough for a controller with registered objects: whatever the history, if a constraint or cost
whose results were sized when it was added is still registered, the next `solve` is undefined behaviour as soon
as the number of stacked controls has changed. -/

/-- **C54, refuted for every controller**: after `system(...)` with new dimensions and `initializeController`, a solve
with a constraint or a cost registered for the old dimensions is undefined behaviour. -/
theorem c54_stale_undefined {d : Dims} {dmax : K} {E : World K → Op K → Prop} {w w1 w2 : World K} {g : Ghost}
    (H : Hist d dmax E w g) {p : Nat} {A B : Mat K} {bias x0 : Vec K} {N : Int} {junk : Junk K}
    (h1 : w.step dmax (.system p A B bias x0 N) = .ok w1)
    (h2 : w1.step dmax (.initializeController p junk) = .ok w2)
    (hne : B.cols * N.toNat ≠ d.m * d.N)
    (hstale : (∃ i ∈ w2.ctl.spConstr, (w2.cons i).userData.SizedOnAdd d) ∨
      ∃ i ∈ w2.ctl.spCost, (w2.costs i).userData.SizedOnAdd d)
    (env : SolveEnv K) : w2.step dmax (.solve env) = .ub := by
  have G := H.good
  simp only [step, Res.map_ok, Res.ofOption_ok] at h1 h2
  obtain ⟨ps, h1, rfl⟩ := h1
  obtain ⟨l, h2, rfl⟩ := h2
  obtain ⟨S, -⟩ := system_ok h1
  obtain ⟨n, hn, rfl⟩ := initializeController_inv h2
  simp only [upd_same] at hn
  simp only at hstale
  show Res.ofOption _ = _
  cases hs : solve env _ with
  | none => rfl
  | some r =>
    exfalso
    obtain ⟨w', b, q⟩ := r
    obtain ⟨v, p', l', s, l'', hu, hp', hq, -⟩ := solve_inv hs
    obtain ⟨p'', ps', l1, l2, cons, costs, e1, e2, e3, e4, e5, e6, rfl, fx⟩ := updateSystem_inv hu
    simp only at e1 e2 e5 e6
    cases e1
    rw [fx.ps] at hp'
    cases hp'
    simp only [upd_same] at e2 hq
    have S' : ps'.fullUDim = B.cols * N.toNat := by
      split at e2
      · cases e2; exact S.dims.fullU
      · obtain ⟨x, hx, a, -⟩ := Copra.updateSystem_ok S
        rw [e2] at hx; cases hx
        exact a.dims.fullU
    rcases hstale with ⟨i, hi, hd⟩ | ⟨i, hi, hd⟩
    · have R := G.consReg i (G.subC i hi)
      have hsz : Constr.Sized (w.cons i) ∧ (w.cons i).A.cols = d.m * d.N := by
        unfold Constr.userData ConstrData.SizedOnAdd at hd
        unfold Constr.Reg at R
        unfold Constr.Sized
        cases hk : (w.cons i).kind <;> rw [hk] at hd R <;> simp only at hd R
        · refine ⟨⟨by decide, Or.inr ?_⟩, R.sizes.Ac⟩
          cases hf : (w.cons i).fullSizeEntry with
          | false => rfl
          | true => have := R.dims; rw [if_pos hf] at this; exact absurd hd this.1
        · refine ⟨⟨by decide, Or.inr ?_⟩, R.sizes.Ac⟩
          cases hf : (w.cons i).fullSizeEntry with
          | false => rfl
          | true =>
            have := R.dims
            rw [if_pos hf] at this hd
            exact absurd hd this.1
        · refine ⟨⟨by decide, Or.inr ?_⟩, R.sizes.Ac⟩
          cases hf : (w.cons i).fullSizeEntry with
          | false => rfl
          | true => have := R.dims; rw [if_pos hf] at this; exact absurd hd this.1
        · exact ⟨⟨by decide, Or.inl rfl⟩, R.sizes.Ac⟩
        · cases hf : (w.cons i).fullSizeEntry <;> simp only [hf] at hd <;> exact absurd hd (by simp)
      have hcol : (cons i).A.cols = ps'.fullUDim := by
        refine makeQP_cols hq ?_
        rw [fx.spEqConstr, fx.spIneqConstr]
        show i ∈ w.ctl.spEqConstr ∨ i ∈ w.ctl.spIneqConstr
        rw [G.part.eq, G.part.ineq]
        simp only [List.mem_filter, decide_eq_true_eq]
        have ht : (w.cons i).constraintType = .equality ∨ (w.cons i).constraintType = .inequality := by
          unfold Constr.constraintType
          cases hk : (w.cons i).kind <;> simp only
          · cases (w.cons i).isIneq <;> simp
          · cases (w.cons i).isIneq <;> simp
          · cases (w.cons i).isIneq <;> simp
          · simp
          · exact absurd hk hsz.1.1
        exact ht.imp (fun h => ⟨hi, h⟩) (fun h => ⟨hi, h⟩)
      rw [(updateConstrs_kept e5 i).2 hsz.1, hsz.2, S'] at hcol
      exact hne hcol.symm
    · have R := G.costReg i (G.subK i hi)
      have hsz : Cost.Sized (w.costs i) := by
        have D := R.data
        unfold Cost.userData CostData.SizedOnAdd at hd
        unfold Cost.DataOk at D
        unfold Cost.Sized
        cases hk : (w.costs i).kind <;> rw [hk] at hd D <;> simp only at hd D
        · refine ⟨by decide, ?_⟩
          cases hf : (w.costs i).fullSizeEntry with
          | false => rfl
          | true => rw [if_pos hf] at D; exact absurd hd D.2.1
        · refine ⟨by decide, ?_⟩
          cases hf : (w.costs i).fullSizeEntry with
          | false => rfl
          | true => rw [if_pos hf] at D; exact absurd hd D.2.1
        · refine ⟨by decide, ?_⟩
          cases hf : (w.costs i).fullSizeEntry with
          | false => rfl
          | true => rw [if_pos hf] at D; exact absurd hd D.2.2.1
      have hrow : (costs i).Q.rows = ps'.fullUDim := by
        refine makeQP_rows hq ?_ (by rw [fx.spCost]; exact hi)
        intro hI
        rw [fx.isInit] at hI
        have q1 := (LMPC.updateNr_fixed e3)
        have q2 := (LMPC.updateConstraintMatrixSize_fixed e4)
        rw [q2.2.1, q1.2.1]
        show n = _
        unfold LMPC.optSize at hn
        simp only at hI
        rw [hI, if_neg (by decide)] at hn
        cases hn
        rw [S', S.dims.fullU]
      rw [(updateCosts_kept e6 i).2 hsz, (R.sizes hsz.1).Qr, S'] at hrow
      exact hne hrow.symm

/-! ## What does work -/

theorem _root_.Copra.Constr.Reg.unreg {d : Dims} {c : Constr K} (h : Constr.Reg d c) (hd : c.userData.PerStep d) :
    Constr.Unreg c := by
  unfold Constr.Reg at h
  unfold Constr.userData ConstrData.PerStep at hd
  unfold Constr.Unreg
  cases hk : c.kind <;> rw [hk] at h hd <;> simp only at h hd <;> cases hf : c.fullSizeEntry
  case trajectory.true => have := h.dims; rw [if_pos hf] at this; exact absurd hd this.1
  case control.true => have := h.dims; rw [if_pos hf] at this; rw [if_pos hf] at hd; exact absurd hd this.1
  case mixed.true => have := h.dims; rw [if_pos hf] at this; exact absurd hd this.1
  case trajBound.true => have := h.dims; rw [if_pos hf] at this; exact absurd hd this.1
  case ctrlBound.true =>
    have := h.dims; rw [if_pos hf] at this hd
    simp only at hd
    rw [h.lbr] at hd
    exact absurd hd this
  case trajectory.false | mixed.false => exact ⟨rfl, by simp, by simp, by simp⟩
  case control.false => exact ⟨rfl, by simp, fun _ => by rw [h.sizes.Ar, h.sizes.br], by simp⟩
  case trajBound.false => exact ⟨rfl, fun _ => h.lines, by simp, by simp⟩
  case ctrlBound.false => exact ⟨rfl, by simp, by simp, fun _ => by rw [h.lbr, h.ubr]⟩

theorem _root_.Copra.Cost.Pre.unreg {d : Dims} {c : Cost K} (h : Cost.Pre d c) (hd : c.userData.PerStep d) :
    Cost.Unreg c := by
  refine ⟨fun ht => ?_, h.wr⟩
  have D := h.data
  unfold Cost.DataOk at D
  unfold Cost.userData CostData.PerStep CostData.SizedOnAdd at hd
  cases hf : c.fullSizeEntry with
  | false => rfl
  | true =>
    rw [hf] at D
    cases hk : c.kind <;> rw [hk] at hd D <;> simp only [if_true] at hd D
    · exact absurd hd D.2.1
    · exact absurd hk ht
    · exact absurd hd D.2.1
    · exact absurd hd D.2.2.1

/-- Which preview systems can be used after a change of dimensions: the new one, and those not used before. -/
def NewSys (w : World K) (p q : Nat) : Prop := q = p ∨ ¬ HasSystem w q

theorem Good.restart {d : Dims} {dmax : K} {w w1 w2 : World K} {g : Ghost} (G : Good d dmax w g) {p : Nat} {A B : Mat K}
    {bias x0 : Vec K} {N : Int} {junk : Junk K}
    (h1 : w.step dmax (.system p A B bias x0 N) = .ok w1)
    (h2 : w1.step dmax (.initializeController p junk) = .ok w2)
    (hC : w.ctl.spConstr = []) (hK : w.ctl.spCost = []) {C Q : Nat → Prop}
    (kC : ∀ i, C i → Constr.Unreg (w.cons i)) (kQ : ∀ i, Q i → Cost.Unreg (w.costs i)) :
    Good ⟨A.cols, B.cols, N.toNat⟩ dmax (mask (NewSys w p) C Q w2) Ghost.start := by
  simp only [World.step, Res.map_ok, Res.ofOption_ok] at h1 h2
  obtain ⟨ps, h1, rfl⟩ := h1
  obtain ⟨l, h2, rfl⟩ := h2
  obtain ⟨S, -, -, -, e0, -, hx⟩ := system_ok h1
  obtain ⟨n, hn, rfl⟩ := initializeController_inv h2
  simp only [upd_same] at hn
  obtain ⟨rfl, hle⟩ := LMPC.optSize_width S.dims.toSysShape hn
  have e1 : w.ctl.spEqConstr = [] := by rw [G.part.eq, hC]; rfl
  have e2 : w.ctl.spIneqConstr = [] := by rw [G.part.ineq, hC]; rfl
  have e3 : w.ctl.spBoundConstr = [] := by rw [G.part.bound, hC]; rfl
  have hp : hide (NewSys w p) PreviewSystem.default (upd w.pss p ps) p = ps := by
    rw [hide_in (Or.inl rfl), upd_same]
  have sysK : ∀ q, HasSystem (mask (NewSys w p) C Q { w with pss := upd w.pss p ps, ctl := w.ctl }) q →
      SysOk ⟨A.cols, B.cols, N.toNat⟩ (hide (NewSys w p) PreviewSystem.default (upd w.pss p ps) q) ∧
      (hide (NewSys w p) PreviewSystem.default (upd w.pss p ps) q).x0.rows = A.cols := by
    intro q hq
    by_cases e : q = p
    · subst e
      show SysOk _ (hide _ _ (upd w.pss q ps) q) ∧ (hide _ _ (upd w.pss q ps) q).x0.rows = _
      rw [hp, e0]; exact ⟨S, hx⟩
    · exfalso
      have hq : 0 < (hide (NewSys w p) PreviewSystem.default (upd w.pss p ps) q).nrUStep := hq
      by_cases hn : NewSys w p q
      · rw [hide_in hn, upd_ne _ _ e] at hq
        exact hn.elim e (fun h => h hq)
      · rw [hide_out hn] at hq
        exact absurd hq (Nat.lt_irrefl 0)
  refine ⟨⟨fun q hq => ⟨(sysK q hq).1.raw, (sysK q hq).2⟩, fun _ h => h.elim, ?_, fun _ h => h.elim, ?_, fun _ h => h.elim, ?_, ?_,
    ?_, ?_, ?_, ?_, G.eqMax, G.ineqMax, ?_, ?_⟩, fun q hq hu => (sysK q hq).1.pred hu⟩
  · intro i _
    show Constr.Unreg (hide C _ w.cons i)
    by_cases hi : C i
    · rw [hide_in hi]; exact kC i hi
    · rw [hide_out hi]; exact Constr.fresh_unreg (Or.inl ⟨_, _, _, rfl⟩)
  · intro i _
    show Cost.Unreg (hide Q _ w.costs i)
    by_cases hi : Q i
    · rw [hide_in hi]; exact kQ i hi
    · rw [hide_out hi]; exact Cost.fresh_unreg (Or.inl ⟨_, _, rfl⟩)
  · intro i hi
    have hi : i ∈ w.ctl.spConstr := hi
    rw [hC] at hi; cases hi
  · intro i hi
    have hi : i ∈ w.ctl.spCost := hi
    rw [hK] at hi; cases hi
  · exact LMPC.Partition.nil hC e1 e2 e3
  · show w.ctl.spBoundConstr.length ≤ 1
    rw [e3]; exact Nat.zero_le _
  · show total _ w.ctl.spEqConstr ≤ _
    rw [e1]; exact Nat.zero_le _
  · show total _ w.ctl.spIneqConstr ≤ _
    rw [e2]; exact Nat.zero_le _
  · intro q hq
    have hq : some p = some q := hq
    cases hq
    refine ⟨?_, hle, rfl, rfl, rfl, rfl, rfl⟩
    show 0 < (hide _ _ (upd w.pss p ps) p).nrUStep
    rw [hp, S.dims.nrU]; exact S.dims.Npos
  · exact fun _ _ j _ => ⟨rfl, rfl⟩

theorem Good.inside {d : Dims} {dmax : K} {w : World K} {g : Ghost} {P C Q : Nat → Prop}
    (G : Good d dmax (mask P C Q w) g) (hC : ∀ i, g.constr i → C i) (hQ : ∀ i, g.cost i → Q i) :
    Inside P C Q w.ctl := by
  have key : ∀ i ∈ w.ctl.spConstr, C i := fun i hi => hC i (G.subC i hi)
  refine ⟨?_, key, ?_, ?_, ?_, fun i hi => hQ i (G.subK i hi)⟩
  · intro p hp
    have : 0 < (hide P PreviewSystem.default w.pss p).nrUStep := (G.ctl p hp).1
    by_contra hn
    rw [hide_out hn] at this
    exact absurd this (Nat.lt_irrefl 0)
  · intro i hi
    have e : w.ctl.spEqConstr = w.ctl.spConstr.filter _ := G.part.eq
    rw [e] at hi; exact key i (List.mem_of_mem_filter hi)
  · intro i hi
    have e : w.ctl.spIneqConstr = w.ctl.spConstr.filter _ := G.part.ineq
    rw [e] at hi; exact key i (List.mem_of_mem_filter hi)
  · intro i hi
    have e : w.ctl.spBoundConstr = w.ctl.spConstr.filter _ := G.part.bound
    rw [e] at hi; exact key i (List.mem_of_mem_filter hi)

theorem mask_opOk {d : Dims} {w : World K} {g : Ghost} {op : Op K} {P C Q : Nat → Prop} (ho : OpOk d w g op)
    (hu : Only P C Q op) : OpOk d (mask P C Q w) g op := by
  have ep : ∀ {p : Nat}, P p → (mask P C Q w).pss p = w.pss p := fun hp => hide_in hp
  have ec : ∀ {i : Nat}, C i → (mask P C Q w).cons i = w.cons i := fun hp => hide_in hp
  cases op <;> simp only [Only] at hu <;> simp only [OpOk, HasSystem] at ho ⊢
  case updateConstr => rw [ep hu.2]; exact ho
  case updateCost => rw [ep hu.2]; exact ho
  case initConstr => rw [ep hu.2]; exact ho
  case initCost => rw [ep hu.2]; exact ho
  case updatePs => rw [ep hu]; exact ho
  case constructPs => rw [ep hu]; exact ho
  case initializeController => rw [ep hu]; exact ho
  case addConstraint => rw [ec hu]; exact ho
  all_goals exact ho

theorem mask_next {w : World K} {g : Ghost} {ok : Prop} {op : Op K} {P C Q : Nat → Prop} :
    g.next (mask P C Q w) ok op = g.next w ok op := by
  cases op <;> rfl

theorem next_only {w : World K} {g : Ghost} {ok : Prop} {op : Op K} {P C Q : Nat → Prop} (hu : Only P C Q op)
    (hC : ∀ i, g.constr i → C i) (hQ : ∀ i, g.cost i → Q i) :
    (∀ i, (g.next w ok op).constr i → C i) ∧ ∀ i, (g.next w ok op).cost i → Q i := by
  cases op <;> simp only [Only] at hu <;> simp only [Ghost.next] <;> refine ⟨?_, ?_⟩ <;> intro i hi
  case addConstraint.refine_1 => rcases hi with hi | ⟨_, rfl⟩; exacts [hC i hi, hu]
  case initConstr.refine_1 => rcases hi with hi | ⟨_, rfl⟩; exacts [hC i hi, hu.1]
  case addCost.refine_2 => rcases hi with hi | ⟨_, rfl⟩; exacts [hQ i hi, hu]
  case initCost.refine_2 => rcases hi with hi | ⟨_, rfl⟩; exacts [hQ i hi, hu.1]
  all_goals first | exact hC i hi | exact hQ i hi

theorem Good.later {d : Dims} {dmax : K} {w w' : World K} {g' : Ghost} {P C Q : Nat → Prop} {E : World K → Op K → Prop}
    (hE : ∀ w op, E w op → Only P C Q op) (G : Good d dmax (mask P C Q w) Ghost.start)
    (L : Later d dmax E w Ghost.start w' g') :
    Good d dmax (mask P C Q w') g' ∧ (∀ i, g'.constr i → C i) ∧ ∀ i, g'.cost i → Q i := by
  induction L with
  | refl => exact ⟨G, fun _ h => h.elim, fun _ h => h.elim⟩
  | @ok w1 w2 g1 op _ ho he hst ih =>
    obtain ⟨G1, a, b⟩ := ih
    have hu := hE _ _ he
    have e := mask_step (dmax := dmax) (G1.inside a b) hu
    rw [hst] at e
    refine ⟨?_, next_only hu a b⟩
    have := G1.step (ok := True) (mask_opOk ho hu) (Or.inl ⟨trivial, e⟩)
    rwa [mask_next] at this
  | @thrown w1 w2 g1 op ex _ ho he hst ih =>
    obtain ⟨G1, a, b⟩ := ih
    have hu := hE _ _ he
    have e := mask_step (dmax := dmax) (G1.inside a b) hu
    rw [hst] at e
    refine ⟨?_, next_only hu a b⟩
    have := G1.step (ok := False) (mask_opOk ho hu) (Or.inr ⟨fun h => h, _, e⟩)
    rwa [mask_next] at this

/-- **C54, the part that holds**: a controller can be used again after a change of dimensions if its registered
costs and constraints were removed first.  After `system(...)` with any new dimensions and `initializeController`, every further
history over the new preview system (or ones not used before), constraints and costs that were never accepted
before or that are given per step, keeps `solve` defined. -/
theorem c54_reuse_partial {d : Dims} {dmax : K} {E E' : World K → Op K → Prop} {w w1 w2 w' : World K} {g g' : Ghost}
    (H : Hist d dmax E w g) {p : Nat} {A B : Mat K} {bias x0 : Vec K} {N : Int} {junk : Junk K}
    (hC : w.ctl.spConstr = []) (hK : w.ctl.spCost = [])
    (h1 : w.step dmax (.system p A B bias x0 N) = .ok w1)
    (h2 : w1.step dmax (.initializeController p junk) = .ok w2)
    (hE : ∀ v op, E' v op → Only (fun q => q = p ∨ ¬ HasSystem w q)
      (fun i => ¬ g.constr i ∨ (w.cons i).userData.PerStep d)
      (fun i => ¬ g.cost i ∨ (w.costs i).userData.PerStep d) op)
    (L : Later ⟨A.cols, B.cols, N.toNat⟩ dmax E' w2 Ghost.start w' g') {env : SolveEnv K}
    (ho : OpOk ⟨A.cols, B.cols, N.toNat⟩ w' g' (.solve env)) :
    ∃ w'' b q, w'.solve env = some (w'', b, q) ∧ w'.step dmax (.solve env) = .ok w'' ∧ WellSized q ∧
      q.nrVar = numVars ⟨A.cols, B.cols, N.toNat⟩ w'.ctl := by
  have G := H.good
  have kC : ∀ i, ¬ g.constr i ∨ (w.cons i).userData.PerStep d → Constr.Unreg (w.cons i) := by
    rintro i hi
    by_cases hg : g.constr i
    · exact (G.consReg i hg).unreg (hi.resolve_left (fun h => h hg))
    · exact G.consUn i hg
  have kQ : ∀ i, ¬ g.cost i ∨ (w.costs i).userData.PerStep d → Cost.Unreg (w.costs i) := by
    rintro i hi
    by_cases hg : g.cost i
    · exact (G.costReg i hg).unreg (hi.resolve_left (fun h => h hg))
    · exact G.costUn i hg
  obtain ⟨G', a, b⟩ := Good.later hE (G.restart h1 h2 hC hK kC kQ) L
  obtain ⟨v, s, q, e, -, hq, hn⟩ := G'.solve_defined (mask_opOk ho (by trivial))
  rw [mask_solve env w' (G'.inside a b)] at e
  obtain ⟨⟨w'', s', q'⟩, e', e⟩ := Option.map_eq_some_iff.1 e
  simp only [Prod.mk.injEq] at e
  obtain ⟨-, rfl, rfl⟩ := e
  refine ⟨w'', s', q', e', ?_, hq, hn⟩
  simp only [step, e', Option.map_some]; rfl

end World
end Copra
