import Verif.SpecCopies
import Verif.Proofs.HistInv
import Verif.Proofs.Interleave

/-! # Programs that copy objects reach no new states (C100) -/

namespace Copra
open Spec

set_option linter.unusedSectionVars false
set_option linter.unusedSimpArgs false

variable {K : Type} [Field K] [LinearOrder K] [IsStrictOrderedRing K]

namespace World

variable {d : Dims} {dmax : K} {E : World K → Op K → Prop} {C Q : Nat → Prop}

theorem _root_.Copra.Spec.Hist.mono {F : World K → Op K → Prop} (hE : ∀ w op, E w op → F w op) {w : World K} {g : Ghost}
    (h : Hist d dmax E w g) : Hist d dmax F w g := by
  induction h with
  | start h => exact .start h
  | ok _ ho he hs ih => exact .ok ih ho (hE _ _ he) hs
  | thrown _ ho he hs ih => exact .thrown ih ho (hE _ _ he) hs

/-- The condition `E`, and the call mentions only the constraints in `C` and the costs in `Q`. -/
def EO (E : World K → Op K → Prop) (C Q : Nat → Prop) (w : World K) (op : Op K) : Prop :=
  E w op ∧ Only (fun _ => True) C Q op

theorem Only.mono {C' Q' : Nat → Prop} (hC : ∀ i, C i → C' i) (hQ : ∀ i, Q i → Q' i) {op : Op K}
    (h : Only (fun _ => True) C Q op) : Only (fun _ => True) C' Q' op := by
  cases op <;> first | exact h | exact hC _ h | exact hQ _ h | exact ⟨hC _ h.1, h.2⟩ | exact ⟨hQ _ h.1, h.2⟩

theorem only_names (op : Op K) : Only (fun _ => True) (namesConstr op) (namesCost op) op := by
  cases op <;> first | trivial | rfl | exact ⟨rfl, trivial⟩

theorem not_namesConstr {op : Op K} {j : Nat} (h : Only (fun _ => True) C Q op) (hj : ¬ C j) : ¬ namesConstr op j := by
  cases op <;> first | exact fun h => h | (rintro rfl; first | exact hj h | exact hj h.1)

theorem not_namesCost {op : Op K} {j : Nat} (h : Only (fun _ => True) C Q op) (hj : ¬ Q j) : ¬ namesCost op j := by
  cases op <;> first | exact fun h => h | (rintro rfl; first | exact hj h | exact hj h.1)

/-! ## Frame -/

theorem hist_inside {w : World K} {g : Ghost} (h : Hist d dmax (EO E C Q) w g) : Inside (fun _ => True) C Q w.ctl := by
  induction h with
  | start h => obtain ⟨_, _, _, b, s, e⟩ := h; rw [e]; exact inside_construct b s
  | ok _ ho he hs ih => exact (step_outside ih he.2 (Or.inl hs)).2
  | thrown _ ho he hs ih => exact (step_outside ih he.2 (Or.inr ⟨_, hs⟩)).2

theorem World.ext' {w v : World K} (h1 : w.pss = v.pss) (h2 : w.cons = v.cons) (h3 : w.costs = v.costs)
    (h4 : w.extCons = v.extCons) (h5 : w.extCosts = v.extCosts) (h6 : w.ctl = v.ctl) : w = v := by
  cases w; cases v
  dsimp only at h1 h2 h3 h4 h5 h6
  subst h1 h2 h3 h4 h5 h6
  rfl

theorem mask_parts {w v : World K} (h : mask (fun _ => True) C Q w = mask (fun _ => True) C Q v) :
    w.pss = v.pss ∧ (∀ i, C i → w.cons i = v.cons i) ∧ (∀ i, Q i → w.costs i = v.costs i) ∧ w.extCons = v.extCons ∧
      w.extCosts = v.extCosts ∧ w.ctl = v.ctl := by
  refine ⟨?_, ?_, ?_, by simpa only [mask] using congrArg World.extCons h, by simpa only [mask] using congrArg World.extCosts h,
    by simpa only [mask] using congrArg World.ctl h⟩
  · have e := congrArg World.pss h
    funext p
    have := congrFun e p
    simpa only [mask, hide_in (P := fun _ : Nat => True) trivial] using this
  · intro i hi
    have := congrFun (congrArg World.cons h) i
    simpa only [mask, hide_in hi] using this
  · intro i hi
    have := congrFun (congrArg World.costs h) i
    simpa only [mask, hide_in hi] using this

theorem mask_updCons {w : World K} {j : Nat} (hj : ¬ C j) (c : Constr K) :
    mask (fun _ => True) C Q { w with cons := upd w.cons j c } = mask (fun _ => True) C Q w := by
  refine World.ext' rfl ?_ rfl rfl rfl rfl
  funext i
  by_cases hi : C i
  · show hide C _ (upd w.cons j c) i = hide C _ w.cons i
    rw [hide_in hi, hide_in hi, upd_ne _ _ (show i ≠ j from fun e => hj (e ▸ hi))]
  · show hide C _ (upd w.cons j c) i = hide C _ w.cons i
    rw [hide_out hi, hide_out hi]

theorem mask_updCosts {w : World K} {j : Nat} (hj : ¬ Q j) (c : Cost K) :
    mask (fun _ => True) C Q { w with costs := upd w.costs j c } = mask (fun _ => True) C Q w := by
  refine World.ext' rfl rfl ?_ rfl rfl rfl
  funext i
  by_cases hi : Q i
  · show hide Q _ (upd w.costs j c) i = hide Q _ w.costs i
    rw [hide_in hi, hide_in hi, upd_ne _ _ (show i ≠ j from fun e => hj (e ▸ hi))]
  · show hide Q _ (upd w.costs j c) i = hide Q _ w.costs i
    rw [hide_out hi, hide_out hi]

theorem Res.map_eq_ok {α β : Type} {f : α → β} {r : Res α} {b : β} (h : r.map f = .ok b) : ∃ a, r = .ok a ∧ f a = b := by
  cases r <;> simp only [Res.map, Res.ok.injEq, reduceCtorEq] at h
  exact ⟨_, rfl, h⟩

theorem Res.map_eq_thrown {α β : Type} {f : α → β} {r : Res α} {e : Exn} {b : β} (h : r.map f = .thrown e b) :
    ∃ a, r = .thrown e a ∧ f a = b := by
  cases r <;> simp only [Res.map, Res.thrown.injEq, reduceCtorEq] at h
  obtain ⟨rfl, h⟩ := h
  exact ⟨_, rfl, h⟩

/-- The result of a call on a world that differs outside `C`, `Q` only. -/
theorem frame_world {w v w' v' : World K} (I : Inside (fun _ => True) C Q w.ctl)
    (hm : mask (fun _ => True) C Q v = mask (fun _ => True) C Q w) {op : Op K} (ho : Only (fun _ => True) C Q op)
    (hw : Steps dmax w op w') (hv : Steps dmax v op v')
    (hm' : mask (fun _ => True) C Q v' = mask (fun _ => True) C Q w') :
    (∀ j c, v = { w with cons := upd w.cons j c } → ¬ C j → v' = { w' with cons := upd w'.cons j c }) ∧
      ∀ j c, v = { w with costs := upd w.costs j c } → ¬ Q j → v' = { w' with costs := upd w'.costs j c } := by
  have S := (step_outside I ho hw).1
  have I2 : Inside (fun _ => True) C Q v.ctl := by rw [(mask_parts hm).2.2.2.2.2]; exact I
  have T := (step_outside I2 ho hv).1
  obtain ⟨m1, m2, m3, m4, m5, m6⟩ := mask_parts hm'
  constructor
  · rintro j c rfl hj
    refine World.ext' m1 ?_ ?_ m4 m5 m6
    · funext i
      show v'.cons i = upd w'.cons j c i
      by_cases hi : C i
      · rw [upd_ne _ _ (show i ≠ j from fun e => hj (e ▸ hi))]; exact m2 i hi
      · rw [T.cons i hi]
        show upd w.cons j c i = _
        by_cases e : i = j
        · subst e; rw [upd_same, upd_same]
        · rw [upd_ne _ _ e, upd_ne _ _ e, S.cons i hi]
    · funext i
      by_cases hi : Q i
      · exact m3 i hi
      · rw [T.costs i hi]; exact (S.costs i hi).symm
  · rintro j c rfl hj
    refine World.ext' m1 ?_ ?_ m4 m5 m6
    · funext i
      by_cases hi : C i
      · exact m2 i hi
      · rw [T.cons i hi]; exact (S.cons i hi).symm
    · funext i
      show v'.costs i = upd w'.costs j c i
      by_cases hi : Q i
      · rw [upd_ne _ _ (show i ≠ j from fun e => hj (e ▸ hi))]; exact m3 i hi
      · rw [T.costs i hi]
        show upd w.costs j c i = _
        by_cases e : i = j
        · subst e; rw [upd_same, upd_same]
        · rw [upd_ne _ _ e, upd_ne _ _ e, S.costs i hi]

theorem frame_ok {w v w' : World K} (I : Inside (fun _ => True) C Q w.ctl)
    (hm : mask (fun _ => True) C Q v = mask (fun _ => True) C Q w) {op : Op K} (ho : Only (fun _ => True) C Q op)
    (hw : w.step dmax op = .ok w') :
    ∃ v', v.step dmax op = .ok v' ∧ mask (fun _ => True) C Q v' = mask (fun _ => True) C Q w' := by
  have I2 : Inside (fun _ => True) C Q v.ctl := by rw [(mask_parts hm).2.2.2.2.2]; exact I
  have h1 := mask_step (dmax := dmax) I ho
  have h2 := mask_step (dmax := dmax) I2 ho
  rw [hm, h1, hw] at h2
  exact Res.map_eq_ok h2.symm

theorem frame_thrown {w v w' : World K} (I : Inside (fun _ => True) C Q w.ctl)
    (hm : mask (fun _ => True) C Q v = mask (fun _ => True) C Q w) {op : Op K} (ho : Only (fun _ => True) C Q op)
    {e : Exn} (hw : w.step dmax op = .thrown e w') :
    ∃ v', v.step dmax op = .thrown e v' ∧ mask (fun _ => True) C Q v' = mask (fun _ => True) C Q w' := by
  have I2 : Inside (fun _ => True) C Q v.ctl := by rw [(mask_parts hm).2.2.2.2.2]; exact I
  have h1 := mask_step (dmax := dmax) I ho
  have h2 := mask_step (dmax := dmax) I2 ho
  rw [hm, h1, hw] at h2
  exact Res.map_eq_thrown h2.symm

theorem opOk_cons {w : World K} {g : Ghost} {op : Op K} {j : Nat} {c : Constr K} (hj : ¬ namesConstr op j)
    (h : OpOk d w g op) : OpOk d { w with cons := upd w.cons j c } g op := by
  cases op <;> try exact h
  case addConstraint i junk =>
    intro hk
    have : i ≠ j := fun e => hj e.symm
    exact h (by rw [← hk]; exact (congrArg Constr.kind (upd_ne w.cons c this)).symm)

theorem opOk_costs {w : World K} {g : Ghost} {op : Op K} {j : Nat} {c : Cost K}
    (h : OpOk d w g op) : OpOk d { w with costs := upd w.costs j c } g op := by
  cases op <;> exact h

/-- A history that never mentions constraint `j` can be carried out with any other fresh constraint in its place. -/
theorem frameConstr (O : ObjectWise E) {w : World K} {g : Ghost} (h : Hist d dmax (EO E C Q) w g) {j : Nat} (hj : ¬ C j)
    {c : Constr K} (hc : FreshConstr c) : Hist d dmax (EO E C Q) { w with cons := upd w.cons j c } g ∧ ¬ g.constr j := by
  induction h with
  | start h =>
    obtain ⟨h1, h2, h3, h4⟩ := h
    refine ⟨.start ⟨h1, fun i => ?_, h3, h4⟩, fun h => h⟩
    show FreshConstr (upd _ j c i)
    by_cases e : i = j
    · subst e; rw [upd_same]; exact hc
    · rw [upd_ne _ _ e]; exact h2 i
  | @ok w w' g op hh ho he hs ih =>
    have hn := not_namesConstr he.2 hj
    have I := hist_inside hh
    obtain ⟨v', hv, hm⟩ := frame_ok I (mask_updCons (w := w) (Q := Q) hj c) he.2 hs
    have e := (frame_world I (mask_updCons (w := w) (Q := Q) hj c) he.2 (Or.inl hs) (Or.inl hv) hm).1 j c rfl hj
    subst e
    refine ⟨?_, ?_⟩
    · have := Hist.ok ih.1 (opOk_cons hn ho) ⟨O.otherConstr _ _ _ _ he.1 hn, he.2⟩ hv
      exact (by cases op <;> exact this)
    · intro hx
      cases op <;> first
        | exact ih.2 hx
        | (rcases hx with hx | hx
           · exact ih.2 hx
           · exact hn hx.2)
  | @thrown w w' g op e hh ho he hs ih =>
    have hn := not_namesConstr he.2 hj
    have I := hist_inside hh
    obtain ⟨v', hv, hm⟩ := frame_thrown I (mask_updCons (w := w) (Q := Q) hj c) he.2 hs
    have e := (frame_world I (mask_updCons (w := w) (Q := Q) hj c) he.2 (Or.inr ⟨_, hs⟩) (Or.inr ⟨_, hv⟩) hm).1 j c rfl hj
    subst e
    refine ⟨?_, ?_⟩
    · have := Hist.thrown ih.1 (opOk_cons hn ho) ⟨O.otherConstr _ _ _ _ he.1 hn, he.2⟩ hv
      exact (by cases op <;> exact this)
    · intro hx
      cases op <;> first
        | exact ih.2 hx
        | (rcases hx with hx | hx
           · exact ih.2 hx
           · exact hn hx.2)

/-- A history that never mentions cost `j` can be carried out with any other fresh cost in its place. -/
theorem frameCost (O : ObjectWise E) {w : World K} {g : Ghost} (h : Hist d dmax (EO E C Q) w g) {j : Nat} (hj : ¬ Q j)
    {c : Cost K} (hc : FreshCost c) :
    Hist d dmax (EO E C Q) { w with costs := upd w.costs j c } g ∧ ¬ g.cost j ∧ ¬ g.fresh j := by
  induction h with
  | start h =>
    obtain ⟨h1, h2, h3, h4⟩ := h
    refine ⟨.start ⟨h1, h2, fun i => ?_, h4⟩, fun h => h, fun h => h⟩
    show FreshCost (upd _ j c i)
    by_cases e : i = j
    · subst e; rw [upd_same]; exact hc
    · rw [upd_ne _ _ e]; exact h3 i
  | @ok w w' g op hh ho he hs ih =>
    have hn := not_namesCost he.2 hj
    have I := hist_inside hh
    obtain ⟨v', hv, hm⟩ := frame_ok I (mask_updCosts (w := w) (C := C) hj c) he.2 hs
    have e := (frame_world I (mask_updCosts (w := w) (C := C) hj c) he.2 (Or.inl hs) (Or.inl hv) hm).2 j c rfl hj
    subst e
    refine ⟨?_, ?_, ?_⟩
    · have := Hist.ok ih.1 (opOk_costs ho) ⟨O.otherCost _ _ _ _ he.1 hn, he.2⟩ hv
      exact (by cases op <;> exact this)
    · intro hx
      cases op <;> first
        | exact ih.2.1 hx
        | (rcases hx with hx | hx
           · exact ih.2.1 hx
           · exact hn hx.2)
    · intro hx
      cases op <;> first
        | exact ih.2.2 hx
        | exact ih.2.2 hx.1
        | (rcases hx with hx | hx
           · exact ih.2.2 hx
           · exact hn hx.2)
  | @thrown w w' g op e hh ho he hs ih =>
    have hn := not_namesCost he.2 hj
    have I := hist_inside hh
    obtain ⟨v', hv, hm⟩ := frame_thrown I (mask_updCosts (w := w) (C := C) hj c) he.2 hs
    have e := (frame_world I (mask_updCosts (w := w) (C := C) hj c) he.2 (Or.inr ⟨_, hs⟩) (Or.inr ⟨_, hv⟩) hm).2 j c rfl hj
    subst e
    refine ⟨?_, ?_, ?_⟩
    · have := Hist.thrown ih.1 (opOk_costs ho) ⟨O.otherCost _ _ _ _ he.1 hn, he.2⟩ hv
      exact (by cases op <;> exact this)
    · intro hx
      cases op <;> first
        | exact ih.2.1 hx
        | (rcases hx with hx | hx
           · exact ih.2.1 hx
           · exact hn hx.2)
    · intro hx
      cases op <;> first
        | exact ih.2.2 hx
        | exact ih.2.2 hx.1
        | (rcases hx with hx | hx
           · exact ih.2.2 hx
           · exact hn hx.2)

end World
end Copra
