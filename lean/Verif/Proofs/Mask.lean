import Verif.Proofs.Compat

/-! # A history does not depend on objects it never mentions -/

namespace Copra
open Spec

set_option linter.unusedSectionVars false
set_option linter.unusedSimpArgs false

variable {K σ α : Type} [Field K] [LinearOrder K] [IsStrictOrderedRing K]

theorem foldlM_congr_mem {f g : σ → α → Option σ} :
    ∀ (L : List α) (s : σ), (∀ a ∈ L, ∀ s, f s a = g s a) → L.foldlM f s = L.foldlM g s := by
  intro L
  induction L with
  | nil => intro s _; rfl
  | cons b L ih =>
    intro s h
    rw [List.foldlM_cons, List.foldlM_cons, h b List.mem_cons_self]
    cases g s b with
    | none => rfl
    | some t => exact ih t (fun a ha => h a (List.mem_cons_of_mem _ ha))

theorem foldlM_map_mem {τ : Type} {f : σ → α → Option σ} {g : τ → α → Option τ} {m : σ → τ} :
    ∀ (L : List α) (s : σ), (∀ a ∈ L, ∀ s, g (m s) a = (f s a).map m) →
      L.foldlM g (m s) = (L.foldlM f s).map m := by
  intro L
  induction L with
  | nil => intro s _; rfl
  | cons b L ih =>
    intro s h
    rw [List.foldlM_cons, List.foldlM_cons, h b List.mem_cons_self]
    cases f s b with
    | none => rfl
    | some t => exact ih t (fun a ha => h a (List.mem_cons_of_mem _ ha))

namespace World

open Classical in
/-- The heap `h` with everything outside `P` replaced by `a`. -/
noncomputable def hide (P : Nat → Prop) (a : α) (h : Nat → α) : Nat → α := fun i => if P i then h i else a

theorem hide_in {P : Nat → Prop} {a : α} {h : Nat → α} {i : Nat} (hi : P i) : hide P a h i = h i := if_pos hi
theorem hide_out {P : Nat → Prop} {a : α} {h : Nat → α} {i : Nat} (hi : ¬ P i) : hide P a h i = a := if_neg hi

theorem hide_upd {P : Nat → Prop} {a : α} {h : Nat → α} {i : Nat} (hi : P i) (x : α) :
    hide P a (upd h i x) = upd (hide P a h) i x := by
  funext j
  unfold hide upd
  by_cases e : j = i
  · subst e; rw [if_pos hi, if_pos rfl, if_pos rfl]
  · rw [if_neg e, if_neg e]

/-- The world with the objects outside `P`, `C`, `Q` replaced by fresh ones. -/
noncomputable def mask (P C Q : Nat → Prop) (w : World K) : World K :=
  { w with
    pss := hide P PreviewSystem.default w.pss
    cons := hide C (Constr.mkTrajectory Mat.empty Vec.nil true) w.cons
    costs := hide Q (Cost.mkTrajectory Mat.empty (Vec.zero 0)) w.costs }

variable {P C Q : Nat → Prop}

theorem _root_.Copra.Res.map_map {α β γ : Type} (f : α → β) (g : β → γ) (r : Res α) : (r.map f).map g = r.map (g ∘ f) := by
  cases r <;> rfl

theorem mask_updateConstrs (ps : PreviewSystem K) {a : Constr K} (L : List Nat) (hL : ∀ i ∈ L, C i)
    (cons : Nat → Constr K) :
    L.foldlM (updateConstr ps) (hide C a cons) = (L.foldlM (updateConstr ps) cons).map (hide C a) := by
  refine foldlM_map_mem L cons ?_
  intro i hi s
  unfold updateConstr
  rw [hide_in (hL i hi)]
  cases (s i).update ps with
  | none => rfl
  | some c => exact congrArg some (hide_upd (hL i hi) c).symm

theorem mask_updateCosts (ps : PreviewSystem K) {a : Cost K} (L : List Nat) (hL : ∀ i ∈ L, Q i)
    (costs : Nat → Cost K) :
    L.foldlM (updateCost ps) (hide Q a costs) = (L.foldlM (updateCost ps) costs).map (hide Q a) := by
  refine foldlM_map_mem L costs ?_
  intro i hi s
  unfold updateCost
  rw [hide_in (hL i hi)]
  cases (s i).update ps with
  | none => rfl
  | some c => exact congrArg some (hide_upd (hL i hi) c).symm

/-- The controller mentions only visible objects. -/
structure Inside (P C Q : Nat → Prop) (l : LMPC K) : Prop where
  ps : ∀ p, l.ps = some p → P p
  cons : ∀ i ∈ l.spConstr, C i
  eq : ∀ i ∈ l.spEqConstr, C i
  ineq : ∀ i ∈ l.spIneqConstr, C i
  bound : ∀ i ∈ l.spBoundConstr, C i
  costs : ∀ i ∈ l.spCost, Q i

theorem mask_updateNr {a : Constr K} {cons : Nat → Constr K} {l : LMPC K} (h : Inside P C Q l) :
    l.updateNr (hide C a cons) = l.updateNr cons := by
  unfold LMPC.updateNr LMPC.countConstr
  rw [foldlM_congr_mem l.spEqConstr 0 (fun i hi s => by rw [hide_in (h.eq i hi)]),
    foldlM_congr_mem l.spIneqConstr 0 (fun i hi s => by rw [hide_in (h.ineq i hi)])]

theorem mask_makeQPForm {a : Constr K} {b : Cost K} {cons : Nat → Constr K} {costs : Nat → Cost K} {inv : Mat K → Mat K}
    {ps : PreviewSystem K} {l : LMPC K} (h : Inside P C Q l) :
    l.makeQPForm inv (hide C a cons) (hide Q b costs) ps = l.makeQPForm inv cons costs ps := by
  unfold LMPC.makeQPForm
  split
  · unfold LMPC.makeQPFormInit
    rw [foldlM_congr_mem (g := LMPC.addCostTermsInit costs ps) l.spCost l
      (fun i hi s => by unfold LMPC.addCostTermsInit; rw [hide_in (h.costs i hi)])]
    cases hl : l.spCost.foldlM (LMPC.addCostTermsInit costs ps) l with
    | none => rfl
    | some l1 =>
      have f := foldlM_rel (R := LMPC.Fixed) LMPC.Fixed.refl LMPC.Fixed.trans
        (fun _ _ _ h => LMPC.addCostTermsInit_fixed h) _ hl
      simp only [Option.bind_eq_bind, Option.bind_some]
      rw [foldlM_congr_mem (g := LMPC.putRowsInit cons ps) l1.spEqConstr _
          (fun i hi s => by rw [f.spEqConstr] at hi; unfold LMPC.putRowsInit; rw [hide_in (h.eq i hi)]),
        foldlM_congr_mem (g := LMPC.putRowsInit cons ps) l1.spIneqConstr _
          (fun i hi s => by rw [f.spIneqConstr] at hi; unfold LMPC.putRowsInit; rw [hide_in (h.ineq i hi)]),
        foldlM_congr_mem (g := LMPC.putBounds cons) l1.spBoundConstr _
          (fun i hi s => by rw [f.spBoundConstr] at hi; unfold LMPC.putBounds; rw [hide_in (h.bound i hi)])]
  · unfold LMPC.makeQPFormBase
    rw [foldlM_congr_mem (g := LMPC.addCostTerms costs) l.spCost l
      (fun i hi s => by unfold LMPC.addCostTerms; rw [hide_in (h.costs i hi)])]
    cases hl : l.spCost.foldlM (LMPC.addCostTerms costs) l with
    | none => rfl
    | some l1 =>
      have f := foldlM_rel (R := LMPC.Fixed) LMPC.Fixed.refl LMPC.Fixed.trans
        (fun _ _ _ h => LMPC.addCostTerms_fixed h) _ hl
      simp only [Option.bind_eq_bind, Option.bind_some]
      rw [foldlM_congr_mem (g := LMPC.putRows cons ps) l1.spEqConstr _
          (fun i hi s => by rw [f.spEqConstr] at hi; unfold LMPC.putRows; rw [hide_in (h.eq i hi)]),
        foldlM_congr_mem (g := LMPC.putRows cons ps) l1.spIneqConstr _
          (fun i hi s => by rw [f.spIneqConstr] at hi; unfold LMPC.putRows; rw [hide_in (h.ineq i hi)]),
        foldlM_congr_mem (g := LMPC.putBounds cons) l1.spBoundConstr _
          (fun i hi s => by rw [f.spBoundConstr] at hi; unfold LMPC.putBounds; rw [hide_in (h.bound i hi)])]

theorem Inside.fixed {l l' : LMPC K} (h : Inside P C Q l) (f : LMPC.Fixed l l') : Inside P C Q l' := by
  refine ⟨?_, ?_, ?_, ?_, ?_, ?_⟩
  · rw [f.ps]; exact h.ps
  · rw [f.spConstr]; exact h.cons
  · rw [f.spEqConstr]; exact h.eq
  · rw [f.spIneqConstr]; exact h.ineq
  · rw [f.spBoundConstr]; exact h.bound
  · rw [f.spCost]; exact h.costs

theorem mask_updateSystem (junk : Junk K) (w : World K) (h : Inside P C Q w.ctl) :
    (mask P C Q w).updateSystem junk = (w.updateSystem junk).map (mask P C Q) := by
  rw [updateSystem_eq, updateSystem_eq]
  show (w.ctl.ps.bind _) = _
  cases hp : w.ctl.ps with
  | none => rfl
  | some p =>
    have hP := h.ps p hp
    simp only [Option.bind_some, mask, hide_in hP]
    cases (if (w.pss p).isUpdated then some (w.pss p) else (w.pss p).updateSystem) with
    | none => rfl
    | some ps =>
      simp only [Option.bind_some]
      generalize hl : ({ w.ctl with
        Q := (Mat.identity w.ctl.Q.rows w.ctl.Q.cols).scale (1 / 1000000)
        c := Vec.zero w.ctl.c.rows } : LMPC K) = l
      have hin : Inside P C Q l := by subst hl; exact ⟨h.ps, h.cons, h.eq, h.ineq, h.bound, h.costs⟩
      rw [mask_updateNr hin]
      cases h1 : LMPC.updateNr w.cons l with
      | none => rfl
      | some l1 =>
        simp only [Option.bind_some]
        cases h2 : l1.updateConstraintMatrixSize junk ps with
        | none => rfl
        | some l2 =>
          have f1 := (LMPC.updateNr_fixed h1).1
          have f2 := f1.trans (LMPC.updateConstraintMatrixSize_fixed h2).1
          simp only [Option.bind_some]
          rw [mask_updateConstrs ps l2.spConstr (by rw [f2.spConstr]; exact hin.cons),
            mask_updateCosts ps l2.spCost (by rw [f2.spCost]; exact hin.costs)]
          cases l2.spConstr.foldlM (updateConstr ps) w.cons with
          | none => rfl
          | some cons =>
            simp only [Option.bind_some, Option.map_some]
            cases l2.spCost.foldlM (updateCost ps) w.costs with
            | none => rfl
            | some costs =>
              simp only [Option.bind_some, Option.map_some, mask, hide_upd hP]

theorem mask_solve (env : SolveEnv K) (w : World K) (h : Inside P C Q w.ctl) :
    (mask P C Q w).solve env = (w.solve env).map fun r => (mask P C Q r.1, r.2) := by
  unfold solve
  rw [mask_updateSystem _ _ h]
  cases hu : w.updateSystem env.junk with
  | none => rfl
  | some w1 =>
    obtain ⟨p, ps, l1, l2, cons, costs, hp, -, -, -, -, -, rfl, f⟩ := updateSystem_inv hu
    have h' := h.fixed f
    simp only [Option.bind_eq_bind, Option.bind_some, Option.map_some, mask]
    have hp2 : l2.ps = some p := by rw [f.ps, hp]
    rw [hp2]
    simp only [Option.bind_some, hide_in (h.ps p hp), mask_makeQPForm h']
    cases LMPC.makeQPForm env.inverse cons costs _ l2 with
    | none => rfl
    | some l3 =>
      simp only [Option.bind_some]
      cases l3.sol with
      | none => rfl
      | some s =>
        simp only [Option.bind_some]
        split
        · generalize LMPC.updateResults (K := K) _ _ = o
          cases o <;> rfl
        · rfl

theorem mask_step {dmax : K} {w : World K} {op : Op K} (h : Inside P C Q w.ctl) (ho : Only P C Q op) :
    (mask P C Q w).step dmax op = (w.step dmax op).map (mask P C Q) := by
  have upp : ∀ {p : Nat} (hp : P p) (s : PreviewSystem K),
      ({ mask P C Q w with pss := upd (mask P C Q w).pss p s } : World K) = mask P C Q { w with pss := upd w.pss p s } := by
    intro p hp s; simp only [mask, hide_upd hp]
  have upc : ∀ {i : Nat} (hi : C i) (c : Constr K),
      ({ mask P C Q w with cons := upd (mask P C Q w).cons i c } : World K) = mask P C Q { w with cons := upd w.cons i c } := by
    intro i hi c; simp only [mask, hide_upd hi]
  have upk : ∀ {i : Nat} (hi : Q i) (c : Cost K),
      ({ mask P C Q w with costs := upd (mask P C Q w).costs i c } : World K) = mask P C Q { w with costs := upd w.costs i c } := by
    intro i hi c; simp only [mask, hide_upd hi]
  have ep : ∀ {p : Nat}, P p → (mask P C Q w).pss p = w.pss p := fun hp => hide_in hp
  have ec : ∀ {i : Nat}, C i → (mask P C Q w).cons i = w.cons i := fun hp => hide_in hp
  have ek : ∀ {i : Nat}, Q i → (mask P C Q w).costs i = w.costs i := fun hp => hide_in hp
  cases op <;> simp only [Only] at ho <;> simp only [World.step]
  case solve env =>
    rw [mask_solve env w h]
    cases w.solve env <;> rfl
  case clearConstraints =>
    unfold clearConstraints
    show Res.ofOption (w.ctl.ps.bind _) = (Res.ofOption (w.ctl.ps.bind _)).map _
    cases hp : w.ctl.ps with
    | none => rfl
    | some p =>
      simp only [Option.bind_some, Option.bind_eq_bind, ep (h.ps p hp)]
      show Res.ofOption ((w.ctl.clearRegistry.clearConstraintMatrices dmax (w.pss p)).bind _) = _
      cases w.ctl.clearRegistry.clearConstraintMatrices dmax (w.pss p) <;> rfl
  case addCost i junk =>
    unfold addCost
    show (match w.ctl.ps with | none => _ | some p => _) = Res.map _ (match w.ctl.ps with | none => _ | some p => _)
    cases hp : w.ctl.ps with
    | none => rfl
    | some p =>
      simp only [ep (h.ps p hp), ek ho]
      cases (w.costs i).initializeCost junk (w.pss p) with
      | ok c => simp only [Res.map, mask, hide_upd ho]
      | thrown e c => simp only [Res.map, mask, hide_upd ho]
      | ub => rfl
  case addConstraint i junk =>
    unfold addConstraint
    show (match w.ctl.ps with | none => _ | some p => _) = Res.map _ (match w.ctl.ps with | none => _ | some p => _)
    cases hp : w.ctl.ps with
    | none => rfl
    | some p =>
      simp only [ep (h.ps p hp), ec ho]
      cases (w.cons i).initializeConstraint junk (w.pss p) with
      | ok c =>
        simp only
        show (match w.ctl.addConstraintByType i c with | some l => _ | none => _) = _
        cases w.ctl.addConstraintByType i c with
        | none => rfl
        | some l => simp only [Res.map, mask, hide_upd ho]
      | thrown e c => simp only [Res.map, mask, hide_upd ho]
      | ub => rfl
  case system p A B d x0 N =>
    rw [ep ho]; simp only [upp ho]; rw [Res.map_map]; rfl
  case xInit p x => rw [ep ho, upp ho]; rfl
  case setDynamics p A B d => rw [ep ho, upp ho]; rfl
  case updatePs p => rw [ep ho]; simp only [upp ho]; rw [Res.map_map]; rfl
  case spanConstr => rw [ec ho]; simp only [upc ho]; rw [Res.map_map]; rfl
  case initConstr => rw [ec ho.1, ep ho.2]; simp only [upc ho.1]; rw [Res.map_map]; rfl
  case updateConstr => rw [ec ho.1, ep ho.2]; simp only [upc ho.1]; rw [Res.map_map]; rfl
  case spanCost => rw [ek ho]; simp only [upk ho]; rw [Res.map_map]; rfl
  case weights => rw [ek ho]; simp only [upk ho]; rw [Res.map_map]; rfl
  case weight => rw [ek ho, upk ho]; rfl
  case initCost => rw [ek ho.1, ep ho.2]; simp only [upk ho.1]; rw [Res.map_map]; rfl
  case updateCost => rw [ek ho.1, ep ho.2]; simp only [upk ho.1]; rw [Res.map_map]; rfl
  case constructPs => rw [ep ho]; rw [Res.map_map]; rfl
  case initializeController => rw [ep ho]; rw [Res.map_map]; rfl
  case removeConstraint => rw [ec ho]; rw [Res.map_map]; rfl
  all_goals rfl

end World
end Copra
