import Verif.SpecFields
import Verif.Props.Refine

/-! # Assignments to the members of a preview system: every program is matched by one of `Hist` -/

namespace Copra
open Spec

set_option linter.unusedSectionVars false
variable {K : Type} [Field K]

namespace PreviewSystem

/-- Replace `A`, `B`, `d`. -/
def put (ps : PreviewSystem K) (v : Dynamics K) : PreviewSystem K := { ps with A := v.A, B := v.B, d := v.d }

/-- Set `isUpdated`. -/
def flag (b : Bool) (ps : PreviewSystem K) : PreviewSystem K := { ps with isUpdated := b }

theorem foldlM_map {σ : Type} (t : σ → σ) (f : Nat → σ → Option σ) (hf : ∀ i s, f i (t s) = (f i s).map t)
    (l : List Nat) (s : σ) : l.foldlM (fun s i => f i s) (t s) = (l.foldlM (fun s i => f i s) s).map t := by
  induction l generalizing s with
  | nil => rfl
  | cons i l ih =>
    simp only [List.foldlM_cons, Option.bind_eq_bind]
    rw [hf]
    cases f i s with
    | none => rfl
    | some a => exact ih a

theorem updateStep_flag (b : Bool) (i : Nat) (ps : PreviewSystem K) :
    updateStep i (flag b ps) = (updateStep i ps).map (flag b) := by
  unfold updateStep
  simp only [Option.bind_eq_bind, Option.map_bind, Function.comp_def, Option.pure_def, Option.map_some]
  rfl

theorem updateSystem_flag (b : Bool) (ps : PreviewSystem K) : (flag b ps).updateSystem = ps.updateSystem := by
  unfold updateSystem
  simp only [Option.bind_eq_bind]
  refine Option.bind_congr fun Phi _ => Option.bind_congr fun Psi _ => Option.bind_congr fun xi _ => ?_
  have := foldlM_map (flag b) updateStep (updateStep_flag b) (List.range' 2 (ps.nrXStep - 2))
    ({ ps with Phi := Phi, Psi := Psi, xi := xi } : PreviewSystem K)
  have h2 : loop 2 (flag b ps).nrXStep updateStep ({ flag b ps with Phi := Phi, Psi := Psi, xi := xi } : PreviewSystem K) =
      (loop 2 ps.nrXStep updateStep ({ ps with Phi := Phi, Psi := Psi, xi := xi } : PreviewSystem K)).map (flag b) := this
  rw [h2]
  cases loop 2 ps.nrXStep updateStep ({ ps with Phi := Phi, Psi := Psi, xi := xi } : PreviewSystem K) <;> rfl

theorem updateSystem_members {ps ps' : PreviewSystem K} (h : ps.updateSystem = some ps') :
    members ps' = members ps ∧ ps'.isUpdated = true ∧ ps'.nrUStep = ps.nrUStep := by
  refine ⟨?_, ?_, updateSystem_nrU h⟩
  · unfold updateSystem at h
    simp only [Option.bind_eq_bind, Option.bind_eq_some_iff, Option.pure_def, Option.some.injEq] at h
    obtain ⟨_, _, _, _, _, _, q, hq, rfl⟩ := h
    have key : ∀ (l : List Nat) (s q : PreviewSystem K), l.foldlM (fun s i => updateStep i s) s = some q →
        members q = members s := by
      intro l
      induction l with
      | nil => intro s q h; cases h; rfl
      | cons i l ih =>
        intro s q h
        simp only [List.foldlM_cons, Option.bind_eq_bind, Option.bind_eq_some_iff] at h
        obtain ⟨a, ha, h⟩ := h
        rw [ih a q h]
        unfold updateStep at ha
        simp only [Option.bind_eq_bind, Option.bind_eq_some_iff, Option.pure_def, Option.some.injEq] at ha
        obtain ⟨_, _, _, _, _, _, _, _, _, _, _, _, _, _, _, _, _, _, _, _, _, _, rfl⟩ := ha
        rfl
    have := key _ _ _ hq
    exact this
  · unfold updateSystem at h
    simp only [Option.bind_eq_bind, Option.bind_eq_some_iff, Option.pure_def, Option.some.injEq] at h
    obtain ⟨_, _, _, _, _, _, q, hq, rfl⟩ := h
    rfl

end PreviewSystem

namespace Constr
theorem update_put (c : Constr K) (ps : PreviewSystem K) (v : Dynamics K) : c.update (ps.put v) = c.update ps := by
  unfold update; rfl
theorem init_put (j : Junk K) (c : Constr K) (ps : PreviewSystem K) (v : Dynamics K) :
    c.initializeConstraint j (ps.put v) = c.initializeConstraint j ps := by
  unfold initializeConstraint; rfl
end Constr
namespace Cost
theorem update_put (c : Cost K) (ps : PreviewSystem K) (v : Dynamics K) : c.update (ps.put v) = c.update ps := by
  unfold update; rfl
theorem init_put (j : Junk K) (c : Cost K) (ps : PreviewSystem K) (v : Dynamics K) :
    c.initializeCost j (ps.put v) = c.initializeCost j ps := by
  unfold initializeCost; rfl
end Cost

namespace World

theorem put_showing (w : World K) (v : Nat → Dynamics K) (q : Nat) :
    (showing w v).pss q = (w.pss q).put (inForce w v q) := rfl

theorem put_members (ps : PreviewSystem K) : ps.put (members ps) = ps := rfl

/-- Replacing one system, seen through `showing`. -/
theorem showing_upd {w : World K} {v v' : Nat → Dynamics K} {p : Nat} {s : PreviewSystem K}
    (hv : ∀ q, q ≠ p → inForce w v' q = inForce w v q) :
    showing { w with pss := upd w.pss p s } v' =
      { showing w v with pss := upd (showing w v).pss p (s.put (if s.isUpdated then v' p else members s)) } := by
  unfold showing
  congr 1
  funext q
  by_cases h : q = p
  · subst h
    simp only [upd, if_true, inForce]
    rfl
  · have h2 := hv q h
    simp only [upd, if_neg h]
    unfold inForce at h2 ⊢
    simp only [upd, if_neg h]
    rw [h2]

theorem showing_ofOption {α β : Type} (o : Option α) (f : α → β) : (Res.ofOption o).map f = Res.ofOption (o.map f) := by
  cases o <;> rfl

theorem remember_other (w : World K) (op : Op K) (v : Nat → Dynamics K) (h1 : ∀ p, op ≠ .updatePs p)
    (h2 : ∀ e, op ≠ .solve e) : remember w (.call op) v = v := by
  funext q
  unfold remember
  cases op <;> first | rfl | exact absurd rfl (h1 _) | exact absurd rfl (h2 _)

/-- The prediction matrices of the controller's system are brought up to date in the same way. -/
theorem updateSystem_showing (junk : Junk K) (w : World K) (v : Nat → Dynamics K) (env : SolveEnv K) :
    (showing w v).updateSystem junk =
      (w.updateSystem junk).map fun w' => showing w' (remember w (.call (.solve env)) v) := by
  unfold updateSystem
  simp only [Option.bind_eq_bind, Option.map_bind, Function.comp_def, Option.pure_def]
  have hctl : (showing w v).ctl = w.ctl := rfl
  rw [hctl]
  refine Option.bind_congr fun p hp => ?_
  by_cases hu : (w.pss p).isUpdated = true
  · have hu' : ((showing w v).pss p).isUpdated = true := hu
    rw [if_pos hu, if_pos hu']
    have hA : updateConstr ((showing w v).pss p) = updateConstr (w.pss p) := rfl
    have hB : updateCost ((showing w v).pss p) = updateCost (w.pss p) := rfl
    have hC : ∀ l : LMPC K, l.updateConstraintMatrixSize junk ((showing w v).pss p) =
      l.updateConstraintMatrixSize junk (w.pss p) := fun _ => rfl
    have hD : (showing w v).cons = w.cons := rfl
    have hE : (showing w v).costs = w.costs := rfl
    simp only [Option.bind_some, Option.map_bind, Function.comp_def, Option.map_some, hA, hB, hC, hD, hE]
    refine Option.bind_congr fun l _ => Option.bind_congr fun l' _ => Option.bind_congr fun cons _ =>
      Option.bind_congr fun costs _ => ?_
    have hr : ∀ q, inForce w (remember w (.call (.solve env)) v) q = inForce w v q := by
      intro q
      unfold inForce remember recomputes
      cases hq : (w.pss q).isUpdated <;> simp [hq]
    congr 1
    have h1 := showing_upd (w := w) (v := v) (v' := remember w (.call (.solve env)) v) (p := p) (s := w.pss p)
      (fun q _ => hr q)
    have h2 : (w.pss p).put (if (w.pss p).isUpdated = true then remember w (.call (.solve env)) v p else members (w.pss p)) =
        (showing w v).pss p := by rw [put_showing]; exact congrArg _ (hr p)
    rw [h2] at h1
    have h3 := congrArg World.pss h1
    unfold showing at h3 ⊢
    simp only [World.mk.injEq, and_true]
    exact h3.symm
  · have hu' : ¬ ((showing w v).pss p).isUpdated = true := hu
    rw [if_neg hu, if_neg hu']
    have hf : (w.pss p).isUpdated = false := by simpa using hu
    have h0 : (showing w v).pss p = w.pss p := by
      rw [put_showing]
      unfold inForce
      rw [if_neg hu]
      rfl
    rw [h0]
    have hD : (showing w v).cons = w.cons := rfl
    have hE : (showing w v).costs = w.costs := rfl
    simp only [Option.map_bind, Function.comp_def, Option.map_some, hD, hE]
    refine Option.bind_congr fun ps hps => ?_
    obtain ⟨m1, m2, _⟩ := PreviewSystem.updateSystem_members hps
    refine Option.bind_congr fun l _ => Option.bind_congr fun l' _ => Option.bind_congr fun cons _ =>
      Option.bind_congr fun costs _ => ?_
    congr 1
    have hr : ∀ q, q ≠ p → inForce w (remember w (.call (.solve env)) v) q = inForce w v q := by
      intro q hq
      have : (some p == some q) = false := by simpa using fun h => hq h.symm
      unfold inForce remember recomputes
      simp [hp, this]
    have h1 := showing_upd (w := w) (v := v) (v' := remember w (.call (.solve env)) v) (p := p) (s := ps) hr
    have h2 : ps.put (if ps.isUpdated = true then remember w (.call (.solve env)) v p else members ps) = ps := by
      rw [if_pos m2]
      have : remember w (.call (.solve env)) v p = members ps := by
        rw [m1]
        unfold remember recomputes
        simp [hp, hf]
      rw [this]
      rfl
    rw [h2] at h1
    have h3 := congrArg World.pss h1
    unfold showing at h3 ⊢
    simp only [World.mk.injEq, and_true]
    exact h3.symm

theorem updateResults_put (l : LMPC K) (ps : PreviewSystem K) (u : Dynamics K) :
    l.updateResults (ps.put u) = l.updateResults ps := rfl

theorem makeQPForm_put (inv : Mat K → Mat K) (cons : Nat → Constr K) (costs : Nat → Cost K) (l : LMPC K)
    (ps : PreviewSystem K) (u : Dynamics K) :
    l.makeQPForm inv cons costs (ps.put u) = l.makeQPForm inv cons costs ps := rfl

theorem solve_showing (env : SolveEnv K) (w : World K) (v : Nat → Dynamics K) :
    (showing w v).solve env =
      (w.solve env).map fun r => (showing r.1 (remember w (.call (.solve env)) v), r.2.1, r.2.2) := by
  unfold solve
  rw [updateSystem_showing env.junk w v env]
  generalize remember w (.call (.solve env)) v = v'
  cases w.updateSystem env.junk with
  | none => rfl
  | some w1 =>
    simp only [Option.map_some, Option.bind_eq_bind, Option.bind_some, Option.map_bind, Function.comp_def,
      Option.pure_def]
    have hctl : (showing w1 v').ctl = w1.ctl := rfl
    rw [hctl]
    refine Option.bind_congr fun p _ => ?_
    rw [put_showing, makeQPForm_put]
    refine Option.bind_congr fun l _ => Option.bind_congr fun s _ => ?_
    have hX : (showing w1 v').extCons = w1.extCons := rfl
    have hY : (showing w1 v').extCosts = w1.extCosts := rfl
    simp only [updateResults_put, hX, hY]
    generalize LMPC.checkDelete w1.extCons w1.extCosts _ = l2
    split
    · cases l2.updateResults (w1.pss p) <;> rfl
    · rfl

/-- Every call except `updateSystem()` on a preview system does the same with the dynamics in force as members. -/
theorem step_showing (dmax : K) (w : World K) (v : Nat → Dynamics K) (op : Op K) (h : ∀ p, op ≠ .updatePs p) :
    (showing w v).step dmax op = (w.step dmax op).map fun w' => showing w' (remember w (.call op) v) := by
  by_cases hs : ∃ e, op = .solve e
  · obtain ⟨e, rfl⟩ := hs
    unfold step
    dsimp only
    rw [solve_showing, showing_ofOption]
    cases w.solve e <;> rfl
  · push Not at hs
    rw [remember_other w op v h hs]
    cases op with
    | system p A B d x0 N =>
      unfold step
      dsimp only
      rw [put_showing]
      unfold PreviewSystem.system
      have hput : (w.pss p).put (inForce w v p) = (w.pss p).put (if (w.pss p).isUpdated = true then v p else members (w.pss p)) := rfl
      have thr : (Res.thrown Exn.domainError ((w.pss p).put (inForce w v p))).map
          (fun s => { showing w v with pss := upd (showing w v).pss p s }) =
          ((Res.thrown Exn.domainError (w.pss p)).map fun s => { w with pss := upd w.pss p s }).map
            fun w' => showing w' v := by
        unfold Res.map
        dsimp only
        rw [showing_upd (w := w) (v := v) (v' := v) (fun _ _ => rfl), hput]
      split
      · exact thr
      split
      · exact thr
      split
      · exact thr
      split
      · exact thr
      split
      · exact thr
      · rw [showing_ofOption, showing_ofOption, showing_ofOption]
        cases hb : PreviewSystem.systemBody A B d x0 N.toNat with
        | none => rfl
        | some s =>
          have hn : s.isUpdated = false := by
            unfold PreviewSystem.systemBody at hb
            simp only [Option.bind_eq_bind, Option.bind_eq_some_iff, Option.pure_def, Option.some.injEq] at hb
            obtain ⟨_, _, _, _, _, _, _, _, _, _, _, _, rfl⟩ := hb
            rfl
          simp only [Option.map_some]
          rw [showing_upd (w := w) (v := v) (v' := v) (fun _ _ => rfl), hn]
          rfl
    | xInit p x =>
      unfold step Res.map
      dsimp only
      rw [showing_upd (w := w) (v := v) (v' := v) (fun _ _ => rfl)]
      rfl
    | setDynamics p A B d =>
      unfold step Res.map
      dsimp only
      rw [showing_upd (w := w) (v := v) (v' := v) (fun _ _ => rfl)]
      rfl
    | updatePs p => exact absurd rfl (h p)
    | solve e => exact absurd rfl (hs e)
    | spanConstr i junk => unfold step; dsimp only; cases h : (w.cons i).autoSpan junk <;> (simp only [showing, Res.map, h]; try rfl)
    | initConstr i p junk =>
      unfold step
      dsimp only
      rw [put_showing, Constr.init_put]
      cases h : (w.cons i).initializeConstraint junk (w.pss p) <;> simp only [showing, Res.map, h] <;> rfl
    | updateConstr i p =>
      unfold step
      dsimp only
      rw [put_showing, Constr.update_put]
      cases h : (w.cons i).update (w.pss p) <;> simp only [showing, Res.map, Res.ofOption, h] <;> rfl
    | spanCost i junk => unfold step; dsimp only; cases h : (w.costs i).autoSpan junk <;> (simp only [showing, Res.map, h]; try rfl)
    | weights i x => unfold step; dsimp only; cases h : (w.costs i).setWeights x <;> (simp only [showing, Res.map, h]; try rfl)
    | initCost i p junk =>
      unfold step
      dsimp only
      rw [put_showing, Cost.init_put]
      cases h : (w.costs i).initializeCost junk (w.pss p) <;> simp only [showing, Res.map, h] <;> rfl
    | updateCost i p =>
      unfold step
      dsimp only
      rw [put_showing, Cost.update_put]
      cases h : (w.costs i).update (w.pss p) <;> simp only [showing, Res.map, Res.ofOption, h] <;> rfl
    | constructPs isInit s p junk =>
      unfold step
      dsimp only
      have : (seedInit (LMPC.construct isInit s) ((showing w v).pss p)).initializeController dmax junk p ((showing w v).pss p) =
        (seedInit (LMPC.construct isInit s) (w.pss p)).initializeController dmax junk p (w.pss p) := rfl
      rw [this]
      cases h : (seedInit (LMPC.construct isInit s) (w.pss p)).initializeController dmax junk p (w.pss p) <;> rfl
    | initializeController p junk =>
      unfold step
      dsimp only
      have : w.ctl.initializeController dmax junk p ((showing w v).pss p) =
        w.ctl.initializeController dmax junk p (w.pss p) := rfl
      have hctl : (showing w v).ctl = w.ctl := rfl
      rw [hctl, this]
      cases h : w.ctl.initializeController dmax junk p (w.pss p) <;> rfl
    | addCost i junk =>
      unfold step addCost
      dsimp only
      have hctl : (showing w v).ctl = w.ctl := rfl
      rw [hctl]
      cases w.ctl.ps with
      | none => rfl
      | some p =>
        dsimp only
        rw [put_showing, Cost.init_put]
        have : (showing w v).costs = w.costs := rfl
        rw [this]
        cases (w.costs i).initializeCost junk (w.pss p) <;> rfl
    | addConstraint i junk =>
      unfold step addConstraint
      dsimp only
      have hctl : (showing w v).ctl = w.ctl := rfl
      rw [hctl]
      cases w.ctl.ps with
      | none => rfl
      | some p =>
        dsimp only
        rw [put_showing, Constr.init_put]
        have : (showing w v).cons = w.cons := rfl
        rw [this]
        cases (w.cons i).initializeConstraint junk (w.pss p) with
        | ok c =>
          dsimp only
          cases w.ctl.addConstraintByType i c <;> rfl
        | thrown e c => rfl
        | ub => rfl
    | removeConstraint i =>
      unfold step
      dsimp only
      have : (showing w v).ctl.removeConstraint i ((showing w v).cons i) = w.ctl.removeConstraint i (w.cons i) := rfl
      rw [this]
      cases w.ctl.removeConstraint i (w.cons i) <;> rfl
    | clearConstraints =>
      unfold step clearConstraints
      dsimp only
      have hctl : (showing w v).ctl = w.ctl := rfl
      rw [hctl]
      cases w.ctl.ps with
      | none => rfl
      | some p =>
        have : w.ctl.clearRegistry.clearConstraintMatrices dmax ((showing w v).pss p) =
          w.ctl.clearRegistry.clearConstraintMatrices dmax (w.pss p) := rfl
        simp only [Option.bind_eq_bind, Option.bind_some]
        rw [this]
        cases w.ctl.clearRegistry.clearConstraintMatrices dmax (w.pss p) <;> rfl
    | _ => rfl

/-- `updateSystem()` on a preview system computes with the current members. -/
theorem updatePs_showing (dmax : K) (w : World K) (v : Nat → Dynamics K) (p : Nat) :
    ({ showing w v with pss := upd (showing w v).pss p (((showing w v).pss p).setDynamics (w.pss p).A (w.pss p).B (w.pss p).d) }
      : World K).step dmax (.updatePs p) =
      (w.step dmax (.updatePs p)).map fun w' => showing w' (remember w (.call (.updatePs p)) v) := by
  unfold step
  dsimp only
  have h1 : upd (showing w v).pss p (((showing w v).pss p).setDynamics (w.pss p).A (w.pss p).B (w.pss p).d) p =
      PreviewSystem.flag false (w.pss p) := by
    unfold upd
    rw [if_pos rfl]
    rfl
  rw [h1, PreviewSystem.updateSystem_flag, showing_ofOption, showing_ofOption, showing_ofOption]
  cases hu : (w.pss p).updateSystem with
  | none => rfl
  | some s =>
    obtain ⟨m1, m2, _⟩ := PreviewSystem.updateSystem_members hu
    simp only [Option.map_some]
    rw [showing_upd (w := w) (v := v) (v' := remember w (.call (.updatePs p)) v), if_pos m2]
    · have h2 : remember w (.call (.updatePs p)) v p = members s := by
        rw [m1]
        unfold remember recomputes
        simp
      have h3 : s.put (remember w (.call (.updatePs p)) v p) = s := by rw [h2]; rfl
      rw [h3]
      have h4 : upd (upd (showing w v).pss p (((showing w v).pss p).setDynamics (w.pss p).A (w.pss p).B (w.pss p).d)) p s =
          upd (showing w v).pss p s := by
        funext q
        unfold upd
        split <;> rfl
      rw [h4]
    · intro q hq
      unfold inForce remember recomputes
      simp [hq]

variable [LinearOrder K] [IsStrictOrderedRing K]

/-- The members and the presence of a system after a call. -/
theorem step_members {dmax : K} {w w' : World K} {op : Op K} (h : w.step dmax op = .ok w' ∨ ∃ e, w.step dmax op = .thrown e w')
    (q : Nat) :
    (members (w'.pss q) = members (w.pss q) ∧ (w'.pss q).nrUStep = (w.pss q).nrUStep) ∨
    (∃ A B v x0 N, op = .system q A B v x0 N ∧ members (w'.pss q) = ⟨A, B, v⟩ ∧
      x0.rows = A.rows ∧ A.rows = A.cols ∧ x0.rows = B.rows ∧ x0.rows = v.rows) ∨
    ∃ A B v, op = .setDynamics q A B v ∧ members (w'.pss q) = ⟨A, B, v⟩ := by
  have other : ∀ p, q ≠ p → ∀ s, upd w.pss p s q = w.pss q := fun p hp s => by unfold upd; rw [if_neg hp]
  have same : ∀ s, upd w.pss q s q = s := fun s => by unfold upd; rw [if_pos rfl]
  cases op with
  | system p A B v x0 N =>
    unfold step at h
    dsimp only at h
    unfold PreviewSystem.system at h
    by_cases hp : q = p
    · subst hp
      by_cases c1 : x0.rows ≠ A.rows
      · rw [if_pos c1] at h
        rcases h with h | ⟨e, h⟩ <;> unfold Res.map at h <;> cases h
        left; dsimp only; rw [same]; exact ⟨rfl, rfl⟩
      rw [if_neg c1] at h
      by_cases c2 : A.rows ≠ A.cols
      · rw [if_pos c2] at h
        rcases h with h | ⟨e, h⟩ <;> unfold Res.map at h <;> cases h
        left; dsimp only; rw [same]; exact ⟨rfl, rfl⟩
      rw [if_neg c2] at h
      by_cases c3 : x0.rows ≠ B.rows
      · rw [if_pos c3] at h
        rcases h with h | ⟨e, h⟩ <;> unfold Res.map at h <;> cases h
        left; dsimp only; rw [same]; exact ⟨rfl, rfl⟩
      rw [if_neg c3] at h
      by_cases c4 : x0.rows ≠ v.rows
      · rw [if_pos c4] at h
        rcases h with h | ⟨e, h⟩ <;> unfold Res.map at h <;> cases h
        left; dsimp only; rw [same]; exact ⟨rfl, rfl⟩
      rw [if_neg c4] at h
      by_cases c5 : N ≤ 0
      · rw [if_pos c5] at h
        rcases h with h | ⟨e, h⟩ <;> unfold Res.map at h <;> cases h
        left; dsimp only; rw [same]; exact ⟨rfl, rfl⟩
      rw [if_neg c5] at h
      push Not at c1 c2 c3 c4
      right; left
      refine ⟨A, B, v, x0, N, rfl, ?_, c1, c2, c3, c4⟩
      cases hb : PreviewSystem.systemBody A B v x0 N.toNat with
      | none => rw [hb] at h; rcases h with h | ⟨e, h⟩ <;> simp [Res.ofOption, Res.map] at h
      | some s =>
        rw [hb] at h
        unfold PreviewSystem.systemBody at hb
        simp only [Option.bind_eq_bind, Option.bind_eq_some_iff, Option.pure_def, Option.some.injEq] at hb
        obtain ⟨_, _, _, _, _, _, _, _, _, _, _, _, rfl⟩ := hb
        rcases h with h | ⟨e, h⟩
        · simp only [Res.ofOption, Res.map, Res.ok.injEq] at h
          subst h
          dsimp only
          rw [same]
          rfl
        · simp [Res.ofOption, Res.map] at h
    · left
      have : ∀ r : Res (PreviewSystem K), (r.map (fun s => { w with pss := upd w.pss p s }) = .ok w' ∨
          ∃ e, r.map (fun s => { w with pss := upd w.pss p s }) = .thrown e w') → w'.pss q = w.pss q := by
        intro r h
        cases r <;> simp only [Res.map] at h <;> rcases h with h | ⟨e, h⟩ <;> cases h <;> exact other p hp _
      rw [this _ h]
      exact ⟨rfl, rfl⟩
  | setDynamics p A B v =>
    unfold step at h
    rcases h with h | ⟨e, h⟩ <;> cases h
    by_cases hp : q = p
    · subst hp
      right; right
      refine ⟨A, B, v, rfl, ?_⟩
      dsimp only
      rw [same]
      rfl
    · left; dsimp only; rw [other p hp]; exact ⟨rfl, rfl⟩
  | _ =>
    left
    obtain ⟨a, b, c⟩ := (Steps.pssChange h q).1 (fun h => h)
    refine ⟨?_, Steps.nrU h q (by simp)⟩
    unfold members
    rw [a, b, c]

theorem opOk_showing {d : Dims} {w : World K} {g : Ghost} {op : Op K} (v : Nat → Dynamics K) (h : OpOk d w g op) :
    OpOk d (showing w v) g op := by
  cases op <;> exact h

theorem next_showing (g : Ghost) (w : World K) (v : Nat → Dynamics K) (ok : Prop) (op : Op K) :
    g.next (showing w v) ok op = g.next w ok op := by
  cases op <;> rfl

/-- Assigning members of a system that is up to date changes nothing that counts. -/
theorem showing_idle {w : World K} {v : Nat → Dynamics K} {p : Nat} {s : PreviewSystem K} (u : Dynamics K)
    (hu : (w.pss p).isUpdated = true) (hs : s = (w.pss p).put u) : showing { w with pss := upd w.pss p s } v = showing w v := by
  rw [showing_upd (w := w) (v := v) (v' := v) (fun _ _ => rfl)]
  have h1 : s.put (if s.isUpdated then v p else members s) = (showing w v).pss p := by
    rw [put_showing]
    subst hs
    unfold inForce
    have : ((w.pss p).put u).isUpdated = true := hu
    rw [if_pos hu, if_pos this]
    rfl
  rw [h1, upd_self]

/-- Assigning members of a stale system. -/
theorem showing_stale {w : World K} {v : Nat → Dynamics K} {p : Nat} {s : PreviewSystem K} {A B : Mat K} {x : Vec K}
    (hs : s = (w.pss p).setDynamics A B x) :
    showing { w with pss := upd w.pss p s } v =
      { showing w v with pss := upd (showing w v).pss p (((showing w v).pss p).setDynamics A B x) } := by
  rw [showing_upd (w := w) (v := v) (v' := v) (fun _ _ => rfl)]
  subst hs
  rfl

theorem setDynamics_of_put {ps : PreviewSystem K} (h : ps.isUpdated = false) (u : Dynamics K) :
    ps.put u = ps.setDynamics u.A u.B u.d := by
  cases ps
  cases h
  rfl

/-- Every program that assigns members is matched by one that does not. -/
theorem _root_.Copra.Spec.FHist.hist {d : Dims} {dmax : K} {E : World K → Op K → Prop} {w : World K} {g : Ghost}
    {v : Nat → Dynamics K} (h : FHist d dmax E w g v) (hE : BlindToMembers E) :
    Hist d dmax E (showing w v) g ∧ ∀ q, HasSystem w q → (members (w.pss q)).Sized d := by
  have init : ∀ {w : World K} {v : Nat → Dynamics K}, World.Init w →
      Hist d dmax E (showing w v) Ghost.start ∧ ∀ q, HasSystem w q → (members (w.pss q)).Sized d := by
    intro w v hi
    constructor
    · have : showing w v = w := by
        obtain ⟨pss, cons, costs, ec, ek, ctl⟩ := w
        unfold showing inForce
        congr 1
        funext q
        have : pss q = PreviewSystem.default := hi.1 q
        have hf : ¬ (pss q).isUpdated = true := by rw [this]; simp [PreviewSystem.default]
        dsimp only
        rw [if_neg hf]
        rfl
      rw [this]
      exact .start hi
    · intro q hq
      unfold HasSystem at hq
      rw [hi.1 q] at hq
      exact absurd hq (by simp [PreviewSystem.default])
  have assign : ∀ {w : World K} {g : Ghost} {v : Nat → Dynamics K} {p : Nat} {s : PreviewSystem K} (u : Dynamics K),
      Hist d dmax E (showing w v) g → u.Sized d →
      s = (w.pss p).setDynamics u.A u.B u.d → Hist d dmax E (showing { w with pss := upd w.pss p s } v) g := by
    intro w g v p s u hh hz hs
    have := Hist.ok (op := .setDynamics p u.A u.B u.d) hh hz (hE.assign _ _ _ _ _) rfl
    rw [showing_stale hs]
    exact this
  have sized : ∀ {w : World K} {p : Nat} {s : PreviewSystem K}, (∀ q, HasSystem w q → (members (w.pss q)).Sized d) →
      (0 < s.nrUStep → (members s).Sized d) →
      ∀ q, HasSystem ({ w with pss := upd w.pss p s } : World K) q → (members (upd w.pss p s q)).Sized d := by
    intro w p s h1 h2 q hq
    unfold HasSystem at hq
    dsimp only at hq
    unfold upd at hq ⊢
    split
    · rename_i e; subst e; simp only [if_true] at hq; exact h2 hq
    · rename_i e; simp only [if_neg e] at hq; exact h1 q hq
  have call : ∀ {w w' : World K} {g : Ghost} {v : Nat → Dynamics K} {op : Op K} {ok : Prop},
      (Hist d dmax E (showing w v) g ∧ ∀ q, HasSystem w q → (members (w.pss q)).Sized d) → OpOk d w g op → E w op →
      ((ok = True ∧ w.step dmax op = .ok w') ∨ (ok = False ∧ ∃ e, w.step dmax op = .thrown e w')) →
      Hist d dmax E (showing w' (remember w (.call op) v)) (g.next w ok op) ∧
        ∀ q, HasSystem w' q → (members (w'.pss q)).Sized d := by
    rintro w w' g v op ok ⟨hh, hz⟩ ho he hs
    constructor
    · by_cases hp : ∃ p, op = .updatePs p
      · obtain ⟨p, rfl⟩ := hp
        have hm : HasSystem w p := ho
        have h1 := Hist.ok (op := .setDynamics p (w.pss p).A (w.pss p).B (w.pss p).d) hh (hz p hm) (hE.assign _ _ _ _ _) rfl
        have h2 := updatePs_showing dmax w v p
        rcases hs with ⟨rfl, hs⟩ | ⟨rfl, e, hs⟩
        · rw [hs] at h2
          have h3 := Hist.ok (op := .updatePs p) h1 ?_ (hE.blind w _ _ he) h2
          · exact h3
          show 0 < (upd (showing w v).pss p _ p).nrUStep
          unfold upd
          rw [if_pos rfl]
          exact hm
        · simp only [step] at hs
          cases hu : (w.pss p).updateSystem <;> rw [hu] at hs <;> simp [Res.ofOption, Res.map] at hs
      · push Not at hp
        have h2 := step_showing dmax w v op hp
        rw [← next_showing g w v ok op]
        rcases hs with ⟨rfl, hs⟩ | ⟨rfl, e, hs⟩
        · rw [hs] at h2
          exact Hist.ok hh (opOk_showing v ho) (hE.blind w _ op he) h2
        · rw [hs] at h2
          exact Hist.thrown hh (opOk_showing v ho) (hE.blind w _ op he) h2
    · intro q hq
      have hst : w.step dmax op = .ok w' ∨ ∃ e, w.step dmax op = .thrown e w' := by
        rcases hs with ⟨_, h⟩ | ⟨_, h⟩
        · exact Or.inl h
        · exact Or.inr h
      rcases step_members hst q with ⟨m, n⟩ | ⟨A, B, x, x0, N, rfl, m, c1, c2, c3, c4⟩ | ⟨A, B, x, rfl, m⟩
      · rw [m]
        apply hz
        unfold HasSystem at hq ⊢
        rw [← n]
        exact hq
      · rw [m]
        obtain ⟨o1, o2, _⟩ := ho
        refine ⟨⟨by dsimp only; omega, o1⟩, ⟨by dsimp only; omega, o2⟩, by dsimp only; omega⟩
      · rw [m]
        exact ho
  induction h with
  | start hi => exact init hi
  | @ok w w' g v op _ ho he hs ih =>
    cases op with
    | call op => exact call (ok := True) ih ho he (Or.inl ⟨rfl, hs⟩)
    | writeA p A =>
      obtain ⟨hh, hz⟩ := ih
      obtain ⟨hm, hA⟩ := ho
      cases hs
      have z : (⟨A, (w.pss p).B, (w.pss p).d⟩ : Dynamics K).Sized d := ⟨hA, (hz p hm).2⟩
      refine ⟨?_, sized hz fun _ => z⟩
      by_cases hu : (w.pss p).isUpdated = true
      · have : showing { w with pss := upd w.pss p { w.pss p with A := A } } v = showing w v :=
          showing_idle ⟨A, (w.pss p).B, (w.pss p).d⟩ hu rfl
        exact this ▸ hh
      · exact assign _ hh z (setDynamics_of_put (by simpa using hu) ⟨A, (w.pss p).B, (w.pss p).d⟩)
    | writeB p B =>
      obtain ⟨hh, hz⟩ := ih
      obtain ⟨hm, hB⟩ := ho
      cases hs
      have z : (⟨(w.pss p).A, B, (w.pss p).d⟩ : Dynamics K).Sized d := ⟨(hz p hm).1, hB, (hz p hm).2.2⟩
      refine ⟨?_, sized hz fun _ => z⟩
      by_cases hu : (w.pss p).isUpdated = true
      · have : showing { w with pss := upd w.pss p { w.pss p with B := B } } v = showing w v :=
          showing_idle ⟨(w.pss p).A, B, (w.pss p).d⟩ hu rfl
        exact this ▸ hh
      · exact assign _ hh z (setDynamics_of_put (by simpa using hu) ⟨(w.pss p).A, B, (w.pss p).d⟩)
    | writeD p x =>
      obtain ⟨hh, hz⟩ := ih
      obtain ⟨hm, hx⟩ := ho
      cases hs
      have z : (⟨(w.pss p).A, (w.pss p).B, x⟩ : Dynamics K).Sized d := ⟨(hz p hm).1, (hz p hm).2.1, hx⟩
      refine ⟨?_, sized hz fun _ => z⟩
      by_cases hu : (w.pss p).isUpdated = true
      · have : showing { w with pss := upd w.pss p { w.pss p with d := x } } v = showing w v :=
          showing_idle ⟨(w.pss p).A, (w.pss p).B, x⟩ hu rfl
        exact this ▸ hh
      · exact assign _ hh z (setDynamics_of_put (by simpa using hu) ⟨(w.pss p).A, (w.pss p).B, x⟩)
    | writeX0 p x =>
      obtain ⟨hh, hz⟩ := ih
      cases hs
      refine ⟨?_, sized hz fun hn => hz p hn⟩
      have h1 := Hist.ok (op := .xInit p x) hh ho (hE.start _ _ _) rfl
      have h2 := step_showing dmax w v (.xInit p x) (by simp)
      simp only [step, Res.map, Res.ok.injEq] at h2
      rw [h2] at h1
      exact h1
    | markStale p =>
      obtain ⟨hh, hz⟩ := ih
      cases hs
      refine ⟨?_, sized hz fun hn => hz p hn⟩
      exact assign (members (w.pss p)) hh (hz p ho) rfl
  | @thrown w w' g v op e _ ho he hs ih =>
    cases op with
    | call op => exact call (ok := False) ih ho he (Or.inr ⟨rfl, e, hs⟩)
    | _ => cases hs

end World
end Copra
