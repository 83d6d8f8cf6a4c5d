import Verif.SpecAssign
import Verif.Proofs.Now

/-! # Assignment over objects in use: the invariant (C103) -/

namespace Copra
open Spec

set_option linter.unusedSectionVars false
variable {K : Type} [Field K] [LinearOrder K] [IsStrictOrderedRing K]

namespace World
variable {d : Dims} {dmax : K} {E : World K → Op K → Prop} {w w' : World K} {g : Ghost}

/-- The world with other numbers of rows remembered by the controller (a solve counts them anew). -/
def setNr (w : World K) (a b : Nat) : World K :=
  { w with ctl := { w.ctl with nrEqConstr := a, nrIneqConstr := b } }

theorem setNr_self (w : World K) : w.setNr w.ctl.nrEqConstr w.ctl.nrIneqConstr = w := rfl

theorem setNr_setNr (w : World K) (a b a' b' : Nat) : (w.setNr a b).setNr a' b' = w.setNr a' b' := rfl

theorem rowsOf_total (w : World K) (t : CFlag) :
    rowsOf w t = total (fun i => (w.cons i).nrConstr) (w.ctl.spConstr.filter fun i => (w.cons i).constraintType = t) := by
  unfold rowsOf total
  generalize w.ctl.spConstr = L
  induction L with
  | nil => rfl
  | cons x L ih =>
    rw [List.map_cons, List.sum_cons, ih, List.filter_cons]
    by_cases h : (w.cons x).constraintType = t
    · rw [if_pos h, if_pos (by simpa using h), List.map_cons, List.sum_cons]
    · rw [if_neg h, if_neg (by simpa using h), Nat.zero_add]

/-- A solve does not read the remembered numbers of rows. -/
theorem solve_setNr (env : SolveEnv K) (w : World K) (a b : Nat) : (w.setNr a b).solve env = w.solve env := by
  rfl

/-- Every call but `addConstraint` does the same whatever the remembered numbers. -/
theorem step_setNr {op : Op K} (hn : ∀ i junk, op ≠ .addConstraint i junk) (w : World K) (a b : Nat) :
    (∀ w', w.step dmax op = .ok w' → ∃ a' b', (w.setNr a b).step dmax op = .ok (w'.setNr a' b')) ∧
    ∀ e w', w.step dmax op = .thrown e w' → ∃ a' b', (w.setNr a b).step dmax op = .thrown e (w'.setNr a' b') := by
  have mp : ∀ {α : Type} (r : Res α) (f f' : α → World K), (∀ x, ∃ a' b', f' x = (f x).setNr a' b') →
      (∀ w', r.map f = .ok w' → ∃ a' b', r.map f' = .ok (w'.setNr a' b')) ∧
      ∀ e w', r.map f = .thrown e w' → ∃ a' b', r.map f' = .thrown e (w'.setNr a' b') := by
    intro α r f f' hf
    cases r with
    | ok x =>
      obtain ⟨a', b', h⟩ := hf x
      exact ⟨fun w' hw => ⟨a', b', by cases hw; show Res.ok (f' x) = _; rw [h]⟩, fun e w' hw => by cases hw⟩
    | thrown e x =>
      obtain ⟨a', b', h⟩ := hf x
      exact ⟨fun w' hw => (by cases hw), fun e w' hw => ⟨a', b', by cases hw; show Res.thrown e (f' x) = _; rw [h]⟩⟩
    | ub => exact ⟨fun w' hw => (by cases hw), fun e w' hw => by cases hw⟩
  have one : ∀ (v v' : World K), (∃ a' b', v' = v.setNr a' b') →
      (∀ w', Res.ok v = .ok w' → ∃ a' b', Res.ok v' = .ok (w'.setNr a' b')) ∧
      ∀ e w', Res.ok v = .thrown e w' → ∃ a' b', Res.ok v' = .thrown e (w'.setNr a' b') := by
    rintro v v' ⟨a', b', rfl⟩
    exact ⟨fun w' hw => ⟨a', b', by cases hw; rfl⟩, fun e w' hw => by cases hw⟩
  have opt : ∀ (r r' : Option (LMPC K)), (∃ a' b', r' = r.map fun l => { l with nrEqConstr := a', nrIneqConstr := b' }) →
      (∀ w', ((Res.ofOption r).map fun l => { w with ctl := l }) = .ok w' →
        ∃ a' b', ((Res.ofOption r').map fun l => { w.setNr a b with ctl := l }) = .ok (w'.setNr a' b')) ∧
      ∀ e w', ((Res.ofOption r).map fun l => { w with ctl := l }) = .thrown e w' →
        ∃ a' b', ((Res.ofOption r').map fun l => { w.setNr a b with ctl := l }) = .thrown e (w'.setNr a' b') := by
    rintro r r' ⟨a', b', rfl⟩
    cases r with
    | none => exact ⟨fun w' hw => (by cases hw), fun e w' hw => by cases hw⟩
    | some l => exact ⟨fun w' hw => ⟨a', b', by cases hw; rfl⟩, fun e w' hw => by cases hw⟩
  cases op with
  | addConstraint i junk => exact absurd rfl (hn i junk)
  | construct f s => exact one _ _ ⟨_, _, (setNr_self _).symm⟩
  | constructPs f s p junk => exact mp _ _ _ fun x => ⟨_, _, (setNr_self _).symm⟩
  | solve env =>
    show (∀ w', w.step dmax (.solve env) = .ok w' → ∃ a' b', w.step dmax (.solve env) = .ok (w'.setNr a' b')) ∧ _
    exact ⟨fun w' hw => ⟨_, _, hw.trans (congrArg Res.ok (setNr_self w').symm)⟩,
      fun e w' hw => ⟨_, _, hw.trans (congrArg (Res.thrown e) (setNr_self w').symm)⟩⟩
  | clearConstraints =>
    show (∀ w', w.step dmax .clearConstraints = .ok w' → ∃ a' b', w.step dmax .clearConstraints = .ok (w'.setNr a' b')) ∧ _
    exact ⟨fun w' hw => ⟨_, _, hw.trans (congrArg Res.ok (setNr_self w').symm)⟩,
      fun e w' hw => ⟨_, _, hw.trans (congrArg (Res.thrown e) (setNr_self w').symm)⟩⟩
  | initializeController p junk =>
    refine opt _ _ ⟨a, b, ?_⟩
    show LMPC.initializeController dmax junk { w.ctl with nrEqConstr := a, nrIneqConstr := b } p (w.pss p) = _
    generalize w.ctl = l
    generalize w.pss p = ps
    unfold LMPC.initializeController LMPC.clearConstraintMatrices LMPC.updateQPMatrixSize LMPC.optSize
    cases l with
    | mk f =>
      cases f with
      | false => rfl
      | true =>
        simp only [if_true]
        cases chkInt (ps.xDim + ps.fullUDim) <;> rfl
  | removeConstraint i =>
    refine opt _ _ ⟨a, b, ?_⟩
    show LMPC.removeConstraint { w.ctl with nrEqConstr := a, nrIneqConstr := b } i (w.cons i) = _
    generalize w.ctl = l
    generalize w.cons i = c
    unfold LMPC.removeConstraint
    by_cases hm : i ∈ l.spConstr
    · rw [if_pos hm, if_pos hm]
      cases c.constraintType <;> dsimp only <;> unfold LMPC.eraseFind? <;> split <;> rfl
    · rw [if_neg hm, if_neg hm]; rfl
  | addCost i junk =>
    have h : (w.setNr a b).addCost junk i = (w.addCost junk i).map fun v => v.setNr a b := by
      show addCost junk (w.setNr a b) i = _
      unfold addCost
      show (match w.ctl.ps with | none => _ | some p => _) = _
      cases w.ctl.ps with
      | none => rfl
      | some p =>
        show (match (w.costs i).initializeCost junk (w.pss p) with | .ok c => _ | .thrown e c => _ | .ub => _) =
          Res.map _ (match (w.costs i).initializeCost junk (w.pss p) with | .ok c => _ | .thrown e c => _ | .ub => _)
        cases (w.costs i).initializeCost junk (w.pss p) <;> rfl
    show (∀ w', w.addCost junk i = .ok w' → ∃ a' b', (w.setNr a b).addCost junk i = .ok (w'.setNr a' b')) ∧
      ∀ e w', w.addCost junk i = .thrown e w' → ∃ a' b', (w.setNr a b).addCost junk i = .thrown e (w'.setNr a' b')
    rw [h]
    exact ⟨fun w' hw => ⟨a, b, by rw [hw]; rfl⟩, fun e w' hw => ⟨a, b, by rw [hw]; rfl⟩⟩
  | xInit _ _ => exact one _ _ ⟨a, b, rfl⟩
  | setDynamics _ _ _ _ => exact one _ _ ⟨a, b, rfl⟩
  | weight _ _ => exact one _ _ ⟨a, b, rfl⟩
  | refsConstr _ _ => exact one _ _ ⟨a, b, rfl⟩
  | refsCost _ _ => exact one _ _ ⟨a, b, rfl⟩
  | useSolver _ => exact one _ _ ⟨a, b, rfl⟩
  | removeCost _ => exact one _ _ ⟨a, b, rfl⟩
  | clearCosts => exact one _ _ ⟨a, b, rfl⟩
  | resetInitialStateCost _ _ => exact one _ _ ⟨a, b, rfl⟩
  | resetInitialStateBounds _ _ => exact one _ _ ⟨a, b, rfl⟩
  | _ => exact mp _ _ _ fun x => ⟨a, b, rfl⟩

/-- Counted anew. -/
def recount (w : World K) : World K := w.setNr (rowsOf w .equality) (rowsOf w .inequality)

theorem recount_setNr (w : World K) (a b : Nat) : (w.setNr a b).recount = w.recount := rfl

theorem GoodRaw.fits (h : GoodRaw d dmax w g) : RowCountsFit w := by
  unfold RowCountsFit
  rw [rowsOf_total, rowsOf_total, ← h.part.eq, ← h.part.ineq]
  exact ⟨h.eqLe.trans h.eqMax, h.ineqLe.trans h.ineqMax⟩

theorem GoodRaw.recount' (h : GoodRaw d dmax w g) : GoodRaw d dmax w.recount g := by
  have f := h.fits
  obtain ⟨h1, h2, h3, h4, h5, h6, h7, h8, h9, h10, h11, h12, h13, h14, h15, h16⟩ := h
  refine ⟨h1, h2, h3, h4, h5, h6, h7, h8, ⟨h9.eq, h9.ineq, h9.bound⟩, h10, ?_, ?_, f.1, f.2, h15, h16⟩
  · show total _ w.ctl.spEqConstr ≤ rowsOf w .equality
    rw [rowsOf_total, ← h9.eq]
    exact Nat.le_refl _
  · show total _ w.ctl.spIneqConstr ≤ rowsOf w .inequality
    rw [rowsOf_total, ← h9.ineq]
    exact Nat.le_refl _

theorem opOk_setNr {op : Op K} {a b : Nat} (h : OpOk d w g op) : OpOk d (w.setNr a b) g op := by
  cases op <;> try exact h
  exact ⟨h.1, h.2.sol, h.2.answer, h.2.init⟩

theorem next_setNr {op : Op K} {a b : Nat} {ok : Prop} : g.next (w.setNr a b) ok op = g.next w ok op := by
  cases op <;> rfl

/-- `addConstraint` when the rows fit. -/
theorem GoodRaw.add {i : Nat} {junk : Junk K} (hg : GoodRaw d dmax w.recount g) (ho : OpOk d w g (.addConstraint i junk))
    (hs : w.step dmax (.addConstraint i junk) = .ok w') (hf : RowCountsFit w') :
    ∃ a b, w.recount.step dmax (.addConstraint i junk) = .ok (w'.setNr a b) := by
  change addConstraint junk w i = .ok w' at hs
  show ∃ a b, addConstraint junk w.recount i = .ok (w'.setNr a b)
  unfold addConstraint at hs ⊢
  split at hs
  · cases hs
  · rename_i p hp
    have hp' : w.recount.ctl.ps = some p := hp
    rw [hp']
    dsimp only
    split at hs
    · rename_i c hc
      split at hs <;> cases hs
      rename_i l hl
      have hc' : (w.recount.cons i).initializeConstraint junk (w.recount.pss p) = .ok c := hc
      rw [hc']
      dsimp only
      have hst : w.recount.step dmax (.initConstr i p junk) = .ok { w.recount with cons := upd w.cons i c } := by
        show ((w.recount.cons i).initializeConstraint junk (w.recount.pss p)).map _ = _
        rw [hc']
        rfl
      have hC := (hg.stepCons (ok := True) (op := .initConstr i p junk) (hg.ctl p hp').1 (Or.inl ⟨trivial, hst⟩)).2
      have hid := Constr.init_ident hc
      have ty : ∀ j, (upd w.cons i c j).constraintType = (w.cons j).constraintType := by
        intro j
        by_cases e : j = i
        · subst e
          rw [upd_same]
          unfold Constr.constraintType
          rw [hid.kind, hid.isIneq]
        · rw [upd_ne _ _ e]
      have tot : ∀ t, ((w.ctl.spConstr.map fun j => if (upd w.cons i c j).constraintType = t then
          (upd w.cons i c j).nrConstr else 0).sum) = rowsOf w t := by
        intro t
        unfold rowsOf
        refine congrArg List.sum (List.map_congr_left fun j hj => ?_)
        have e : (upd w.cons i c j).nrConstr = (w.cons j).nrConstr := (hC j (hg.subC j hj)).1
        rw [ty, e]
      unfold LMPC.addConstraintByType at hl
      have hfe := hf.1
      have hfi := hf.2
      unfold rowsOf at hfe hfi
      unfold LMPC.addConstraintByType
      cases ht : c.constraintType <;> rw [ht] at hl <;> simp only at hl
      · simp only [Option.bind_eq_bind, Option.bind_eq_some_iff, Option.pure_def, Option.some.injEq, chkInt_eq] at hl
        obtain ⟨_, ⟨hle, rfl⟩, rfl⟩ := hl
        dsimp only at hfe
        rw [List.map_append, List.sum_append, tot] at hfe
        simp only [List.map_cons, List.map_nil, List.sum_cons, List.sum_nil, upd_same, ht, if_true, Nat.add_zero] at hfe
        have : chkInt (w.recount.ctl.nrEqConstr + c.nrConstr) = some (w.recount.ctl.nrEqConstr + c.nrConstr) :=
          chkInt_eq.2 ⟨hfe, rfl⟩
        rw [this]
        exact ⟨_, _, rfl⟩
      · simp only [Option.bind_eq_bind, Option.bind_eq_some_iff, Option.pure_def, Option.some.injEq, chkInt_eq] at hl
        obtain ⟨_, ⟨hle, rfl⟩, rfl⟩ := hl
        dsimp only at hfi
        rw [List.map_append, List.sum_append, tot] at hfi
        simp only [List.map_cons, List.map_nil, List.sum_cons, List.sum_nil, upd_same, ht, if_true, Nat.add_zero] at hfi
        have : chkInt (w.recount.ctl.nrIneqConstr + c.nrConstr) = some (w.recount.ctl.nrIneqConstr + c.nrConstr) :=
          chkInt_eq.2 ⟨hfi, rfl⟩
        rw [this]
        exact ⟨_, _, rfl⟩
      · cases hl
        exact ⟨_, _, rfl⟩
    · cases hs
    · cases hs

theorem GoodRaw.assignConstr {j i : Nat} (hg : GoodRaw d dmax w.recount g) (h : MayAssignConstr w g j i) :
    GoodRaw d dmax (w.copyConstr j i).recount (g.copyConstr j i) := by
  obtain ⟨h1, h2, h3, h4, h5, h6, h7, h8, h9, h10, h11, h12, h13, h14, h15, h16⟩ := hg
  have same : ∀ k ∈ w.ctl.spConstr, (upd w.cons j (w.cons i) k).constraintType = (w.cons k).constraintType := by
    intro k hk
    by_cases e : k = j
    · subst e; rw [upd_same]; exact h.type hk
    · rw [upd_ne _ _ e]
  have filt : ∀ t, (w.ctl.spConstr.filter fun k => (upd w.cons j (w.cons i) k).constraintType = t) =
      w.ctl.spConstr.filter fun k => (w.cons k).constraintType = t := by
    intro t
    apply List.filter_congr
    intro k hk
    rw [same k hk]
  have part : LMPC.Partition (upd w.cons j (w.cons i)) w.ctl :=
    ⟨h9.eq.trans (filt _).symm, h9.ineq.trans (filt _).symm, h9.bound.trans (filt _).symm⟩
  refine ⟨h1, ?_, ?_, h4, h5, h6, ?_, h8, ⟨part.eq, part.ineq, part.bound⟩, h10, ?_, ?_, h.rows.1, h.rows.2, h15, h16⟩
  · intro k hk
    show Constr.Reg d (upd w.cons j (w.cons i) k)
    rcases hk with ⟨rfl, hk⟩ | ⟨e, hk⟩
    · rw [upd_same]; exact h2 i hk
    · rw [upd_ne _ _ e]; exact h2 k hk
  · intro k hk
    show Constr.Unreg (upd w.cons j (w.cons i) k)
    by_cases e : k = j
    · subst e; rw [upd_same]; exact h3 i fun x => hk (Or.inl ⟨rfl, x⟩)
    · rw [upd_ne _ _ e]; exact h3 k fun x => hk (Or.inr ⟨e, x⟩)
  · intro k hk
    by_cases e : k = j
    · subst e; exact Or.inl ⟨rfl, h.used hk⟩
    · exact Or.inr ⟨e, h7 k hk⟩
  · show total _ w.ctl.spEqConstr ≤ rowsOf (w.copyConstr j i) .equality
    rw [rowsOf_total]
    exact le_of_eq (congrArg (total _) part.eq)
  · show total _ w.ctl.spIneqConstr ≤ rowsOf (w.copyConstr j i) .inequality
    rw [rowsOf_total]
    exact le_of_eq (congrArg (total _) part.ineq)

theorem _root_.Copra.Spec.TargetFits.pre {c : Cost K} (h : TargetFits d c) (hu : Cost.Unreg c) : Cost.Pre d c := by
  refine ⟨hu.2, ?_, fun hk => absurd h.kind hk, fun hk => ?_⟩
  · unfold Cost.DataOk
    rw [h.kind]
    exact ⟨h.rows, h.cols⟩
  · rw [h.kind] at hk; cases hk

theorem GoodRaw.assignCost {j i : Nat} (hg : GoodRaw d dmax w.recount g) (h : MayAssignCost d w g j i) :
    GoodRaw d dmax (w.copyCost j i).recount (g.assignCost d w j i) := by
  obtain ⟨h1, h2, h3, h4, h5, h6, h7, h8, h9, h10, h11, h12, h13, h14, h15, h16⟩ := hg
  refine ⟨h1, h2, h3, ?_, ?_, ?_, h7, ?_, h9, h10, h11, h12, h13, h14, h15, h16⟩
  · intro k hk
    show Cost.Pre d (upd w.costs j (w.costs i) k)
    rcases hk with ⟨rfl, hk⟩ | ⟨e, hk⟩
    · rw [upd_same]
      by_cases hc : g.cost i
      · exact h4 i hc
      · exact (hk.resolve_left hc).pre (h5 i hc)
    · rw [upd_ne _ _ e]; exact h4 k hk
  · intro k hk
    show Cost.Unreg (upd w.costs j (w.costs i) k)
    by_cases e : k = j
    · subst e; rw [upd_same]; exact h5 i fun x => hk (Or.inl ⟨rfl, Or.inl x⟩)
    · rw [upd_ne _ _ e]; exact h5 k fun x => hk (Or.inr ⟨e, x⟩)
  · intro k hk
    show _ ∧ Cost.Clean d (upd w.costs j (w.costs i) k)
    rcases hk with ⟨rfl, hk⟩ | ⟨e, hk⟩
    · rw [upd_same]; exact ⟨Or.inl ⟨rfl, Or.inl (h6 i hk).1⟩, (h6 i hk).2⟩
    · rw [upd_ne _ _ e]; exact ⟨Or.inr ⟨e, (h6 k hk).1⟩, (h6 k hk).2⟩
  · intro k hk
    by_cases e : k = j
    · subst e; exact Or.inl ⟨rfl, h.used hk⟩
    · exact Or.inr ⟨e, h8 k hk⟩

theorem GoodRaw.assignPs {p q : Nat} (hg : GoodRaw d dmax w g) (h : HasSystem w q) : GoodRaw d dmax (w.copyPs p q) g := by
  obtain ⟨h1, h2, h3, h4, h5, h6, h7, h8, h9, h10, h11, h12, h13, h14, h15, h16⟩ := hg
  refine ⟨?_, h2, h3, h4, h5, h6, h7, h8, h9, h10, h11, h12, h13, h14, ?_, h16⟩
  · intro k hk
    show SysRaw d (upd w.pss p (w.pss q) k) ∧ (upd w.pss p (w.pss q) k).x0.rows = d.n
    by_cases e : k = p
    · subst e; rw [upd_same]; exact h1 q h
    · change 0 < (upd w.pss p (w.pss q) k).nrUStep at hk
      rw [upd_ne _ _ e] at hk ⊢; exact h1 k hk
  · intro k hk
    obtain ⟨a, rest⟩ := h15 k hk
    refine ⟨?_, rest⟩
    show 0 < (upd w.pss p (w.pss q) k).nrUStep
    by_cases e : k = p
    · subst e; rw [upd_same]; exact h
    · rw [upd_ne _ _ e]; exact a

theorem GoodRaw.callOk {op : Op K} (hg : GoodRaw d dmax w.recount g) (ho : OpOk d w g op)
    (hs : w.step dmax op = .ok w') (hf : IsAdd (.other (.call op)) → RowCountsFit w') :
    ∃ a b, w.recount.step dmax op = .ok (w'.setNr a b) := by
  by_cases hx : ∃ i junk, op = .addConstraint i junk
  · obtain ⟨i, junk, rfl⟩ := hx
    exact hg.add ho hs (hf trivial)
  · exact (step_setNr (fun i junk e => hx ⟨i, junk, e⟩) w _ _).1 w' hs

theorem callThrown {op : Op K} {e : Exn} (hs : w.step dmax op = .thrown e w') :
    ∃ a b, w.recount.step dmax op = .thrown e (w'.setNr a b) := by
  by_cases hx : ∃ i junk, op = .addConstraint i junk
  · obtain ⟨i, junk, rfl⟩ := hx
    refine ⟨rowsOf w .equality, rowsOf w .inequality, ?_⟩
    change addConstraint junk w i = .thrown e w' at hs
    show addConstraint junk w.recount i = .thrown e (w'.setNr _ _)
    unfold addConstraint at hs ⊢
    split at hs
    · cases hs
    · rename_i p hp
      have hp' : w.recount.ctl.ps = some p := hp
      rw [hp']
      dsimp only
      split at hs
      · split at hs <;> cases hs
      · rename_i e' c hc
        cases hs
        have hc' : (w.recount.cons i).initializeConstraint junk (w.recount.pss p) = .thrown e c := hc
        rw [hc']
        rfl
      · cases hs
  · exact (step_setNr (fun i junk e => hx ⟨i, junk, e⟩) w _ _).2 e w' hs

/-- The invariant along every program that also assigns whole objects. -/
theorem _root_.Copra.Spec.EHist.raw (h : EHist d dmax E w g) : GoodRaw d dmax w.recount g := by
  induction h with
  | start h => exact (GoodRaw.start h).recount'
  | @ok w w' g op hw ho he hs hf ih =>
    cases op with
    | other op =>
      cases op with
      | call op =>
        obtain ⟨a, b, key⟩ := ih.callOk ho hs hf
        have := (ih.step (ok := True) (opOk_setNr ho) (Or.inl ⟨trivial, key⟩)).recount'
        rw [recount_setNr] at this
        unfold recount at this
        rw [next_setNr] at this
        exact this
      | writeA p M => cases hs; exact ih.sok (op := .other (.writeA p M)) ho rfl
      | writeB p M => cases hs; exact ih.sok (op := .other (.writeB p M)) ho rfl
      | writeD p M => cases hs; exact ih.sok (op := .other (.writeD p M)) ho rfl
      | writeX0 p M => cases hs; exact ih.sok (op := .other (.writeX0 p M)) ho rfl
      | markStale p => cases hs; exact ih.sok (op := .other (.markStale p)) ho rfl
    | writePhi p M => cases hs; exact ih.sok (op := .writePhi p M) ho rfl
    | writePsi p M => cases hs; exact ih.sok (op := .writePsi p M) ho rfl
    | writeXi p M => cases hs; exact ih.sok (op := .writeXi p M) ho rfl
    | markUpdated p => cases hs; exact ih.sok (op := .markUpdated p) ho rfl
  | @thrown w w' g op e hw ho he hs ih =>
    cases op with
    | other op =>
      cases op with
      | call op =>
        obtain ⟨a, b, key⟩ := callThrown hs
        have := (ih.step (ok := False) (opOk_setNr ho) (Or.inr ⟨id, _, key⟩)).recount'
        rw [recount_setNr] at this
        unfold recount at this
        rw [next_setNr] at this
        exact this
      | _ => cases hs
    | _ => cases hs
  | assignConstr _ h ih => exact ih.assignConstr h
  | assignCost _ h ih => exact ih.assignCost h
  | assignPs _ h ih => exact ih.assignPs h

theorem bs {op : Op K} (h : NoBoundSpan w op) : NoBoundSpan w.recount op := by
  cases op <;> exact h

/-- The recorded lines along every program that also assigns whole objects. -/
theorem _root_.Copra.Spec.EHist.lines (h : EHist d dmax E w g) (hE : ∀ w op, E w op → NoBoundSpan w op) :
    ∀ i, LinesCurrent (w.cons i) := by
  induction h with
  | start h => exact lines_start h
  | @ok w w' g op hw ho he hs hf ih =>
    cases op with
    | other op =>
      cases op with
      | call op =>
        obtain ⟨a, b, key⟩ := hw.raw.callOk ho hs hf
        exact lines_step (w' := w'.setNr a b) hw.raw ih (opOk_setNr ho) (bs (hE _ _ he)) (Or.inl key)
      | _ => cases hs; exact ih
    | _ => cases hs; exact ih
  | @thrown w w' g op e hw ho he hs ih =>
    cases op with
    | other op =>
      cases op with
      | call op =>
        obtain ⟨a, b, key⟩ := callThrown hs
        exact lines_step (w' := w'.setNr a b) hw.raw ih (opOk_setNr ho) (bs (hE _ _ he)) (Or.inr ⟨_, key⟩)
      | _ => cases hs
    | _ => cases hs
  | @assignConstr w g j i _ h ih =>
    intro k
    show LinesCurrent (upd w.cons j (w.cons i) k)
    by_cases e : k = j
    · subst e; rw [upd_same]; exact ih i
    · rw [upd_ne _ _ e]; exact ih k
  | assignCost _ _ ih => exact ih
  | assignPs _ _ ih => exact ih

end World
end Copra
