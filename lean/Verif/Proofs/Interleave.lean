import Verif.Proofs.Mask
import Verif.Proofs.Registry
import Verif.Proofs.Multi

/-! # Calls that use disjoint objects do not interfere (for C85) -/

namespace Copra
open Spec

set_option linter.unusedSectionVars false
set_option linter.unusedSimpArgs false

variable {K : Type} [Field K] [LinearOrder K] [IsStrictOrderedRing K]

theorem Res.steps_map {α β : Type} {r : Res α} {f : α → β} {b : β}
    (h : r.map f = .ok b ∨ ∃ e, r.map f = .thrown e b) : ∃ a, b = f a ∧ (r = .ok a ∨ ∃ e, r = .thrown e a) := by
  cases r with
  | ok a => rcases h with h | ⟨e, h⟩ <;> simp only [Res.map, Res.ok.injEq, reduceCtorEq] at h; exact ⟨a, h.symm, Or.inl rfl⟩
  | thrown e' a =>
    rcases h with h | ⟨e, h⟩ <;> simp only [Res.map, Res.thrown.injEq, reduceCtorEq] at h
    exact ⟨a, h.2.symm, Or.inr ⟨e', rfl⟩⟩
  | ub => rcases h with h | ⟨e, h⟩ <;> simp only [Res.map, reduceCtorEq] at h

theorem Res.steps_ofOption {α : Type} {o : Option α} {b : α}
    (h : Res.ofOption o = .ok b ∨ ∃ e, Res.ofOption o = .thrown e b) : o = some b := by
  cases o with
  | none => rcases h with h | ⟨e, h⟩ <;> simp only [Res.ofOption, reduceCtorEq] at h
  | some a =>
    rcases h with h | ⟨e, h⟩ <;> simp only [Res.ofOption, Res.ok.injEq, reduceCtorEq] at h
    rw [h]

namespace World

variable {P C Q : Nat → Prop}

/-! ## The client's references to objects outside -/

/-- The world with the objects outside `P`, `C`, `Q` replaced by fresh ones that nobody else holds. -/
noncomputable def solo (P C Q : Nat → Prop) (w : World K) : World K :=
  { mask P C Q w with extCons := hide C 0 w.extCons, extCosts := hide Q 0 w.extCosts }

theorem hide_checkDelete {ec ek : Nat → Nat} {l : LMPC K} (h : Inside P C Q l) :
    l.checkDelete (hide C 0 ec) (hide Q 0 ek) = l.checkDelete ec ek := by
  have key : ∀ {lim : Nat} {R : Nat → Prop} {e f : Nat → Nat} {L : List Nat}, (∀ i ∈ L, R i) →
      LMPC.checkList lim (fun i => hide R 0 e i + f i) [] L = LMPC.checkList lim (fun i => e i + f i) [] L := by
    intro lim R e f L hL
    rw [LMPC.checkList_eq, LMPC.checkList_eq]
    refine List.filter_congr fun i hi => ?_
    rw [hide_in (hL i hi)]
  have key0 : ∀ {lim : Nat} {R : Nat → Prop} {e : Nat → Nat} {L : List Nat}, (∀ i ∈ L, R i) →
      LMPC.checkList lim (hide R 0 e) [] L = LMPC.checkList lim e [] L := by
    intro lim R e L hL
    exact key (f := fun _ => 0) hL
  have e1 : LMPC.checkList 2 (fun i => hide C 0 ec i + l.spEqConstr.count i + l.spIneqConstr.count i + l.spBoundConstr.count i) [] l.spConstr
      = LMPC.checkList 2 (fun i => ec i + l.spEqConstr.count i + l.spIneqConstr.count i + l.spBoundConstr.count i) [] l.spConstr := by
    simp only [Nat.add_assoc]; exact key h.cons
  have e2 : ∀ g : Nat → Nat, LMPC.checkList 2 (fun i => hide C 0 ec i + g i) [] l.spEqConstr = LMPC.checkList 2 (fun i => ec i + g i) [] l.spEqConstr :=
    fun g => key h.eq
  have e3 : ∀ g : Nat → Nat, LMPC.checkList 2 (fun i => hide C 0 ec i + g i) [] l.spIneqConstr = LMPC.checkList 2 (fun i => ec i + g i) [] l.spIneqConstr :=
    fun g => key h.ineq
  have e4 : ∀ g : Nat → Nat, LMPC.checkList 2 (fun i => hide C 0 ec i + g i) [] l.spBoundConstr = LMPC.checkList 2 (fun i => ec i + g i) [] l.spBoundConstr :=
    fun g => key h.bound
  unfold LMPC.checkDelete
  simp only [Nat.add_assoc] at e1 ⊢
  rw [e1]
  simp only [e2, e3, e4, key0 h.costs]

/-- `updateSystem` neither reads nor changes the client's references. -/
theorem updateSystem_ext (junk : Junk K) (w : World K) (ec ek : Nat → Nat) :
    updateSystem junk { w with extCons := ec, extCosts := ek } =
      (updateSystem junk w).map fun v => { v with extCons := ec, extCosts := ek } := by
  rw [updateSystem_eq, updateSystem_eq]
  show (w.ctl.ps.bind _) = _
  cases w.ctl.ps with
  | none => rfl
  | some p =>
    simp only [Option.bind_some]
    cases (if (w.pss p).isUpdated then some (w.pss p) else (w.pss p).updateSystem) with
    | none => rfl
    | some ps =>
      simp only [Option.bind_some]
      generalize LMPC.updateNr w.cons _ = o1
      cases o1 with
      | none => rfl
      | some l1 =>
        simp only [Option.bind_some]
        cases l1.updateConstraintMatrixSize junk ps with
        | none => rfl
        | some l2 =>
          simp only [Option.bind_some]
          cases l2.spConstr.foldlM (updateConstr ps) w.cons with
          | none => rfl
          | some cons =>
            simp only [Option.bind_some]
            cases l2.spCost.foldlM (updateCost ps) w.costs <;> rfl

theorem solve_hide (env : SolveEnv K) (w : World K) (h : Inside P C Q w.ctl) :
    solve env { w with extCons := hide C 0 w.extCons, extCosts := hide Q 0 w.extCosts } =
      (solve env w).map fun r => ({ r.1 with extCons := hide C 0 r.1.extCons, extCosts := hide Q 0 r.1.extCosts }, r.2) := by
  unfold solve
  rw [updateSystem_ext]
  cases hu : w.updateSystem env.junk with
  | none => rfl
  | some w1 =>
    obtain ⟨p, ps, l1, l2, cons, costs, hp, -, -, -, -, -, rfl, f⟩ := updateSystem_inv hu
    have h' := h.fixed f
    simp only [Option.bind_eq_bind, Option.bind_some, Option.map_some]
    cases l2.ps with
    | none => rfl
    | some p =>
      simp only [Option.bind_some]
      cases hm : LMPC.makeQPForm env.inverse cons costs _ l2 with
      | none => rfl
      | some l3 =>
        simp only [Option.bind_some]
        have h3 := h'.fixed (LMPC.makeQPForm_fixed hm)
        cases l3.sol with
        | none => rfl
        | some s =>
          simp only [Option.bind_some]
          have hin : Inside P C Q ({ l3 with
              sol := some { s with result := (env.answer l3.qp).2 }
              solveTime := some (env.t2 - env.t1) } : LMPC K) := ⟨h3.ps, h3.cons, h3.eq, h3.ineq, h3.bound, h3.costs⟩
          rw [hide_checkDelete hin]
          split
          · generalize LMPC.updateResults (K := K) _ _ = o
            cases o <;> rfl
          · rfl

theorem step_hide {dmax : K} {w : World K} {op : Op K} (h : Inside P C Q w.ctl) (ho : Only P C Q op) :
    step dmax { w with extCons := hide C 0 w.extCons, extCosts := hide Q 0 w.extCosts } op =
      (w.step dmax op).map fun v => { v with extCons := hide C 0 v.extCons, extCosts := hide Q 0 v.extCosts } := by
  cases op <;> simp only [Only] at ho <;> simp only [World.step]
  case solve env =>
    rw [solve_hide env w h]
    cases w.solve env <;> rfl
  case refsConstr i m => simp only [Res.map, hide_upd ho]
  case refsCost i m => simp only [Res.map, hide_upd ho]
  case clearConstraints =>
    unfold clearConstraints
    show Res.ofOption (w.ctl.ps.bind _) = (Res.ofOption (w.ctl.ps.bind _)).map _
    cases hp : w.ctl.ps with
    | none => rfl
    | some p =>
      simp only [Option.bind_some, Option.bind_eq_bind]
      cases w.ctl.clearRegistry.clearConstraintMatrices dmax (w.pss p) <;> rfl
  case addCost i junk =>
    unfold addCost
    cases hp : w.ctl.ps with
    | none => rfl
    | some p =>
      simp only
      cases (w.costs i).initializeCost junk (w.pss p) <;> rfl
  case addConstraint i junk =>
    unfold addConstraint
    cases hp : w.ctl.ps with
    | none => rfl
    | some p =>
      simp only
      cases (w.cons i).initializeConstraint junk (w.pss p) with
      | ok c =>
        simp only
        cases w.ctl.addConstraintByType i c <;> rfl
      | thrown e c => rfl
      | ub => rfl
  all_goals first | rfl | (rw [Res.map_map]; rfl)

theorem solo_step {dmax : K} {w : World K} {op : Op K} (h : Inside P C Q w.ctl) (ho : Only P C Q op) :
    (solo P C Q w).step dmax op = (w.step dmax op).map (solo P C Q) := by
  refine (step_hide (w := mask P C Q w) h ho).trans ?_
  rw [mask_step h ho, Res.map_map]
  rfl

theorem solo_solve {w : World K} {env : SolveEnv K} (h : Inside P C Q w.ctl) :
    (solo P C Q w).solve env = (w.solve env).map fun r => (solo P C Q r.1, r.2) := by
  refine (solve_hide env (mask P C Q w) h).trans ?_
  rw [mask_solve env w h, Option.map_map]
  rfl

/-! ## What a call leaves alone -/

/-- Nothing outside `P`, `C`, `Q` differs. -/
structure SameOutside (P C Q : Nat → Prop) (w w' : World K) : Prop where
  pss : ∀ p, ¬ P p → w'.pss p = w.pss p
  cons : ∀ i, ¬ C i → w'.cons i = w.cons i
  costs : ∀ i, ¬ Q i → w'.costs i = w.costs i
  extCons : ∀ i, ¬ C i → w'.extCons i = w.extCons i
  extCosts : ∀ i, ¬ Q i → w'.extCosts i = w.extCosts i

theorem SameOutside.refl (w : World K) : SameOutside P C Q w w :=
  ⟨fun _ _ => rfl, fun _ _ => rfl, fun _ _ => rfl, fun _ _ => rfl, fun _ _ => rfl⟩

theorem upd_outside {α : Type} {R : Nat → Prop} {h : Nat → α} {i j : Nat} {a : α} (hi : R i) (hj : ¬ R j) :
    upd h i a j = h j := upd_ne h a (fun e => hj (e ▸ hi))

theorem updateConstrs_outside {ps : PreviewSystem K} {j : Nat} (hj : ¬ C j) :
    ∀ (L : List Nat) (_ : ∀ i ∈ L, C i) {a b : Nat → Constr K}, L.foldlM (updateConstr ps) a = some b → b j = a j := by
  intro L
  induction L with
  | nil => intro _ a b h; cases h; rfl
  | cons i L ih =>
    intro hL a b h
    simp only [List.foldlM_cons, Option.bind_eq_bind, Option.bind_eq_some_iff] at h
    obtain ⟨c, hc, h⟩ := h
    rw [ih (fun i hi => hL i (List.mem_cons_of_mem _ hi)) h]
    unfold updateConstr at hc
    simp only [Option.bind_eq_bind, Option.bind_eq_some_iff, Option.pure_def, Option.some.injEq] at hc
    obtain ⟨_, _, rfl⟩ := hc
    exact upd_outside (hL i List.mem_cons_self) hj

theorem updateCosts_outside {ps : PreviewSystem K} {j : Nat} (hj : ¬ Q j) :
    ∀ (L : List Nat) (_ : ∀ i ∈ L, Q i) {a b : Nat → Cost K}, L.foldlM (updateCost ps) a = some b → b j = a j := by
  intro L
  induction L with
  | nil => intro _ a b h; cases h; rfl
  | cons i L ih =>
    intro hL a b h
    simp only [List.foldlM_cons, Option.bind_eq_bind, Option.bind_eq_some_iff] at h
    obtain ⟨c, hc, h⟩ := h
    rw [ih (fun i hi => hL i (List.mem_cons_of_mem _ hi)) h]
    unfold updateCost at hc
    simp only [Option.bind_eq_bind, Option.bind_eq_some_iff, Option.pure_def, Option.some.injEq] at hc
    obtain ⟨_, _, rfl⟩ := hc
    exact upd_outside (hL i List.mem_cons_self) hj

theorem Inside.lists {l l' : LMPC K} (h : Inside P C Q l) (ps : l'.ps = l.ps) (c : ∀ i ∈ l'.spConstr, i ∈ l.spConstr)
    (e : ∀ i ∈ l'.spEqConstr, i ∈ l.spEqConstr) (q : ∀ i ∈ l'.spIneqConstr, i ∈ l.spIneqConstr)
    (b : ∀ i ∈ l'.spBoundConstr, i ∈ l.spBoundConstr) (k : ∀ i ∈ l'.spCost, i ∈ l.spCost) : Inside P C Q l' :=
  ⟨fun p hp => h.ps p (ps ▸ hp), fun i hi => h.cons i (c i hi), fun i hi => h.eq i (e i hi), fun i hi => h.ineq i (q i hi),
    fun i hi => h.bound i (b i hi), fun i hi => h.costs i (k i hi)⟩

theorem mem_checkList {lim : Nat} {f : Nat → Nat} {L : List Nat} {i : Nat} (h : i ∈ LMPC.checkList lim f [] L) : i ∈ L := by
  rw [LMPC.checkList_eq] at h
  exact List.mem_of_mem_filter h

theorem solve_outside {w w' : World K} {env : SolveEnv K} {b : Bool} {q : QP K} (h : Inside P C Q w.ctl)
    (hs : w.solve env = some (w', b, q)) : SameOutside P C Q w w' ∧ Inside P C Q w'.ctl := by
  obtain ⟨F, l1, l2, l3, l4, l5⟩ := solve_frame hs
  refine ⟨?_, h.lists F.ps ?_ ?_ ?_ ?_ ?_⟩
  · obtain ⟨w1, p, l, s, l', h1, hp, hl, hs, rfl, rfl, hl', rfl⟩ := solve_inv hs
    obtain ⟨p1, ps, l1, l2, cons, costs, hp1, hps, e1, e2, hc, hk, rfl, f⟩ := updateSystem_inv h1
    exact ⟨fun j hj => upd_outside (h.ps p1 hp1) hj, fun j hj => updateConstrs_outside hj _ h.cons hc,
      fun j hj => updateCosts_outside hj _ h.costs hk, fun _ _ => rfl, fun _ _ => rfl⟩
  · intro i hi; rw [l1] at hi; exact mem_checkList hi
  · intro i hi; rw [l2] at hi; exact mem_checkList hi
  · intro i hi; rw [l3] at hi; exact mem_checkList hi
  · intro i hi; rw [l4] at hi; exact mem_checkList hi
  · intro i hi; rw [l5] at hi; exact mem_checkList hi

theorem initializeController_inside {dmax : K} {junk : Junk K} {p : Nat} {ps : PreviewSystem K} {l l' : LMPC K}
    (h : Inside P C Q l) (hp : P p) (hs : l.initializeController dmax junk p ps = some l') : Inside P C Q l' := by
  unfold LMPC.initializeController LMPC.clearConstraintMatrices LMPC.updateQPMatrixSize at hs
  simp only [Option.bind_eq_bind, Option.bind_eq_some_iff, Option.pure_def, Option.some.injEq] at hs
  obtain ⟨l1, ⟨n, hn, rfl⟩, m, hm, rfl⟩ := hs
  exact ⟨fun q hq => by cases hq; exact hp, h.cons, h.eq, h.ineq, h.bound, h.costs⟩

theorem inside_construct (b : Bool) (s : Solver K) : Inside P C Q (LMPC.construct b s : LMPC K) :=
  ⟨fun _ h => by (cases h), fun _ h => by (cases h), fun _ h => by (cases h), fun _ h => by (cases h), fun _ h => by (cases h),
    fun _ h => by (cases h)⟩

theorem inside_removeConstraint {l l' : LMPC K} {i : Nat} {c : Constr K} (h : Inside P C Q l)
    (hs : l.removeConstraint i c = some l') : Inside P C Q l' := by
  have er : ∀ {L s : List Nat}, LMPC.eraseFind? L i = some s → ∀ j ∈ s, j ∈ L := by
    intro L s e j hj
    unfold LMPC.eraseFind? at e
    split at e
    · cases e; exact List.mem_of_mem_erase hj
    · cases e
  unfold LMPC.removeConstraint at hs
  split at hs
  · simp only at hs
    split at hs <;> simp only [Option.bind_eq_bind, Option.bind_eq_some_iff, Option.pure_def, Option.some.injEq] at hs <;>
      obtain ⟨s, e, rfl⟩ := hs
    · exact h.lists rfl (fun _ => List.mem_of_mem_erase) (er e) (fun _ => id) (fun _ => id) (fun _ => id)
    · exact h.lists rfl (fun _ => List.mem_of_mem_erase) (fun _ => id) (er e) (fun _ => id) (fun _ => id)
    · exact h.lists rfl (fun _ => List.mem_of_mem_erase) (fun _ => id) (fun _ => id) (er e) (fun _ => id)
  · cases hs; exact h

theorem inside_addConstraintByType {l l' : LMPC K} {i : Nat} {c : Constr K} (h : Inside P C Q l) (hi : C i)
    (hs : l.addConstraintByType i c = some l') : Inside P C Q l' := by
  have ap : ∀ {L : List Nat}, (∀ j ∈ L, C j) → ∀ j ∈ L ++ [i], C j := by
    intro L hL j hj
    rcases List.mem_append.1 hj with hj | hj
    · exact hL j hj
    · rw [List.mem_singleton.1 hj]; exact hi
  unfold LMPC.addConstraintByType at hs
  split at hs
  · simp only [Option.bind_eq_bind, Option.bind_eq_some_iff, Option.pure_def, Option.some.injEq] at hs
    obtain ⟨s, e, rfl⟩ := hs
    exact ⟨h.ps, ap h.cons, ap h.eq, h.ineq, h.bound, h.costs⟩
  · simp only [Option.bind_eq_bind, Option.bind_eq_some_iff, Option.pure_def, Option.some.injEq] at hs
    obtain ⟨s, e, rfl⟩ := hs
    exact ⟨h.ps, ap h.cons, h.eq, ap h.ineq, h.bound, h.costs⟩
  · cases hs
    exact ⟨h.ps, ap h.cons, h.eq, h.ineq, ap h.bound, h.costs⟩

theorem step_outside {dmax : K} {w w' : World K} {op : Op K} (h : Inside P C Q w.ctl) (ho : Only P C Q op)
    (hs : Steps dmax w op w') : SameOutside P C Q w w' ∧ Inside P C Q w'.ctl := by
  have un : ∀ {R : Nat → Prop} {α : Type} {f : Nat → α} {i : Nat} {a : α}, R i → ∀ j, ¬ R j → upd f i a j = f j :=
    fun hi j hj => upd_outside hi hj
  have onP : ∀ {p : Nat} {s : PreviewSystem K}, P p → SameOutside P C Q w { w with pss := upd w.pss p s } :=
    fun hp => ⟨un hp, fun _ _ => rfl, fun _ _ => rfl, fun _ _ => rfl, fun _ _ => rfl⟩
  have onC : ∀ {i : Nat} {s : Constr K} {l : LMPC K}, C i → SameOutside P C Q w { w with cons := upd w.cons i s, ctl := l } :=
    fun hp => ⟨fun _ _ => rfl, un hp, fun _ _ => rfl, fun _ _ => rfl, fun _ _ => rfl⟩
  have onQ : ∀ {i : Nat} {s : Cost K} {l : LMPC K}, Q i → SameOutside P C Q w { w with costs := upd w.costs i s, ctl := l } :=
    fun hp => ⟨fun _ _ => rfl, fun _ _ => rfl, un hp, fun _ _ => rfl, fun _ _ => rfl⟩
  have onL : ∀ {l : LMPC K}, SameOutside P C Q w { w with ctl := l } :=
    ⟨fun _ _ => rfl, fun _ _ => rfl, fun _ _ => rfl, fun _ _ => rfl, fun _ _ => rfl⟩
  unfold Steps at hs
  cases op <;> simp only [Only] at ho <;> simp only [World.step] at hs
  case solve env =>
    have e := Res.steps_ofOption hs
    simp only [Option.map_eq_some_iff] at e
    obtain ⟨⟨w1, b, q⟩, e, rfl⟩ := e
    exact solve_outside h e
  case system => obtain ⟨_, rfl, _⟩ := Res.steps_map hs; exact ⟨onP ho, h⟩
  case xInit => rcases hs with hs | ⟨_, hs⟩ <;> cases hs; exact ⟨onP ho, h⟩
  case setDynamics => rcases hs with hs | ⟨_, hs⟩ <;> cases hs; exact ⟨onP ho, h⟩
  case updatePs => obtain ⟨_, rfl, _⟩ := Res.steps_map hs; exact ⟨onP ho, h⟩
  case spanConstr => obtain ⟨_, rfl, _⟩ := Res.steps_map hs; exact ⟨onC ho, h⟩
  case initConstr => obtain ⟨_, rfl, _⟩ := Res.steps_map hs; exact ⟨onC ho.1, h⟩
  case updateConstr => obtain ⟨_, rfl, _⟩ := Res.steps_map hs; exact ⟨onC ho.1, h⟩
  case spanCost => obtain ⟨_, rfl, _⟩ := Res.steps_map hs; exact ⟨onQ ho, h⟩
  case weights => obtain ⟨_, rfl, _⟩ := Res.steps_map hs; exact ⟨onQ ho, h⟩
  case weight => rcases hs with hs | ⟨_, hs⟩ <;> cases hs; exact ⟨onQ ho, h⟩
  case initCost => obtain ⟨_, rfl, _⟩ := Res.steps_map hs; exact ⟨onQ ho.1, h⟩
  case updateCost => obtain ⟨_, rfl, _⟩ := Res.steps_map hs; exact ⟨onQ ho.1, h⟩
  case refsConstr =>
    rcases hs with hs | ⟨_, hs⟩ <;> cases hs
    exact ⟨⟨fun _ _ => rfl, fun _ _ => rfl, fun _ _ => rfl, un ho, fun _ _ => rfl⟩, h⟩
  case refsCost =>
    rcases hs with hs | ⟨_, hs⟩ <;> cases hs
    exact ⟨⟨fun _ _ => rfl, fun _ _ => rfl, fun _ _ => rfl, fun _ _ => rfl, un ho⟩, h⟩
  case construct => rcases hs with hs | ⟨_, hs⟩ <;> cases hs; exact ⟨onL, inside_construct _ _⟩
  case constructPs b s p junk =>
    obtain ⟨l, rfl, e⟩ := Res.steps_map hs
    refine ⟨onL, initializeController_inside ?_ ho (Res.steps_ofOption e)⟩
    have c := inside_construct (K := K) (P := P) (C := C) (Q := Q) b s
    unfold seedInit
    split
    · exact ⟨c.ps, c.cons, c.eq, c.ineq, c.bound, c.costs⟩
    · exact c
  case initializeController =>
    obtain ⟨l, rfl, e⟩ := Res.steps_map hs
    exact ⟨onL, initializeController_inside h ho (Res.steps_ofOption e)⟩
  case useSolver =>
    rcases hs with hs | ⟨_, hs⟩ <;> cases hs
    exact ⟨onL, ⟨h.ps, h.cons, h.eq, h.ineq, h.bound, h.costs⟩⟩
  case removeCost =>
    rcases hs with hs | ⟨_, hs⟩ <;> cases hs
    exact ⟨onL, h.lists rfl (fun _ => id) (fun _ => id) (fun _ => id) (fun _ => id) (fun _ => List.mem_of_mem_erase)⟩
  case removeConstraint =>
    obtain ⟨l, rfl, e⟩ := Res.steps_map hs
    exact ⟨onL, inside_removeConstraint h (Res.steps_ofOption e)⟩
  case clearCosts =>
    rcases hs with hs | ⟨_, hs⟩ <;> cases hs
    exact ⟨onL, ⟨h.ps, h.cons, h.eq, h.ineq, h.bound, fun _ hi => by cases hi⟩⟩
  case clearConstraints =>
    have e := Res.steps_ofOption hs
    unfold clearConstraints LMPC.clearConstraintMatrices at e
    simp only [Option.bind_eq_bind, Option.bind_eq_some_iff, Option.pure_def, Option.some.injEq] at e
    obtain ⟨p, hp, l, ⟨n, _, rfl⟩, rfl⟩ := e
    exact ⟨onL, ⟨h.ps, fun _ hi => (by cases hi), fun _ hi => (by cases hi), fun _ hi => (by cases hi), fun _ hi => (by cases hi), h.costs⟩⟩
  case resetInitialStateCost =>
    rcases hs with hs | ⟨_, hs⟩ <;> cases hs
    exact ⟨onL, ⟨h.ps, h.cons, h.eq, h.ineq, h.bound, h.costs⟩⟩
  case resetInitialStateBounds =>
    rcases hs with hs | ⟨_, hs⟩ <;> cases hs
    exact ⟨onL, ⟨h.ps, h.cons, h.eq, h.ineq, h.bound, h.costs⟩⟩
  case addCost i junk =>
    unfold addCost at hs
    split at hs
    · rcases hs with hs | ⟨_, hs⟩ <;> cases hs
    · split at hs
      · rcases hs with hs | ⟨_, hs⟩ <;> cases hs
        refine ⟨onQ ho, ⟨h.ps, h.cons, h.eq, h.ineq, h.bound, ?_⟩⟩
        intro j hj
        rcases List.mem_append.1 hj with hj | hj
        · exact h.costs j hj
        · rw [List.mem_singleton.1 hj]; exact ho
      · rcases hs with hs | ⟨_, hs⟩ <;> cases hs
        exact ⟨onQ ho, h⟩
      · rcases hs with hs | ⟨_, hs⟩ <;> cases hs
  case addConstraint i junk =>
    unfold addConstraint at hs
    split at hs
    · rcases hs with hs | ⟨_, hs⟩ <;> cases hs
    · split at hs
      · split at hs
        · rename_i e
          rcases hs with hs | ⟨_, hs⟩ <;> cases hs
          exact ⟨onC ho, inside_addConstraintByType h ho e⟩
        · rcases hs with hs | ⟨_, hs⟩ <;> cases hs
      · rcases hs with hs | ⟨_, hs⟩ <;> cases hs
        exact ⟨onC ho, h⟩
      · rcases hs with hs | ⟨_, hs⟩ <;> cases hs

end World
end Copra
