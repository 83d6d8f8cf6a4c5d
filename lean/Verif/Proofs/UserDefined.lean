import Verif.SpecUser
import Verif.Proofs.HistInv

/-! # Programs with user-defined objects: what the library's own objects see -/

namespace Copra
open Spec

set_option linter.unusedSectionVars false
set_option linter.unusedSimpArgs false

variable {K S : Type} [Field K] [LinearOrder K] [IsStrictOrderedRing K]

namespace UWorld

/-! ## The user-defined objects in the registries -/

/-- What holds of user-defined constraints in every history. -/
structure Inv (X : UWorld K S) : Prop where
  ident : ∀ i C, X.consClass i = some C → (X.world.cons i).kind = .trajectory ∧
    (X.world.cons i).isIneq = decide (C.flag = .inequality)
  part : LMPC.Partition X.world.cons X.world.ctl
  flags : ∀ i ∈ X.world.ctl.spConstr, ∀ C, X.consClass i = some C → C.flag = .equality ∨ C.flag = .inequality

theorem Inv.start {X : UWorld K S} (h : X.Init) : X.Inv := by
  obtain ⟨_, _, h3, _, b, s, h5⟩ := h
  refine ⟨h3, ?_, ?_⟩
  · rw [h5]; exact LMPC.Partition.nil rfl rfl rfl rfl
  · rw [h5]; intro i hi; exact absurd hi List.not_mem_nil

theorem setRows_type (c : Constr K) (r : Rows K) : (c.setRows r).constraintType = c.constraintType := rfl

theorem Inv.onConstr {X X' : UWorld K S} {i : Nat} {f : Rows K × S → Res (Rows K × S)} (h : X.Inv)
    (e : X.onConstr i f = .ok X' ∨ ∃ x, X.onConstr i f = .thrown x X') : X'.Inv ∧ X'.consClass = X.consClass ∧
      X'.costClass = X.costClass ∧ X'.world.ctl = X.world.ctl ∧ X'.world.pss = X.world.pss ∧
      X'.world.costs = X.world.costs ∧ X'.world.extCons = X.world.extCons ∧ X'.world.extCosts = X.world.extCosts ∧
      ∀ j, j ≠ i → X'.world.cons j = X.world.cons j := by
  unfold UWorld.onConstr at e
  have : ∃ o : Rows K × S, X' = { X with
      world := { X.world with cons := World.upd X.world.cons i ((X.world.cons i).setRows o.1) }
      consMem := World.upd X.consMem i o.2 } := by
    rcases e with e | ⟨_, e⟩ <;> (cases hr : f ((X.world.cons i).inheritedRows, X.consMem i) <;> rw [hr] at e <;> cases e <;> exact ⟨_, rfl⟩)
  obtain ⟨o, rfl⟩ := this
  refine ⟨⟨?_, ?_, h.flags⟩, rfl, rfl, rfl, rfl, rfl, rfl, rfl, fun j hj => World.upd_ne _ _ hj⟩
  · intro j C hj
    by_cases e : j = i
    · subst e
      simp only [World.upd_same]
      exact h.ident j C hj
    · simp only [World.upd_ne _ _ e]
      exact h.ident j C hj
  · refine h.part.congr ?_
    intro j
    by_cases e : j = i
    · subst e; simp only [World.upd_same]; exact setRows_type _ _
    · simp only [World.upd_ne _ _ e]

theorem onCost_frame {X X' : UWorld K S} {i : Nat} {f : Terms K × S → Res (Terms K × S)}
    (e : X.onCost i f = .ok X' ∨ ∃ x, X.onCost i f = .thrown x X') : X'.consClass = X.consClass ∧
      X'.costClass = X.costClass ∧ X'.world.ctl = X.world.ctl ∧ X'.world.pss = X.world.pss ∧
      X'.world.cons = X.world.cons ∧ X'.world.extCons = X.world.extCons ∧ X'.world.extCosts = X.world.extCosts ∧
      ∀ j, j ≠ i → X'.world.costs j = X.world.costs j := by
  unfold UWorld.onCost at e
  have : ∃ o : Terms K × S, X' = { X with
      world := { X.world with costs := World.upd X.world.costs i ((X.world.costs i).setTerms o.1) }
      costMem := World.upd X.costMem i o.2 } := by
    rcases e with e | ⟨_, e⟩ <;> (cases hr : f ((X.world.costs i).inheritedTerms, X.costMem i) <;> rw [hr] at e <;> cases e <;> exact ⟨_, rfl⟩)
  obtain ⟨o, rfl⟩ := this
  exact ⟨rfl, rfl, rfl, rfl, rfl, rfl, rfl, fun j hj => World.upd_ne _ _ hj⟩

theorem _root_.Copra.World.Steps.sub {dmax : K} {w w' : World K} {op : Op K} (h : World.Steps dmax w op w')
    (hp : LMPC.Partition w.cons w.ctl) {i : Nat} (hi : i ∈ w'.ctl.spConstr) :
    i ∈ w.ctl.spConstr ∨ ∃ junk, op = .addConstraint i junk := by
  rcases h with h | ⟨e, h⟩ <;> cases op <;> simp only [World.step, Res.map_ok, Res.map_thrown, Res.ofOption_ok] at h
  case inl.addCost j junk =>
    unfold World.addCost at h
    split at h
    · cases h
    · split at h <;> cases h
      exact Or.inl hi
  case inr.addCost j junk =>
    unfold World.addCost at h
    split at h
    · cases h
    · split at h <;> cases h
      exact Or.inl hi
  case inl.addConstraint j junk =>
    unfold World.addConstraint at h
    split at h
    · cases h
    · split at h
      · split at h <;> cases h
        rename_i c hc _ l hl
        have : i ∈ w.ctl.spConstr ++ [j] := by
          unfold LMPC.addConstraintByType at hl
          split at hl
          · simp only [Option.bind_eq_bind, Option.bind_eq_some_iff, Option.pure_def, Option.some.injEq] at hl
            obtain ⟨_, _, rfl⟩ := hl
            exact hi
          · simp only [Option.bind_eq_bind, Option.bind_eq_some_iff, Option.pure_def, Option.some.injEq] at hl
            obtain ⟨_, _, rfl⟩ := hl
            exact hi
          · cases hl; exact hi
        rcases List.mem_append.1 this with h | h
        · exact Or.inl h
        · rw [List.mem_singleton.1 h]; exact Or.inr ⟨junk, rfl⟩
      · cases h
      · cases h
  case inr.addConstraint j junk =>
    unfold World.addConstraint at h
    split at h
    · cases h
    · split at h
      · split at h <;> cases h
      · cases h; exact Or.inl hi
      · cases h
  case inl.construct => cases h; exact absurd hi List.not_mem_nil
  case inl.constructPs =>
    obtain ⟨l, h, rfl⟩ := h
    obtain ⟨_, _, rfl⟩ := World.initializeController_inv h
    unfold World.seedInit at hi
    split at hi <;> exact absurd hi List.not_mem_nil
  case inl.initializeController =>
    obtain ⟨l, h, rfl⟩ := h
    obtain ⟨_, _, rfl⟩ := World.initializeController_inv h
    exact Or.inl hi
  case inl.removeConstraint j =>
    obtain ⟨l, h, rfl⟩ := h
    rw [hp.remove j] at h
    cases h
    exact Or.inl (List.mem_of_mem_erase hi)
  case inl.clearConstraints =>
    obtain ⟨_, _, _, _, rfl⟩ := World.clearConstraints_inv h
    exact absurd hi List.not_mem_nil
  case inl.solve env =>
    obtain ⟨⟨w1, b, q⟩, hs, rfl⟩ := Option.map_eq_some_iff.1 h
    obtain ⟨h1, h2, h3, h4, h5⟩   := (World.solve_frame hs).2
    rw [h1, (LMPC.checkDelete_lists hp w.extCons w.extCosts).1] at hi
    exact Or.inl (List.mem_of_mem_filter hi)
  case inl.useSolver | inl.removeCost | inl.clearCosts | inl.resetInitialStateCost | inl.resetInitialStateBounds =>
    cases h; exact Or.inl hi
  case inr.updateConstr | inr.updatePs | inr.updateCost | inr.constructPs | inr.initializeController | inr.removeConstraint =>
    obtain ⟨_, h, _⟩ := h
    exact absurd h Res.ofOption_ne_thrown
  case inr.clearConstraints | inr.solve => exact absurd h Res.ofOption_ne_thrown
  all_goals first
    | (cases h <;> exact Or.inl hi)
    | (obtain ⟨_, _, rfl⟩ := h; exact Or.inl hi)

/-- A call executed by the library alone. -/
theorem Inv.lib {dmax : K} {X X' : UWorld K S} {op : Op K} (h : X.Inv)
    (hop : ∀ i junk, op = .addConstraint i junk → X.consClass i = none)
    (e : X.lib dmax op = .ok X' ∨ ∃ x, X.lib dmax op = .thrown x X') : X'.Inv ∧ X'.consClass = X.consClass ∧
      X'.costClass = X.costClass ∧ World.Steps dmax X.world op X'.world := by
  have : ∃ w, X' = { X with world := w } ∧ World.Steps dmax X.world op w := by
    unfold UWorld.lib at e
    rcases e with e | ⟨x, e⟩
    · rw [Res.map_ok] at e
      obtain ⟨w, hw, rfl⟩ := e
      exact ⟨w, rfl, Or.inl hw⟩
    · rw [Res.map_thrown] at e
      obtain ⟨w, hw, rfl⟩ := e
      exact ⟨w, rfl, Or.inr ⟨x, hw⟩⟩
  obtain ⟨w, rfl, hs⟩ := this
  refine ⟨⟨?_, hs.partition h.part, ?_⟩, rfl, rfl, hs⟩
  · intro i C hC
    have := hs.ident i
    show (w.cons i).kind = _ ∧ (w.cons i).isIneq = _
    rw [this.kind, this.isIneq]
    exact h.ident i C hC
  · intro i hi C hC
    rcases hs.sub h.part hi with hi | ⟨junk, rfl⟩
    · exact h.flags i hi C hC
    · have := hop i junk rfl
      have hC' : X.consClass i = some C := hC
      rw [this] at hC'; cases hC'

/-! ## Simulation -/

/-- The outcomes correspond. -/
def Sim (R : Res (UWorld K S)) (R' : Res (World K)) : Prop :=
  (∀ X', R = .ok X' → ∃ w', R' = .ok w' ∧ WithoutUser X' w') ∧
  (∀ e X', R = .thrown e X' → ∃ w', R' = .thrown e w' ∧ WithoutUser X' w')

theorem Sim.map {α : Type} {X : UWorld K S} (r : Res α) {f f' : α → World K}
    (h : ∀ a, WithoutUser { X with world := f a } (f' a)) :
    Sim ((r.map f).map fun w => ({ X with world := w } : UWorld K S)) (r.map f') := by
  cases r
  · exact ⟨fun X' e => by cases e; exact ⟨_, rfl, h _⟩, fun _ X' e => by cases e⟩
  · exact ⟨fun X' e => (by cases e), fun _ X' e => (by cases e; exact ⟨_, rfl, h _⟩)⟩
  · exact ⟨fun X' e => (by cases e), fun _ X' e => (by cases e)⟩

theorem Sim.ok {X : UWorld K S} {w w' : World K} (h : WithoutUser { X with world := w } w') :
    Sim ((Res.ok w).map fun w => ({ X with world := w } : UWorld K S)) (.ok w') :=
  ⟨fun X' e => (by cases e; exact ⟨_, rfl, h⟩), fun _ X' e => (by cases e)⟩

theorem Sim.option {X : UWorld K S} {o : Option (LMPC K)} {o' : Option (LMPC K)} {w : World K}
    (W : ∀ l l', o = some l → o' = some l' → WithoutUser { X with world := { X.world with ctl := l } } { w with ctl := l' })
    (h : ∀ l, o = some l → ∃ l', o' = some l') :
    Sim (((Res.ofOption o).map fun l => ({ X.world with ctl := l } : World K)).map
        fun w => ({ X with world := w } : UWorld K S)) ((Res.ofOption o').map fun l => { w with ctl := l }) := by
  cases ho : o with
  | none => exact ⟨fun X' e => (by cases e), fun _ X' e => (by cases e)⟩
  | some l =>
    obtain ⟨l', e'⟩ := h l ho
    rw [e']
    exact ⟨fun X' e => (by cases e; exact ⟨_, rfl, W _ _ ho e'⟩), fun _ X' e => (by cases e)⟩

theorem _root_.Copra.Spec.WithoutUser.setPs {X : UWorld K S} {w : World K} (h : WithoutUser X w) (p : Nat) (s : PreviewSystem K) :
    WithoutUser { X with world := { X.world with pss := World.upd X.world.pss p s } }
      { w with pss := World.upd w.pss p s } :=
  ⟨by simp only [h.pss], h.cons, h.costs, h.extCons, h.extCosts, h.ctl⟩

theorem _root_.Copra.Spec.WithoutUser.setConstr {X : UWorld K S} {w : World K} (h : WithoutUser X w) (i : Nat) (c : Constr K) :
    WithoutUser { X with world := { X.world with cons := World.upd X.world.cons i c } }
      { w with cons := World.upd w.cons i c } := by
  refine ⟨h.pss, ?_, h.costs, h.extCons, h.extCosts, h.ctl⟩
  intro j hj
  by_cases e : j = i
  · subst e; simp only [World.upd_same]
  · simp only [World.upd_ne _ _ e]; exact h.cons j hj

theorem _root_.Copra.Spec.WithoutUser.setCost {X : UWorld K S} {w : World K} (h : WithoutUser X w) (i : Nat) (c : Cost K) :
    WithoutUser { X with world := { X.world with costs := World.upd X.world.costs i c } }
      { w with costs := World.upd w.costs i c } := by
  refine ⟨h.pss, h.cons, ?_, h.extCons, h.extCosts, h.ctl⟩
  intro j hj
  by_cases e : j = i
  · subst e; simp only [World.upd_same]
  · simp only [World.upd_ne _ _ e]; exact h.costs j hj

/-- Changes of user-defined objects are not seen. -/
theorem _root_.Copra.Spec.WithoutUser.unseen {X X' : UWorld K S} {w : World K} (h : WithoutUser X w)
    (e1 : X'.consClass = X.consClass) (e2 : X'.costClass = X.costClass) (e3 : X'.world.pss = X.world.pss)
    (e4 : ∀ i, X.consClass i = none → X'.world.cons i = X.world.cons i)
    (e5 : ∀ i, X.costClass i = none → X'.world.costs i = X.world.costs i)
    (e6 : X'.world.extCons = X.world.extCons) (e7 : X'.world.extCosts = X.world.extCosts)
    (e8 : Stripped (fun i => (X.consClass i).isNone) (fun i => (X.costClass i).isNone) X'.world.ctl w.ctl) :
    WithoutUser X' w := by
  refine ⟨by rw [e3, h.pss], ?_, ?_, by rw [e6, h.extCons], by rw [e7, h.extCosts], by rw [e1, e2]; exact e8⟩
  · intro i hi; rw [e1] at hi; rw [e4 i hi]; exact h.cons i hi
  · intro i hi; rw [e2] at hi; rw [e5 i hi]; exact h.costs i hi

theorem _root_.Copra.Spec.WithoutUser.setCtl {X : UWorld K S} {w : World K} (h : WithoutUser X w) {l l' : LMPC K}
    (hl : Stripped (fun i => (X.consClass i).isNone) (fun i => (X.costClass i).isNone) l l') :
    WithoutUser { X with world := { X.world with ctl := l } } { w with ctl := l' } :=
  ⟨h.pss, h.cons, h.costs, h.extCons, h.extCosts, hl⟩

/-- The call is for the library alone. -/
def ForLib (X : UWorld K S) : Op K → Prop
  | .spanConstr i _ | .initConstr i _ _ | .updateConstr i _ | .addConstraint i _ => X.consClass i = none
  | .spanCost i _ | .weights i _ | .weight i _ | .initCost i _ _ | .updateCost i _ | .addCost i _ => X.costClass i = none
  | .solve _ => False
  | _ => True

theorem _root_.Copra.Spec.Stripped.optSize {lc lk : Nat → Bool} {l l' : LMPC K} (h : Stripped lc lk l l') (ps : PreviewSystem K) :
    l'.optSize ps = l.optSize ps := by
  unfold LMPC.optSize; rw [h.isInit]

theorem _root_.Copra.Spec.Stripped.reset {lc lk : Nat → Bool} {l l' : LMPC K} (h : Stripped lc lk l l') {dmax : K} {junk : Junk K} {p : Nat}
    {ps : PreviewSystem K} {m : LMPC K} (e : l.initializeController dmax junk p ps = some m) :
    ∃ m', l'.initializeController dmax junk p ps = some m' ∧ Stripped lc lk m m' := by
  obtain ⟨n, hn, rfl⟩ := World.initializeController_inv e
  have hn' : l'.optSize ps = some n := by rw [h.optSize]; exact hn
  refine ⟨{ l' with
      ps := some p
      Aineq := Mat.zero 0 n, Aeq := Mat.zero 0 n, bineq := Vec.nil, beq := Vec.nil
      lb := Vec.const n (.fin (-dmax)), ub := Vec.const n (.fin dmax)
      Q := Mat.resize n n (junk.m 0), c := Vec.resize n (junk.v 0) }, ?_, ?_⟩
  · have hn2 : ∀ l2 : LMPC K, l2.isInit = l'.isInit → l2.optSize ps = some n := by
      intro l2 h2
      rw [← hn']; unfold LMPC.optSize; rw [h2]
    unfold LMPC.initializeController LMPC.clearConstraintMatrices
    rw [hn2 { l' with ps := some p } rfl]
    simp only [Option.bind_eq_bind, Option.bind_some, Option.pure_def]
    unfold LMPC.updateQPMatrixSize
    rw [hn2 { l' with
      ps := some p
      Aineq := Mat.zero 0 n, Aeq := Mat.zero 0 n, bineq := Vec.nil, beq := Vec.nil
      lb := Vec.const n (.fin (-dmax)), ub := Vec.const n (.fin dmax) } rfl]
    rfl
  · exact ⟨h.isInit, rfl, h.sol, h.spConstr, h.spEqConstr, h.spIneqConstr, h.spBoundConstr, h.spCost, h.nrEq, h.nrIneq,
      rfl, rfl, rfl, rfl, rfl, h.trajectory, h.control, h.R, h.r, h.x0lb, h.x0ub⟩

theorem _root_.Copra.Spec.Stripped.construct (lc lk : Nat → Bool) (b : Bool) (s : Solver K) (ps : PreviewSystem K) :
    Stripped lc lk (World.seedInit (LMPC.construct b s) ps) (World.seedInit (LMPC.construct b s) ps) := by
  unfold World.seedInit
  split <;> exact ⟨rfl, rfl, rfl, rfl, rfl, rfl, rfl, rfl, Nat.le_refl _, Nat.le_refl _, rfl, rfl, rfl, rfl, rfl, rfl, rfl,
    rfl, rfl, rfl, rfl⟩

theorem _root_.Copra.Spec.Stripped.add {lc lk : Nat → Bool} {l l' m : LMPC K} (h : Stripped lc lk l l') {i : Nat} (hi : lc i = true)
    {c : Constr K} (e : l.addConstraintByType i c = some m) :
    ∃ m', l'.addConstraintByType i c = some m' ∧ Stripped lc lk m m' := by
  unfold LMPC.addConstraintByType at e ⊢
  cases ht : c.constraintType <;> rw [ht] at e <;> simp only at e ⊢
  · simp only [Option.bind_eq_bind, Option.bind_eq_some_iff, Option.pure_def, Option.some.injEq, chkInt_eq] at e
    obtain ⟨_, ⟨hle, rfl⟩, rfl⟩ := e
    rw [Constr.chkInt_some (by have := h.nrEq; omega)]
    refine ⟨_, rfl, ?_⟩
    refine ⟨h.isInit, h.ps, h.sol, ?_, ?_, h.spIneqConstr, h.spBoundConstr, h.spCost, ?_, h.nrIneq, h.Qr, h.Qc, h.cr,
      h.lb, h.ub, h.trajectory, h.control, h.R, h.r, h.x0lb, h.x0ub⟩
    · simp [h.spConstr, hi]
    · simp [h.spEqConstr, hi]
    · simpa using h.nrEq
  · simp only [Option.bind_eq_bind, Option.bind_eq_some_iff, Option.pure_def, Option.some.injEq, chkInt_eq] at e
    obtain ⟨_, ⟨hle, rfl⟩, rfl⟩ := e
    rw [Constr.chkInt_some (by have := h.nrIneq; omega)]
    refine ⟨_, rfl, ?_⟩
    refine ⟨h.isInit, h.ps, h.sol, ?_, h.spEqConstr, ?_, h.spBoundConstr, h.spCost, h.nrEq, ?_, h.Qr, h.Qc, h.cr,
      h.lb, h.ub, h.trajectory, h.control, h.R, h.r, h.x0lb, h.x0ub⟩
    · simp [h.spConstr, hi]
    · simp [h.spIneqConstr, hi]
    · simpa using h.nrIneq
  · cases e
    refine ⟨_, rfl, ?_⟩
    refine ⟨h.isInit, h.ps, h.sol, ?_, h.spEqConstr, h.spIneqConstr, ?_, h.spCost, h.nrEq, h.nrIneq, h.Qr, h.Qc, h.cr,
      h.lb, h.ub, h.trajectory, h.control, h.R, h.r, h.x0lb, h.x0ub⟩
    · simp [h.spConstr, hi]
    · simp [h.spBoundConstr, hi]

/-- A user-defined constraint is registered: the rest sees nothing of it. -/
theorem _root_.Copra.Spec.Stripped.addUser {lc lk : Nat → Bool} {l l' m : LMPC K} (h : Stripped lc lk l l') {i : Nat} (hi : lc i = false)
    {c : Constr K} (e : l.addConstraintByType i c = some m) : Stripped lc lk m l' := by
  unfold LMPC.addConstraintByType at e
  cases ht : c.constraintType <;> rw [ht] at e <;> simp only at e
  · simp only [Option.bind_eq_bind, Option.bind_eq_some_iff, Option.pure_def, Option.some.injEq, chkInt_eq] at e
    obtain ⟨_, ⟨hle, rfl⟩, rfl⟩ := e
    refine ⟨h.isInit, h.ps, h.sol, ?_, ?_, h.spIneqConstr, h.spBoundConstr, h.spCost, ?_, h.nrIneq, h.Qr, h.Qc, h.cr,
      h.lb, h.ub, h.trajectory, h.control, h.R, h.r, h.x0lb, h.x0ub⟩
    · simp [h.spConstr, hi]
    · simp [h.spEqConstr, hi]
    · have := h.nrEq
      show l'.nrEqConstr ≤ l.nrEqConstr + c.nrConstr
      omega
  · simp only [Option.bind_eq_bind, Option.bind_eq_some_iff, Option.pure_def, Option.some.injEq, chkInt_eq] at e
    obtain ⟨_, ⟨hle, rfl⟩, rfl⟩ := e
    refine ⟨h.isInit, h.ps, h.sol, ?_, h.spEqConstr, ?_, h.spBoundConstr, h.spCost, h.nrEq, ?_, h.Qr, h.Qc, h.cr,
      h.lb, h.ub, h.trajectory, h.control, h.R, h.r, h.x0lb, h.x0ub⟩
    · simp [h.spConstr, hi]
    · simp [h.spIneqConstr, hi]
    · have := h.nrIneq
      show l'.nrIneqConstr ≤ l.nrIneqConstr + c.nrConstr
      omega
  · cases e
    refine ⟨h.isInit, h.ps, h.sol, ?_, h.spEqConstr, h.spIneqConstr, ?_, h.spCost, h.nrEq, h.nrIneq, h.Qr, h.Qc, h.cr,
      h.lb, h.ub, h.trajectory, h.control, h.R, h.r, h.x0lb, h.x0ub⟩
    · simp [h.spConstr, hi]
    · simp [h.spBoundConstr, hi]

theorem _root_.Copra.Spec.Stripped.erase {lc : Nat → Bool} {a b : List Nat} (h : b = a.filter lc) (i : Nat) :
    b.erase i = (a.erase i).filter lc := by
  rw [LMPC.erase_filter]
  split
  · rw [h]
  · next hi =>
    rw [h]
    apply List.erase_of_not_mem
    simp [hi]

/-- A call executed by the library alone has the same effect without the user-defined objects. -/
theorem lib_sim {dmax : K} {X : UWorld K S} {w : World K} {op : Op K} (W : WithoutUser X w) (I : X.Inv)
    (Pw : LMPC.Partition w.cons w.ctl) (hop : ForLib X op) : Sim (X.lib dmax op) (w.step dmax op) := by
  obtain ⟨pss, cons, costs, ec, ek, l⟩ := w
  obtain rfl : pss = X.world.pss := W.pss
  have C := W.ctl
  unfold UWorld.lib
  cases op <;> simp only [World.step]
  case system p A B v x0 N => exact Sim.map _ fun s => by exact W.setPs p s
  case xInit p x => apply Sim.ok; exact W.setPs p _
  case setDynamics p A B v => apply Sim.ok; exact W.setPs p _
  case updatePs p => exact Sim.map _ fun s => by exact W.setPs p s
  case spanConstr i junk => rw [show cons i = X.world.cons i from W.cons i hop]; exact Sim.map _ fun c => W.setConstr i c
  case initConstr i p junk => rw [show cons i = X.world.cons i from W.cons i hop]; exact Sim.map _ fun c => by exact W.setConstr i c
  case updateConstr i p => rw [show cons i = X.world.cons i from W.cons i hop]; exact Sim.map _ fun c => by exact W.setConstr i c
  case spanCost i junk => rw [show costs i = X.world.costs i from W.costs i hop]; exact Sim.map _ fun c => W.setCost i c
  case weights i v => rw [show costs i = X.world.costs i from W.costs i hop]; exact Sim.map _ fun c => W.setCost i c
  case weight i v => rw [show costs i = X.world.costs i from W.costs i hop]; exact Sim.ok (W.setCost i _)
  case initCost i p junk => rw [show costs i = X.world.costs i from W.costs i hop]; exact Sim.map _ fun c => by exact W.setCost i c
  case updateCost i p => rw [show costs i = X.world.costs i from W.costs i hop]; exact Sim.map _ fun c => by exact W.setCost i c
  case refsConstr i n => exact Sim.ok ⟨W.pss, W.cons, W.costs, congrArg (World.upd · i n) W.extCons, W.extCosts, C⟩
  case refsCost i n => exact Sim.ok ⟨W.pss, W.cons, W.costs, W.extCons, congrArg (World.upd · i n) W.extCosts, C⟩
  case construct b s =>
    exact Sim.ok (W.setCtl ⟨rfl, rfl, rfl, rfl, rfl, rfl, rfl, rfl, Nat.le_refl _, Nat.le_refl _, rfl, rfl, rfl, rfl, rfl, rfl,
      rfl, rfl, rfl, rfl, rfl⟩)
  case constructPs b s p junk =>
    have H := Stripped.construct (fun i => (X.consClass i).isNone) (fun i => (X.costClass i).isNone) b s (X.world.pss p)
    refine Sim.option (X := X) (w := ⟨X.world.pss, cons, costs, ec, ek, l⟩) ?_ ?_
    · intro l1 l' e e'
      obtain ⟨m', h1, h2⟩ := H.reset e
      rw [e'] at h1; cases h1
      exact W.setCtl h2
    · intro l1 e
      obtain ⟨m', h1, h2⟩ := H.reset e
      exact ⟨m', h1⟩
  case useSolver s =>
    exact Sim.ok (W.setCtl ⟨C.isInit, C.ps, rfl, C.spConstr, C.spEqConstr, C.spIneqConstr, C.spBoundConstr, C.spCost, C.nrEq,
      C.nrIneq, C.Qr, C.Qc, C.cr, C.lb, C.ub, C.trajectory, C.control, C.R, C.r, C.x0lb, C.x0ub⟩)
  case initializeController p junk =>
    refine Sim.option (X := X) (w := ⟨X.world.pss, cons, costs, ec, ek, l⟩) ?_ ?_
    · intro l1 l' e e'
      obtain ⟨m', h1, h2⟩ := C.reset e
      rw [e'] at h1; cases h1
      exact W.setCtl h2
    · intro l1 e
      obtain ⟨m', h1, h2⟩ := C.reset e
      exact ⟨m', h1⟩
  case addCost i junk =>
    have hi : (X.costClass i).isNone = true := by rw [show X.costClass i = none from hop]; rfl
    unfold World.addCost
    rw [show l.ps = X.world.ctl.ps from C.ps]
    cases hp : X.world.ctl.ps with
    | none => exact ⟨fun X' e => (by cases e), fun _ X' e => (by cases e)⟩
    | some p =>
      simp only
      rw [show costs i = X.world.costs i from W.costs i hop]
      have key : ∀ c : Cost K, WithoutUser { X with world := { X.world with
          costs := World.upd X.world.costs i c
          ctl := { X.world.ctl with spCost := X.world.ctl.spCost ++ [i] } } }
          ⟨X.world.pss, cons, World.upd costs i c, ec, ek, { l with spCost := l.spCost ++ [i] }⟩ := by
        intro c
        refine WithoutUser.setCtl (W.setCost i c) ⟨C.isInit, C.ps, C.sol, C.spConstr, C.spEqConstr, C.spIneqConstr, C.spBoundConstr,
          ?_, C.nrEq, C.nrIneq, C.Qr, C.Qc, C.cr, C.lb, C.ub, C.trajectory, C.control, C.R, C.r, C.x0lb, C.x0ub⟩
        show l.spCost ++ [i] = (X.world.ctl.spCost ++ [i]).filter _
        rw [show l.spCost = _ from C.spCost, List.filter_append, List.filter_cons_of_pos (by exact hi)]
        rfl
      cases hr : (X.world.costs i).initializeCost junk (X.world.pss p) with
      | ok c => exact ⟨fun X' e => (by cases e; exact ⟨_, rfl, by exact key c⟩), fun _ X' e => (by cases e)⟩
      | thrown x c =>
        exact ⟨fun X' e => (by cases e), fun _ X' e => (by cases e; exact ⟨_, rfl, by exact W.setCost i c⟩)⟩
      | ub => exact ⟨fun X' e => (by cases e), fun _ X' e => (by cases e)⟩
  case addConstraint i junk =>
    have hi : (X.consClass i).isNone = true := by rw [show X.consClass i = none from hop]; rfl
    unfold World.addConstraint
    rw [show l.ps = X.world.ctl.ps from C.ps]
    cases hp : X.world.ctl.ps with
    | none => exact ⟨fun X' e => (by cases e), fun _ X' e => (by cases e)⟩
    | some p =>
      simp only
      rw [show cons i = X.world.cons i from W.cons i hop]
      cases hr : (X.world.cons i).initializeConstraint junk (X.world.pss p) with
      | ok c =>
        cases ha : X.world.ctl.addConstraintByType i c with
        | none => exact ⟨fun X' e => (by simp only [ha] at e; cases e), fun _ X' e => (by simp only [ha] at e; cases e)⟩
        | some l =>
          obtain ⟨l', h1, h2⟩ := C.add (by exact hi) ha
          simp only [ha, h1]
          refine ⟨fun X' e => ?_, fun _ X' e => (by cases e)⟩
          cases e
          refine ⟨_, rfl, ?_⟩
          exact WithoutUser.setCtl (W.setConstr i c) h2
      | thrown x c =>
        exact ⟨fun X' e => (by cases e), fun _ X' e => (by cases e; exact ⟨_, rfl, by exact W.setConstr i c⟩)⟩
      | ub => exact ⟨fun X' e => (by cases e), fun _ X' e => (by cases e)⟩
  case removeCost i =>
    refine Sim.ok (W.setCtl ⟨C.isInit, C.ps, C.sol, C.spConstr, C.spEqConstr, C.spIneqConstr, C.spBoundConstr,
          ?_, C.nrEq, C.nrIneq, C.Qr, C.Qc, C.cr, C.lb, C.ub, C.trajectory, C.control, C.R, C.r, C.x0lb, C.x0ub⟩)
    exact Stripped.erase C.spCost i
  case removeConstraint i =>
    rw [I.part.remove i, Pw.remove i]
    refine Sim.option (X := X) (w := ⟨X.world.pss, cons, costs, ec, ek, l⟩) ?_ fun _ _ => ⟨_, rfl⟩
    intro l1 l' e e'
    cases e; cases e'
    exact W.setCtl ⟨C.isInit, C.ps, C.sol, Stripped.erase C.spConstr i, Stripped.erase C.spEqConstr i,
      Stripped.erase C.spIneqConstr i, Stripped.erase C.spBoundConstr i, C.spCost, C.nrEq, C.nrIneq, C.Qr, C.Qc, C.cr, C.lb,
      C.ub, C.trajectory, C.control, C.R, C.r, C.x0lb, C.x0ub⟩
  case clearCosts =>
    exact Sim.ok (W.setCtl ⟨C.isInit, C.ps, C.sol, C.spConstr, C.spEqConstr, C.spIneqConstr, C.spBoundConstr,
          rfl, C.nrEq, C.nrIneq, C.Qr, C.Qc, C.cr, C.lb, C.ub, C.trajectory, C.control, C.R, C.r, C.x0lb, C.x0ub⟩)
  case clearConstraints =>
    cases hc : X.world.clearConstraints dmax with
    | none => exact ⟨fun X' e => (by cases e), fun _ X' e => (by cases e)⟩
    | some w1 =>
      obtain ⟨p, n, hp, hn, rfl⟩ := World.clearConstraints_inv hc
      refine ⟨fun X' e => ?_, fun _ X' e => (by cases e)⟩
      cases e
      have hn' : ∀ l2 : LMPC K, l2.isInit = l.isInit → l2.optSize (X.world.pss p) = some n := by
        intro l2 h2
        rw [← hn, ← C.optSize]
        unfold LMPC.optSize; rw [h2]
      refine ⟨{ pss := X.world.pss, cons, costs, extCons := ec, extCosts := ek, ctl := { l.clearRegistry with
        Aineq := Mat.zero 0 n, Aeq := Mat.zero 0 n, bineq := Vec.nil, beq := Vec.nil
        lb := Vec.const n (.fin (-dmax)), ub := Vec.const n (.fin dmax) } }, ?_, ?_⟩
      · unfold World.clearConstraints
        rw [show l.ps = _ from C.ps, hp]
        simp only [Option.bind_eq_bind, Option.bind_some]
        unfold LMPC.clearConstraintMatrices
        rw [hn' l.clearRegistry rfl]
        rfl
      · exact WithoutUser.setCtl W ⟨C.isInit, C.ps, C.sol, rfl, rfl, rfl, rfl, C.spCost, Nat.le_refl _, Nat.le_refl _, C.Qr, C.Qc, C.cr,
          rfl, rfl, C.trajectory, C.control, C.R, C.r, C.x0lb, C.x0ub⟩
  case resetInitialStateCost R r =>
    exact Sim.ok (W.setCtl ⟨C.isInit, C.ps, C.sol, C.spConstr, C.spEqConstr, C.spIneqConstr, C.spBoundConstr,
          C.spCost, C.nrEq, C.nrIneq, C.Qr, C.Qc, C.cr, C.lb, C.ub, C.trajectory, C.control, rfl, rfl, C.x0lb, C.x0ub⟩)
  case resetInitialStateBounds lo up =>
    exact Sim.ok (W.setCtl ⟨C.isInit, C.ps, C.sol, C.spConstr, C.spEqConstr, C.spIneqConstr, C.spBoundConstr,
          C.spCost, C.nrEq, C.nrIneq, C.Qr, C.Qc, C.cr, C.lb, C.ub, C.trajectory, C.control, C.R, C.r, rfl, rfl⟩)
  case solve env => exact hop.elim

end UWorld
end Copra
