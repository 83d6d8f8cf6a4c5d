import Verif.Proofs.UserSolve
import Verif.Props.System

/-! # Histories of programs with user-defined objects -/

namespace Copra
open Spec

set_option linter.unusedSectionVars false
set_option linter.unusedSimpArgs false

variable {K S : Type} [Field K] [LinearOrder K] [IsStrictOrderedRing K]

namespace UWorld

/-- The client remembers the same about the library's objects. -/
structure GhostRel (X : UWorld K S) (g gw : Ghost) : Prop where
  constr : ∀ i, X.consClass i = none → (gw.constr i ↔ g.constr i)
  cost : ∀ i, X.costClass i = none → (gw.cost i ↔ g.cost i)
  fresh : ∀ i, X.costClass i = none → (gw.fresh i ↔ g.fresh i)
  clean : gw.clean ↔ g.clean

theorem GhostRel.unseen {X X' : UWorld K S} {g g' gw : Ghost} (h : GhostRel X g gw) (e1 : X'.consClass = X.consClass)
    (e2 : X'.costClass = X.costClass) (h1 : ∀ i, X.consClass i = none → (g'.constr i ↔ g.constr i))
    (h2 : ∀ i, X.costClass i = none → (g'.cost i ↔ g.cost i)) (h3 : ∀ i, X.costClass i = none → (g'.fresh i ↔ g.fresh i))
    (h4 : g'.clean ↔ g.clean) : GhostRel X' g' gw := by
  refine ⟨?_, ?_, ?_, h.clean.trans h4.symm⟩
  · intro i hi; rw [e1] at hi; exact (h.constr i hi).trans (h1 i hi).symm
  · intro i hi; rw [e2] at hi; exact (h.cost i hi).trans (h2 i hi).symm
  · intro i hi; rw [e2] at hi; exact (h.fresh i hi).trans (h3 i hi).symm

theorem bound_same {X : UWorld K S} {w : World K} (W : WithoutUser X w) (I : X.Inv) :
    w.ctl.spBoundConstr = X.world.ctl.spBoundConstr := by
  rw [W.ctl.spBoundConstr]
  apply List.filter_eq_self.2
  intro i hi
  rw [I.bound_lib hi]; rfl

theorem opOk_lib {d : Dims} {X : UWorld K S} {w : World K} {g gw : Ghost} {op : Op K} (W : WithoutUser X w) (I : X.Inv)
    (R : GhostRel X g gw) (hop : ForLib X op) (h : OpOk d X.world g op) (h2 : NoBoundSpan X.world op) :
    OpOk d w gw op ∧ NoBoundSpan w op := by
  obtain ⟨pss, cons, costs, ec, ek, l⟩ := w
  obtain rfl : pss = X.world.pss := W.pss
  cases op
  case spanConstr i junk =>
    refine ⟨trivial, ?_⟩
    have e : cons i = X.world.cons i := W.cons i hop
    unfold NoBoundSpan at h2 ⊢
    simpa only [e] using h2
  case updateConstr i p => exact ⟨⟨(R.constr i hop).2 h.1, h.2⟩, trivial⟩
  case updateCost i p => exact ⟨⟨(R.cost i hop).2 h.1, h.2⟩, trivial⟩
  case addConstraint i junk =>
    refine ⟨?_, trivial⟩
    intro hk
    have e : cons i = X.world.cons i := W.cons i hop
    have hk' : (X.world.cons i).kind = .ctrlBound := by rw [← e]; exact hk
    have hb : l.spBoundConstr = X.world.ctl.spBoundConstr := bound_same W I
    exact hb.trans (h hk')
  case solve => exact hop.elim
  all_goals exact ⟨h, trivial⟩

theorem ghost_lib {X X' : UWorld K S} {w : World K} {g gw : Ghost} {op : Op K} {ok : Prop} (W : WithoutUser X w) (I : X.Inv)
    (R : GhostRel X g gw) (e1 : X'.consClass = X.consClass) (e2 : X'.costClass = X.costClass) :
    GhostRel X' (g.next X.world ok op) (gw.next w ok op) := by
  have hb : w.ctl.spBoundConstr = X.world.ctl.spBoundConstr := bound_same W I
  have hk : ∀ i, X.costClass i = none → (i ∉ w.ctl.spCost ↔ i ∉ X.world.ctl.spCost) := by
    intro i hi
    rw [W.ctl.spCost, List.mem_filter, hi]; simp
  cases op <;> simp only [Ghost.next]
  all_goals
    refine ⟨fun i hi => ?_, fun i hi => ?_, fun i hi => ?_, ?_⟩
  all_goals try rw [e1] at hi
  all_goals try rw [e2] at hi
  all_goals first
    | exact R.constr i hi
    | exact R.cost i hi
    | exact R.fresh i hi
    | exact R.clean
    | exact Iff.rfl
    | exact or_congr (R.constr i hi) Iff.rfl
    | exact or_congr (R.cost i hi) Iff.rfl
    | exact or_congr (R.fresh i hi) Iff.rfl
    | exact and_congr (R.fresh i hi) Iff.rfl
    | exact and_congr (R.fresh i hi) (hk i hi)
    | exact and_congr R.clean (by rw [hb])

/-- A program start without the user-defined objects. -/
theorem start_without {X : UWorld K S} (h : X.Init) : ∃ w, World.Init w ∧ WithoutUser X w := by
  obtain ⟨h1, h2, h3, h4, h5⟩ := h
  refine ⟨{ X.world with
    cons := fun i => if X.consClass i = none then X.world.cons i else Constr.mkTrajectory Mat.empty Vec.nil true
    costs := fun i => if X.costClass i = none then X.world.costs i else Cost.mkTrajectory Mat.empty (Vec.zero 0) }, ?_, ?_⟩
  · refine ⟨h1, ?_, ?_, h5⟩
    · intro i
      show World.FreshConstr (if X.consClass i = none then X.world.cons i else _)
      split
      · next hi => exact h2 i hi
      · exact Or.inl ⟨_, _, _, rfl⟩
    · intro i
      show World.FreshCost (if X.costClass i = none then X.world.costs i else _)
      split
      · next hi => exact h4 i hi
      · exact Or.inl ⟨_, _, rfl⟩
  · obtain ⟨b, s, h5⟩ := h5
    refine ⟨rfl, fun i hi => if_pos hi, fun i hi => if_pos hi, rfl, rfl, ?_⟩
    rw [h5]
    exact ⟨rfl, rfl, rfl, rfl, rfl, rfl, rfl, rfl, Nat.le_refl _, Nat.le_refl _, rfl, rfl, rfl, rfl, rfl, rfl, rfl,
      rfl, rfl, rfl, rfl⟩

/-- A state of the program with user-defined objects, and the program without them. -/
structure Projects (d : Dims) (dmax : K) (X : UWorld K S) (g : Ghost) (w : World K) (gw : Ghost) : Prop where
  hist : Hist d dmax NoBoundSpan w gw
  without : WithoutUser X w
  inv : X.Inv
  ghost : GhostRel X g gw

/-- `r` is the state a call ended in, normally or by an exception. -/
def Ends (R : Res (UWorld K S)) (ok : Prop) (X' : UWorld K S) : Prop :=
  (R = .ok X' ∧ ok = True) ∨ (∃ e, R = .thrown e X' ∧ ok = False)

theorem Ends.or {R : Res (UWorld K S)} {ok : Prop} {X' : UWorld K S} (h : Ends R ok X') :
    R = .ok X' ∨ ∃ e, R = .thrown e X' := by
  rcases h with h | ⟨e, h⟩
  · exact Or.inl h.1
  · exact Or.inr ⟨e, h.1⟩

/-- How the program without user-defined objects follows one call. -/
def Follows (d : Dims) (dmax : K) (X : UWorld K S) (op : UOp K S) (X' : UWorld K S) (ok : Prop) (w : World K) (gw : Ghost)
    (w' : World K) (gw' : Ghost) : Prop :=
  (UserOnly X op ∧ w' = w ∧ gw' = gw) ∨
  ∃ o o', op = .api o ∧ ¬ UserOnly X op ∧ OpOk d w gw o' ∧ NoBoundSpan w o' ∧ gw' = gw.next w ok o' ∧ CallBeside X o o' ∧
    ((ok = True ∧ X.step dmax op = .ok X' ∧ w.step dmax o' = .ok w') ∨
      (ok = False ∧ ∃ e, X.step dmax op = .thrown e X' ∧ w.step dmax o' = .thrown e w' ∧ o' = o))

theorem forLib_sameCall {X : UWorld K S} {op : Op K} (h : ForLib X op) : CallBeside X op op := by
  cases op <;> first | exact rfl | exact h.elim

theorem forLib_notUser {X : UWorld K S} {op : Op K} (h : ForLib X op) : ¬ UserOnly X (.api op) := by
  cases op <;> first | exact fun hu => hu h | exact id

theorem Projects.lib {d : Dims} {dmax : K} {X X' : UWorld K S} {g gw : Ghost} {w : World K} {op : Op K} {ok : Prop}
    (P : Projects d dmax X g w gw) (hop : ForLib X op) (h : OpOk d X.world g op) (h2 : NoBoundSpan X.world op)
    (hl : X.step dmax (.api op) = X.lib dmax op)
    (e : Ends (X.lib dmax op) ok X') : ∃ w' gw', Projects d dmax X' (g.next X.world ok op) w' gw' ∧
      Follows d dmax X (.api op) X' ok w gw w' gw' := by
  obtain ⟨o1, o2⟩ := opOk_lib P.without P.inv P.ghost hop h h2
  obtain ⟨s1, s2⟩ := lib_sim (dmax := dmax) P.without P.inv P.hist.good.part hop
  obtain ⟨i1, i2, i3, -⟩ := P.inv.lib (dmax := dmax) (op := op) (X' := X')
    (fun i junk e => (by subst e; exact hop)) e.or
  rcases e with ⟨e, rfl⟩ | ⟨x, e, rfl⟩
  · obtain ⟨w', e', W'⟩ := s1 X' e
    exact ⟨w', gw.next w True op, ⟨P.hist.ok o1 o2 e', W', i1, ghost_lib P.without P.inv P.ghost i2 i3⟩,
      Or.inr ⟨op, op, rfl, forLib_notUser hop, o1, o2, rfl, forLib_sameCall hop, Or.inl ⟨rfl, hl.trans e, e'⟩⟩⟩
  · obtain ⟨w', e', W'⟩ := s2 x X' e
    exact ⟨w', gw.next w False op, ⟨P.hist.thrown o1 o2 e', W', i1, ghost_lib P.without P.inv P.ghost i2 i3⟩,
      Or.inr ⟨op, op, rfl, forLib_notUser hop, o1, o2, rfl, forLib_sameCall hop, Or.inr ⟨rfl, x, hl.trans e, e', rfl⟩⟩⟩

theorem Projects.onConstr {d : Dims} {dmax : K} {X X' : UWorld K S} {g gw : Ghost} {w : World K} {i : Nat} {C : ConstrClass K S}
    {f : Rows K × S → Res (Rows K × S)} {ok : Prop}
    (P : Projects d dmax X g w gw) (hC : X.consClass i = some C) (e : Ends (X.onConstr i f) ok X') (g' : Ghost)
    (h1 : ∀ j, j ≠ i → (g'.constr j ↔ g.constr j)) (h2 : g'.cost = g.cost) (h3 : g'.fresh = g.fresh)
    (h4 : g'.clean = g.clean) : Projects d dmax X' g' w gw := by
  obtain ⟨i1, i2, i3, i4, i5, i6, i7, i8, i9⟩ := P.inv.onConstr e.or
  have hne : ∀ j, X.consClass j = none → j ≠ i := by rintro j hj rfl; rw [hC] at hj; cases hj
  refine ⟨P.hist, P.without.unseen i2 i3 i5 (fun j hj => i9 j (hne j hj)) (fun j _ => by rw [i6]) i7 i8 (by rw [i4]; exact P.without.ctl),
    i1, P.ghost.unseen i2 i3 (fun j hj => h1 j (hne j hj)) (fun _ _ => by rw [h2]) (fun _ _ => by rw [h3]) (by rw [h4])⟩

theorem Projects.onCost {d : Dims} {dmax : K} {X X' : UWorld K S} {g gw : Ghost} {w : World K} {i : Nat} {C : CostClass K S}
    {f : Terms K × S → Res (Terms K × S)} {ok : Prop}
    (P : Projects d dmax X g w gw) (hC : X.costClass i = some C) (e : Ends (X.onCost i f) ok X') (g' : Ghost)
    (h1 : g'.constr = g.constr) (h2 : ∀ j, j ≠ i → (g'.cost j ↔ g.cost j)) (h3 : ∀ j, j ≠ i → (g'.fresh j ↔ g.fresh j))
    (h4 : g'.clean = g.clean) : Projects d dmax X' g' w gw := by
  obtain ⟨i2, i3, i4, i5, i6, i7, i8, i9⟩ := onCost_frame e.or
  have hne : ∀ j, X.costClass j = none → j ≠ i := by rintro j hj rfl; rw [hC] at hj; cases hj
  refine ⟨P.hist, P.without.unseen i2 i3 i5 (fun j _ => by rw [i6]) (fun j hj => i9 j (hne j hj)) i7 i8 (by rw [i4]; exact P.without.ctl),
    ⟨?_, ?_, ?_⟩, P.ghost.unseen i2 i3 (fun _ _ => by rw [h1]) (fun j hj => h2 j (hne j hj)) (fun j hj => h3 j (hne j hj)) (by rw [h4])⟩
  · rw [i2, i6]; exact P.inv.ident
  · rw [i4, i6]; exact P.inv.part
  · rw [i2, i4]; exact P.inv.flags

theorem Projects.step {d : Dims} {dmax : K} {X X' : UWorld K S} {g gw : Ghost} {w : World K} {op : UOp K S} {ok : Prop}
    (P : Projects d dmax X g w gw) (h : UOk d X g op) (e : Ends (X.step dmax op) ok X') :
    ∃ w' gw', Projects d dmax X' (unext g X ok op) w' gw' ∧ Follows d dmax X op X' ok w gw w' gw' := by
  have hne : ∀ {i j : Nat} {Q : Prop}, j ≠ i → ((Q ∨ ok ∧ j = i) ↔ Q) := by
    intro i j Q hj
    exact ⟨fun h => h.elim id fun h => absurd h.2 hj, Or.inl⟩
  cases op with
  | callConstr i f =>
    simp only [UWorld.step] at e
    cases hc : X.consClass i with
    | none =>
      rw [hc] at e
      rcases e with e | ⟨_, e⟩ <;> cases e.1
    | some C =>
      rw [hc] at e
      exact ⟨w, gw, P.onConstr hc e _ (fun _ _ => Iff.rfl) rfl rfl rfl, Or.inl ⟨trivial, rfl, rfl⟩⟩
  | callCost i f =>
    simp only [UWorld.step] at e
    cases hc : X.costClass i with
    | none =>
      rw [hc] at e
      rcases e with e | ⟨_, e⟩ <;> cases e.1
    | some C =>
      rw [hc] at e
      exact ⟨w, gw, P.onCost hc e _ rfl (fun _ _ => Iff.rfl) (fun _ _ => Iff.rfl) rfl, Or.inl ⟨trivial, rfl, rfl⟩⟩
  | api op =>
    obtain ⟨h, h2⟩ := h
    show ∃ w' gw', Projects d dmax X' (g.next X.world ok op) w' gw' ∧ _
    cases op
    case spanConstr i junk =>
      simp only [UWorld.step] at e
      cases hc : X.consClass i with
      | none => rw [hc] at e; exact P.lib hc h h2 (by simp only [UWorld.step, hc]) e
      | some C => rw [hc] at e; exact ⟨w, gw, P.onConstr hc e _ (fun _ _ => Iff.rfl) rfl rfl rfl, Or.inl ⟨(by simp only [UserOnly, hc]; exact Option.some_ne_none _), rfl, rfl⟩⟩
    case initConstr i p junk =>
      simp only [UWorld.step] at e
      cases hc : X.consClass i with
      | none => rw [hc] at e; exact P.lib hc h h2 (by simp only [UWorld.step, hc]) e
      | some C => rw [hc] at e; exact ⟨w, gw, P.onConstr hc e _ (fun j hj => hne hj) rfl rfl rfl, Or.inl ⟨(by simp only [UserOnly, hc]; exact Option.some_ne_none _), rfl, rfl⟩⟩
    case updateConstr i p =>
      simp only [UWorld.step] at e
      cases hc : X.consClass i with
      | none => rw [hc] at e; exact P.lib hc h h2 (by simp only [UWorld.step, hc]) e
      | some C => rw [hc] at e; exact ⟨w, gw, P.onConstr hc e _ (fun j hj => Iff.rfl) rfl rfl rfl, Or.inl ⟨(by simp only [UserOnly, hc]; exact Option.some_ne_none _), rfl, rfl⟩⟩
    case addConstraint i junk =>
      simp only [UWorld.step] at e
      cases hc : X.consClass i with
      | none => rw [hc] at e; exact P.lib hc h h2 (by simp only [UWorld.step, hc]) e
      | some C =>
        rw [hc] at e
        refine ⟨w, gw, ?_, Or.inl ⟨(by simp only [UserOnly, hc]; exact Option.some_ne_none _), rfl, rfl⟩⟩
        unfold UWorld.addConstraint at e
        cases hp : X.world.ctl.ps with
        | none => rw [hp] at e; rcases e with e | ⟨_, e⟩ <;> cases e.1
        | some p =>
          rw [hp] at e
          simp only at e
          cases hr : X.onConstr i (C.init (X.world.pss p)) with
          | ub => rw [hr] at e; rcases e with e | ⟨_, e⟩ <;> cases e.1
          | thrown x X1 =>
            rw [hr] at e
            rcases e with e | ⟨_, e⟩
            · cases e.1
            · cases e.1
              exact P.onConstr hc (Or.inr ⟨x, hr, rfl⟩ : Ends _ False _) _ (fun j hj => hne hj) rfl rfl rfl
          | ok X1 =>
            rw [hr] at e
            simp only at e
            have P1 : Projects d dmax X1 (g.next X.world ok (.addConstraint i junk)) w gw :=
              P.onConstr hc (Or.inl ⟨hr, rfl⟩ : Ends _ True _) _ (fun j hj => hne hj) rfl rfl rfl
            obtain ⟨-, k2, k3, -⟩ := P.inv.onConstr (Or.inl hr)
            have hc1 : X1.consClass i = some C := by rw [k2]; exact hc
            have reg : C.flag = .equality ∨ C.flag = .inequality → ∀ l,
                X1.world.ctl.addConstraintByType i (X1.world.cons i) = some l →
                Projects d dmax { X1 with world := { X1.world with ctl := l } } (g.next X.world ok (.addConstraint i junk)) w gw := by
              intro hfl l hl
              have I1 := P1.inv
              refine ⟨P.hist, ?_, ⟨I1.ident, I1.part.add hl, ?_⟩,
                P1.ghost.unseen rfl rfl (fun _ _ => Iff.rfl) (fun _ _ => Iff.rfl) (fun _ _ => Iff.rfl) Iff.rfl⟩
              · exact P1.without.unseen rfl rfl rfl (fun _ _ => rfl) (fun _ _ => rfl) rfl rfl
                  (P1.without.ctl.addUser (by simp [hc1]) hl)
              · intro j hj D hD
                have hj' : j ∈ X1.world.ctl.spConstr ++ [i] := by
                  unfold LMPC.addConstraintByType at hl
                  split at hl
                  · simp only [Option.bind_eq_bind, Option.bind_eq_some_iff, Option.pure_def, Option.some.injEq] at hl
                    obtain ⟨_, _, rfl⟩ := hl
                    exact hj
                  · simp only [Option.bind_eq_bind, Option.bind_eq_some_iff, Option.pure_def, Option.some.injEq] at hl
                    obtain ⟨_, _, rfl⟩ := hl
                    exact hj
                  · cases hl; exact hj
                rcases List.mem_append.1 hj' with hj | hj
                · exact I1.flags j hj D hD
                · rw [List.mem_singleton.1 hj] at hD
                  have hD' : X1.consClass i = some D := hD
                  rw [hc1] at hD'; cases hD'
                  exact hfl
            cases hf : C.flag <;> rw [hf] at e <;> simp only at e
            · rcases e with e | ⟨_, e⟩
              · cases e.1; exact P1
              · cases e.1
            · cases ha : X1.world.ctl.addConstraintByType i (X1.world.cons i) with
              | none => rw [ha] at e; rcases e with e | ⟨_, e⟩ <;> cases e.1
              | some l =>
                rw [ha] at e
                rcases e with e | ⟨_, e⟩
                · cases e.1; exact reg (Or.inl hf) l ha
                · cases e.1
            · cases ha : X1.world.ctl.addConstraintByType i (X1.world.cons i) with
              | none => rw [ha] at e; rcases e with e | ⟨_, e⟩ <;> cases e.1
              | some l =>
                rw [ha] at e
                rcases e with e | ⟨_, e⟩
                · cases e.1; exact reg (Or.inr hf) l ha
                · cases e.1
            · rcases e with e | ⟨_, e⟩ <;> cases e.1
    case spanCost i junk =>
      simp only [UWorld.step] at e
      cases hc : X.costClass i with
      | none => rw [hc] at e; exact P.lib hc h h2 (by simp only [UWorld.step, hc]) e
      | some C => rw [hc] at e; exact ⟨w, gw, P.onCost hc e _ rfl (fun _ _ => Iff.rfl) (fun _ _ => Iff.rfl) rfl, Or.inl ⟨(by simp only [UserOnly, hc]; exact Option.some_ne_none _), rfl, rfl⟩⟩
    case initCost i p junk =>
      simp only [UWorld.step] at e
      cases hc : X.costClass i with
      | none => rw [hc] at e; exact P.lib hc h h2 (by simp only [UWorld.step, hc]) e
      | some C => rw [hc] at e; exact ⟨w, gw, P.onCost hc e _ rfl (fun _ hj => hne hj) (fun _ hj => hne hj) rfl, Or.inl ⟨(by simp only [UserOnly, hc]; exact Option.some_ne_none _), rfl, rfl⟩⟩
    case updateCost i p =>
      simp only [UWorld.step] at e
      cases hc : X.costClass i with
      | none => rw [hc] at e; exact P.lib hc h h2 (by simp only [UWorld.step, hc]) e
      | some C => rw [hc] at e; exact ⟨w, gw, P.onCost hc e _ rfl (fun _ _ => Iff.rfl) (fun j hj => ⟨And.left, fun h => ⟨h, hj⟩⟩) rfl, Or.inl ⟨(by simp only [UserOnly, hc]; exact Option.some_ne_none _), rfl, rfl⟩⟩
    case addCost i junk =>
      simp only [UWorld.step] at e
      cases hc : X.costClass i with
      | none => rw [hc] at e; exact P.lib hc h h2 (by simp only [UWorld.step, hc]) e
      | some C =>
        rw [hc] at e
        refine ⟨w, gw, ?_, Or.inl ⟨(by simp only [UserOnly, hc]; exact Option.some_ne_none _), rfl, rfl⟩⟩
        unfold UWorld.addCost at e
        cases hp : X.world.ctl.ps with
        | none => rw [hp] at e; rcases e with e | ⟨_, e⟩ <;> cases e.1
        | some p =>
          rw [hp] at e
          simp only at e
          cases hr : X.onCost i (C.init (X.world.pss p)) with
          | ub => rw [hr] at e; rcases e with e | ⟨_, e⟩ <;> cases e.1
          | thrown x X1 =>
            rw [hr] at e
            rcases e with e | ⟨_, e⟩
            · cases e.1
            · cases e.1
              exact P.onCost hc (Or.inr ⟨x, hr, rfl⟩ : Ends _ False _) _ rfl (fun j hj => hne hj) (fun j hj => hne hj) rfl
          | ok X1 =>
            rw [hr] at e
            simp only at e
            have P1 : Projects d dmax X1 (g.next X.world ok (.addCost i junk)) w gw :=
              P.onCost hc (Or.inl ⟨hr, rfl⟩ : Ends _ True _) _ rfl (fun j hj => hne hj) (fun j hj => hne hj) rfl
            obtain ⟨k2, k3, -⟩ := onCost_frame (Or.inl hr)
            have hc1 : X1.costClass i = some C := by rw [k3]; exact hc
            have I1 := P1.inv
            rcases e with e | ⟨_, e⟩
            · cases e.1
              have Cc := P1.without.ctl
              refine ⟨P.hist, ?_, ⟨I1.ident, I1.part.of_lists rfl rfl rfl rfl, I1.flags⟩,
                P1.ghost.unseen rfl rfl (fun _ _ => Iff.rfl) (fun _ _ => Iff.rfl) (fun _ _ => Iff.rfl) Iff.rfl⟩
              refine P1.without.unseen rfl rfl rfl (fun _ _ => rfl) (fun _ _ => rfl) rfl rfl ?_
              refine ⟨Cc.isInit, Cc.ps, Cc.sol, Cc.spConstr, Cc.spEqConstr, Cc.spIneqConstr, Cc.spBoundConstr,
                ?_, Cc.nrEq, Cc.nrIneq, Cc.Qr, Cc.Qc, Cc.cr, Cc.lb, Cc.ub, Cc.trajectory, Cc.control, Cc.R, Cc.r, Cc.x0lb, Cc.x0ub⟩
              show w.ctl.spCost = (X1.world.ctl.spCost ++ [i]).filter _
              rw [Cc.spCost, List.filter_append, List.filter_cons_of_neg (by simp [hc1])]
              simp
            · cases e.1
    case weights i v =>
      cases hc : X.costClass i with
      | none => exact P.lib (op := .weights i v) hc h h2 rfl e
      | some C =>
        refine ⟨w, gw, ?_, Or.inl ⟨(by simp only [UserOnly, hc]; exact Option.some_ne_none _), rfl, rfl⟩⟩
        obtain ⟨i1, i2, i3, i4⟩ := P.inv.lib (dmax := dmax) (op := .weights i v) (X' := X') (fun _ _ e => (by cases e)) e.or
        have key : ∃ c, X'.world = { X.world with costs := World.upd X.world.costs i c } := by
          rcases i4 with i4 | ⟨_, i4⟩ <;> simp only [World.step, Res.map_ok, Res.map_thrown] at i4 <;>
            (obtain ⟨c, _, e⟩ := i4; exact ⟨c, e.symm⟩)
        obtain ⟨c, hw⟩ := key
        refine ⟨P.hist, P.without.unseen i2 i3 (by rw [hw]) (fun _ _ => by rw [hw]) (fun j hj => ?_) (by rw [hw]) (by rw [hw])
          (by rw [hw]; exact P.without.ctl), i1, P.ghost.unseen i2 i3 (fun _ _ => Iff.rfl) (fun _ _ => Iff.rfl) (fun _ _ => Iff.rfl) Iff.rfl⟩
        rw [hw]
        exact World.upd_ne _ _ (by rintro rfl; rw [hc] at hj; cases hj)
    case weight i v =>
      cases hc : X.costClass i with
      | none => exact P.lib (op := .weight i v) hc h h2 rfl e
      | some C =>
        refine ⟨w, gw, ?_, Or.inl ⟨(by simp only [UserOnly, hc]; exact Option.some_ne_none _), rfl, rfl⟩⟩
        obtain ⟨i1, i2, i3, i4⟩ := P.inv.lib (dmax := dmax) (op := .weight i v) (X' := X') (fun _ _ e => (by cases e)) e.or
        have key : ∃ c, X'.world = { X.world with costs := World.upd X.world.costs i c } := by
          rcases i4 with i4 | ⟨_, i4⟩
          · simp only [World.step] at i4
            injection i4 with i4
            exact ⟨_, i4.symm⟩
          · cases i4
        obtain ⟨c, hw⟩ := key
        refine ⟨P.hist, P.without.unseen i2 i3 (by rw [hw]) (fun _ _ => by rw [hw]) (fun j hj => ?_) (by rw [hw]) (by rw [hw])
          (by rw [hw]; exact P.without.ctl), i1, P.ghost.unseen i2 i3 (fun _ _ => Iff.rfl) (fun _ _ => Iff.rfl) (fun _ _ => Iff.rfl) Iff.rfl⟩
        rw [hw]
        exact World.upd_ne _ _ (by rintro rfl; rw [hc] at hj; cases hj)
    case solve env =>
      simp only [UWorld.step] at e
      rcases e with ⟨e, rfl⟩ | ⟨_, e, _⟩
      · rw [Res.ofOption_ok] at e
        obtain ⟨⟨X1, b, q⟩, hs, rfl⟩ := Option.map_eq_some_iff.1 e
        obtain ⟨w', q', hs', W', I', hc, -⟩ := solve_sim P.without P.inv P.hist.good h.2 hs
        obtain ⟨i1, i2⟩ : X1.consClass = X.consClass ∧ X1.costClass = X.costClass := by
          obtain ⟨X2, w2, hu, _, rfl⟩ := solve_inv hs
          obtain ⟨_, _, _, _, _, _, _, _, _, _, _, _, _, _, rfl, _⟩ := updateSystem_inv hu
          exact ⟨rfl, rfl⟩
        have o1 : OpOk d w gw (.solve { env with answer := fun _ => env.answer q }) :=
          ⟨by rw [P.without.ctl.ps]; exact h.1, hc⟩
        have e' : w.step dmax (.solve { env with answer := fun _ => env.answer q }) = .ok w' := by
          simp only [World.step, hs']; rfl
        exact ⟨w', gw.next w True (.solve { env with answer := fun _ => env.answer q }), ⟨P.hist.ok o1 trivial e', W', I',
          ghost_lib (op := .solve env) P.without P.inv P.ghost i1 i2⟩,
          Or.inr ⟨_, _, rfl, id, o1, trivial, rfl, ⟨X1, b, q, hs, rfl⟩, Or.inl ⟨rfl, (by simp only [UWorld.step, hs]; rfl), e'⟩⟩⟩
      · exact absurd e Res.ofOption_ne_thrown
    all_goals exact P.lib (by trivial) h h2 rfl e

/-- Every history of a program with user-defined objects runs beside a history of the program without them. -/
theorem projects {d : Dims} {dmax : K} {X : UWorld K S} {g : Ghost} (h : UHist d dmax X g) :
    ∃ w gw, Projects d dmax X g w gw ∧ Beside d dmax X g w gw := by
  induction h with
  | start hs =>
    obtain ⟨w, hw, W⟩ := start_without hs
    exact ⟨w, Ghost.start, ⟨Hist.start hw, W, Inv.start hs, fun _ _ => Iff.rfl, fun _ _ => Iff.rfl, fun _ _ => Iff.rfl, Iff.rfl⟩,
      Beside.start hs hw W⟩
  | ok _ ho e ih =>
    obtain ⟨w, gw, P, B⟩ := ih
    obtain ⟨w', gw', P', F⟩ := P.step ho (Or.inl ⟨e, rfl⟩)
    refine ⟨w', gw', P', ?_⟩
    rcases F with ⟨u, rfl, rfl⟩ | ⟨o, o', rfl, u, h1, h2, rfl, h3, ⟨_, h4, h5⟩ | ⟨hf, _⟩⟩
    · exact B.skip ho u e
    · exact B.ok ho u e h3 h1 h2 h5
    · exact absurd hf.symm (by simp)
  | thrown _ ho e ih =>
    obtain ⟨w, gw, P, B⟩ := ih
    obtain ⟨w', gw', P', F⟩ := P.step ho (Or.inr ⟨_, e, rfl⟩)
    refine ⟨w', gw', P', ?_⟩
    rcases F with ⟨u, rfl, rfl⟩ | ⟨o, o', rfl, u, h1, h2, rfl, h3, ⟨hf, _⟩ | ⟨_, x, h4, h5, rfl⟩⟩
    · exact B.skipThrown ho u e
    · exact absurd hf (by simp)
    · rw [e] at h4
      cases h4
      exact B.thrown ho u e h1 h2 h5

end UWorld
end Copra
