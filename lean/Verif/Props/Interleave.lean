import Verif.Proofs.Interleave
import Verif.SpecSched
import Verif.Props.Multi

/-! # Independent clients do not interfere, whatever the schedule: C85 -/

namespace Copra
open Spec

set_option linter.unusedSectionVars false
set_option linter.unusedSimpArgs false

variable {K : Type} [Field K] [LinearOrder K] [IsStrictOrderedRing K] {n : Nat} {T : Type} {dmax : K}

namespace MWorld
variable {own : Owners n T} {w w' v : MWorld K n} {k : Fin n} {op : Op K} {o : Outcome K} {t : T}

/-- `call`, for the program as one controller sees it. -/
def callView (dmax : K) (u : World K) : Op K → Option (World K × Outcome K)
  | .solve env => (u.solve env).map fun r => (r.1, .solved r.2.1 r.2.2)
  | op =>
    match u.step dmax op with
    | .ok w' => some (w', .returned)
    | .thrown e w' => some (w', .threw e)
    | .ub => none

theorem call_eq (hn : World.NotRefs op) :
    call dmax w k op = (callView dmax (w.view k) op).map fun r => (w.put k r.1, r.2) := by
  cases op <;> try exact hn.elim
  case solve env =>
    unfold call callView solve
    simp only [Option.map_map]
    rfl
  all_goals
    unfold call callView
    simp only [step_notRefs hn]
    generalize World.step dmax (w.view k) _ = r
    cases r <;> rfl

theorem callView_solo {P C Q : Nat → Prop} {u : World K} (h : World.Inside P C Q u.ctl) (ho : Only P C Q op) :
    callView dmax (World.solo P C Q u) op = (callView dmax u op).map fun r => (World.solo P C Q r.1, r.2) := by
  cases op
  case solve env =>
    unfold callView
    simp only [World.solo_solve h, Option.map_map]
    rfl
  all_goals
    unfold callView
    simp only [World.solo_step h ho]
    generalize World.step dmax u _ = r
    cases r <;> rfl

theorem callView_outside {P C Q : Nat → Prop} {u u' : World K} (h : World.Inside P C Q u.ctl) (ho : Only P C Q op)
    (hc : callView dmax u op = some (u', o)) : World.SameOutside P C Q u u' ∧ World.Inside P C Q u'.ctl := by
  cases op
  case solve env =>
    unfold callView at hc
    simp only [Option.map_eq_some_iff, Prod.mk.injEq] at hc
    obtain ⟨⟨a, b, q⟩, hc, rfl, -⟩ := hc
    exact World.solve_outside h hc
  all_goals
    unfold callView at hc
    simp only at hc
    split at hc <;> simp only [Option.some.injEq, Prod.mk.injEq, reduceCtorEq] at hc
    · rename_i e; rw [hc.1] at e; exact World.step_outside h ho (Or.inl e)
    · rename_i e; rw [hc.1] at e; exact World.step_outside h ho (Or.inr ⟨_, e⟩)

/-- Every controller holds only objects of its own client. -/
def Apart (own : Owners n T) (w : MWorld K n) : Prop :=
  ∀ k, World.Inside (fun p => own.ps p = own.ctl k) (fun i => own.cons i = own.ctl k) (fun i => own.costs i = own.ctl k)
    (w.ctls k)

theorem apart_init (h : Init w) : Apart own w := by
  intro k
  obtain ⟨b, s, e⟩ := h.2.2.2 k
  rw [e]
  exact World.inside_construct b s

theorem SameFor.refl (own : Owners n T) (t : T) (w : MWorld K n) : own.SameFor t w w :=
  ⟨fun _ _ => rfl, fun _ _ => rfl, fun _ _ => rfl, fun _ _ => rfl, fun _ _ => rfl, fun _ _ => rfl⟩

theorem SameFor.trans {a b c : MWorld K n} (h : own.SameFor t a b) (g : own.SameFor t b c) : own.SameFor t a c :=
  ⟨fun k e => (h.ctls k e).trans (g.ctls k e), fun k e => (h.pss k e).trans (g.pss k e),
    fun k e => (h.cons k e).trans (g.cons k e), fun k e => (h.costs k e).trans (g.costs k e),
    fun k e => (h.extCons k e).trans (g.extCons k e), fun k e => (h.extCosts k e).trans (g.extCosts k e)⟩

theorem SameFor.symm {a b : MWorld K n} (h : own.SameFor t a b) : own.SameFor t b a :=
  ⟨fun k e => (h.ctls k e).symm, fun k e => (h.pss k e).symm, fun k e => (h.cons k e).symm, fun k e => (h.costs k e).symm,
    fun k e => (h.extCons k e).symm, fun k e => (h.extCosts k e).symm⟩

theorem solo_view (h : own.SameFor (own.ctl k) w v) (hw : Apart own w) (hv : Apart own v) :
    World.solo (fun p => own.ps p = own.ctl k) (fun i => own.cons i = own.ctl k) (fun i => own.costs i = own.ctl k) (w.view k) =
    World.solo (fun p => own.ps p = own.ctl k) (fun i => own.cons i = own.ctl k) (fun i => own.costs i = own.ctl k) (v.view k) := by
  have hide : ∀ {α : Type} {R : Nat → Prop} {a : α} {f g : Nat → α}, (∀ i, R i → f i = g i) →
      World.hide R a f = World.hide R a g := by
    intro α R a f g e
    funext i
    unfold World.hide
    split
    · exact e i ‹_›
    · rfl
  have none : ∀ {u : MWorld K n}, Apart own u → ∀ i j, own.cons i = own.ctl k → own.ctl j ≠ own.ctl k →
      (u.ctls j).refsC i = 0 := by
    intro u hu i j hi hj
    have z : ∀ {L : List Nat}, (∀ i ∈ L, own.cons i = own.ctl j) → L.count i = 0 :=
      fun hL => List.count_eq_zero.2 fun hm => hj ((hL i hm).symm.trans hi)
    unfold LMPC.refsC
    rw [z (hu j).cons, z (hu j).eq, z (hu j).ineq, z (hu j).bound]
  have noneK : ∀ {u : MWorld K n}, Apart own u → ∀ i j, own.costs i = own.ctl k → own.ctl j ≠ own.ctl k →
      (u.ctls j).refsK i = 0 := by
    intro u hu i j hi hj
    exact List.count_eq_zero.2 fun hm => hj (((hu j).costs i hm).symm.trans hi)
  simp only [World.solo, World.mask, view, World.mk.injEq]
  refine ⟨?_, ?_, ?_, ?_, ?_, ?_⟩
  · exact hide h.pss
  · exact hide h.cons
  · exact hide h.costs
  · refine hide fun i hi => ?_
    rw [h.extCons i hi]
    congr 1
    refine Finset.sum_congr rfl fun j _ => ?_
    split
    · rfl
    · by_cases e : own.ctl j = own.ctl k
      · rw [h.ctls j e]
      · rw [none hw i j hi e, none hv i j hi e]
  · refine hide fun i hi => ?_
    rw [h.extCosts i hi]
    congr 1
    refine Finset.sum_congr rfl fun j _ => ?_
    split
    · rfl
    · by_cases e : own.ctl j = own.ctl k
      · rw [h.ctls j e]
      · rw [noneK hw i j hi e, noneK hv i j hi e]
  · exact h.ctls k rfl

/-- A call of a client leaves everything alone that concerns other clients only. -/
theorem call_apart (hw : Apart own w) (ho : own.Owns (own.ctl k) (k, op)) (hc : call dmax w k op = some (w', o)) :
    Apart own w' ∧ ∀ t, t ≠ own.ctl k → own.SameFor t w w' := by
  by_cases hn : World.NotRefs op
  · rw [call_eq hn] at hc
    simp only [Option.map_eq_some_iff, Prod.mk.injEq] at hc
    obtain ⟨⟨a, o'⟩, hc, rfl, rfl⟩ := hc
    obtain ⟨F, I⟩ := callView_outside (hw k) ho.2 hc
    refine ⟨fun j => ?_, fun t ht => ⟨?_, ?_, ?_, ?_, fun _ _ => rfl, fun _ _ => rfl⟩⟩
    · by_cases e : j = k
      · subst e; rw [put_ctl]; exact I
      · rw [put_ctl_ne w e]; exact hw j
    · intro j hj
      rw [put_ctl_ne w (fun e => ht (by rw [← hj, e]))]
    · intro p hp; exact (F.pss p (fun e => ht (hp.symm.trans e))).symm
    · intro p hp; exact (F.cons p (fun e => ht (hp.symm.trans e))).symm
    · intro p hp; exact (F.costs p (fun e => ht (hp.symm.trans e))).symm
  · cases op <;> try exact absurd trivial hn
    case refsConstr i m =>
      simp only [call, step, Option.some.injEq, Prod.mk.injEq] at hc
      obtain ⟨rfl, rfl⟩ := hc
      refine ⟨hw, fun t ht => ⟨fun _ _ => rfl, fun _ _ => rfl, fun _ _ => rfl, fun _ _ => rfl, ?_, fun _ _ => rfl⟩⟩
      intro j hj
      have hi : own.cons i = own.ctl k := ho.2
      exact (World.upd_ne w.extCons m (fun e => ht (by rw [← hj, e, hi]))).symm
    case refsCost i m =>
      simp only [call, step, Option.some.injEq, Prod.mk.injEq] at hc
      obtain ⟨rfl, rfl⟩ := hc
      refine ⟨hw, fun t ht => ⟨fun _ _ => rfl, fun _ _ => rfl, fun _ _ => rfl, fun _ _ => rfl, fun _ _ => rfl, ?_⟩⟩
      intro j hj
      have hi : own.costs i = own.ctl k := ho.2
      exact (World.upd_ne w.extCosts m (fun e => ht (by rw [← hj, e, hi]))).symm

/-- A call of a client depends only on what concerns it. -/
theorem call_same (h : own.SameFor (own.ctl k) w v) (hw : Apart own w) (hv : Apart own v)
    (ho : own.Owns (own.ctl k) (k, op)) (hc : call dmax w k op = some (w', o)) :
    ∃ v', call dmax v k op = some (v', o) ∧ own.SameFor (own.ctl k) w' v' := by
  by_cases hn : World.NotRefs op
  · rw [call_eq hn] at hc ⊢
    simp only [Option.map_eq_some_iff, Prod.mk.injEq] at hc
    obtain ⟨⟨a, o'⟩, hc, rfl, rfl⟩ := hc
    have e := callView_solo (dmax := dmax) (u := w.view k) (hw k) ho.2
    have e' := callView_solo (dmax := dmax) (u := v.view k) (hv k) ho.2
    rw [solo_view h hw hv] at e
    have ee := e.symm.trans e'
    rw [show callView dmax (w.view k) op = some (a, o') from hc, Option.map_some] at ee
    obtain ⟨⟨b, o2⟩, hb, hx⟩ := Option.map_eq_some_iff.1 ee.symm
    simp only [Prod.mk.injEq] at hx
    obtain ⟨hx, rfl⟩ := hx
    refine ⟨v.put k b, by rw [hb]; rfl, ?_⟩
    have inn : ∀ {α : Type} {R : Nat → Prop} {a : α} {f g : Nat → α}, World.hide R a f = World.hide R a g →
        ∀ i, R i → f i = g i := by
      intro α R a f g e i hi
      have := congrFun e i
      rwa [World.hide_in hi, World.hide_in hi] at this
    refine ⟨?_, ?_, ?_, ?_, h.extCons, h.extCosts⟩
    · intro j hj
      by_cases ej : j = k
      · subst ej
        rw [put_ctl, put_ctl]
        exact (congrArg World.ctl hx).symm
      · rw [put_ctl_ne _ ej, put_ctl_ne _ ej]
        exact h.ctls j hj
    · exact inn (congrArg World.pss hx).symm
    · exact inn (congrArg World.cons hx).symm
    · exact inn (congrArg World.costs hx).symm
  · cases op <;> try exact absurd trivial hn
    case refsConstr i m =>
      simp only [call, step, Option.some.injEq, Prod.mk.injEq] at hc
      obtain ⟨rfl, rfl⟩ := hc
      refine ⟨_, rfl, h.ctls, h.pss, h.cons, h.costs, ?_, h.extCosts⟩
      intro j hj
      by_cases e : j = i
      · subst e; exact (World.upd_same _ _ _).trans (World.upd_same _ _ _).symm
      · exact (World.upd_ne _ _ e).trans ((h.extCons j hj).trans (World.upd_ne _ _ e).symm)
    case refsCost i m =>
      simp only [call, step, Option.some.injEq, Prod.mk.injEq] at hc
      obtain ⟨rfl, rfl⟩ := hc
      refine ⟨_, rfl, h.ctls, h.pss, h.cons, h.costs, h.extCons, ?_⟩
      intro j hj
      by_cases e : j = i
      · subst e; exact (World.upd_same _ _ _).trans (World.upd_same _ _ _).symm
      · exact (World.upd_ne _ _ e).trans ((h.extCosts j hj).trans (World.upd_ne _ _ e).symm)

variable [DecidableEq T]

theorem run_part : ∀ (L : List (Fin n × Op K)) {w v w1 : MWorld K n} {log : List (Fin n × Outcome K)},
    own.SameFor t w v → Apart own w → Apart own v → own.Separate L → runAll dmax w L = some (w1, log) →
    ∃ v1, runAll dmax v (own.part t L) = some (v1, own.part t log) ∧ own.SameFor t w1 v1 ∧ Apart own w1 ∧ Apart own v1 := by
  intro L
  induction L with
  | nil =>
    intro w v w1 log h hw hv _ hr
    simp only [runAll, Option.some.injEq, Prod.mk.injEq] at hr
    obtain ⟨rfl, rfl⟩ := hr
    exact ⟨v, rfl, h, hw, hv⟩
  | cons c L ih =>
    intro w v w1 log h hw hv hs hr
    obtain ⟨k, op⟩ := c
    have hs' : own.Separate L := fun c hc => hs c (List.mem_cons_of_mem _ hc)
    have ho := hs (k, op) List.mem_cons_self
    simp only [runAll, Option.bind_eq_some_iff, Option.map_eq_some_iff, Prod.mk.injEq] at hr
    obtain ⟨⟨w', o⟩, hc, ⟨w2, log'⟩, hr, rfl, rfl⟩ := hr
    obtain ⟨A, F⟩ := call_apart hw ho hc
    by_cases e : own.ctl k = t
    · subst e
      obtain ⟨v', hv', S⟩ := call_same h hw hv ho hc
      obtain ⟨v1, r1, r2⟩ := ih S A (call_apart hv ho hv').1 hs' hr
      refine ⟨v1, ?_, r2⟩
      have p1 : own.part (own.ctl k) ((k, op) :: L) = (k, op) :: own.part (own.ctl k) L :=
        List.filter_cons_of_pos (decide_eq_true rfl)
      have p2 : own.part (own.ctl k) ((k, o) :: log') = (k, o) :: own.part (own.ctl k) log' :=
        List.filter_cons_of_pos (decide_eq_true rfl)
      rw [p1, p2]
      simp only [runAll, hv', Option.bind_some, r1, Option.map_some]
    · obtain ⟨v1, r1, r2⟩ := ih (SameFor.trans (SameFor.symm (F t (Ne.symm e))) h) A hv hs' hr
      refine ⟨v1, ?_, r2⟩
      have p1 : own.part t ((k, op) :: L) = own.part t L := List.filter_cons_of_neg (by simpa using e)
      have p2 : own.part t ((k, o) :: log') = own.part t log' := List.filter_cons_of_neg (by simpa using e)
      rw [p1, p2]
      exact r1

theorem run_defined : ∀ (L : List (Fin n × Op K)) {w : MWorld K n}, Apart own w → own.Separate L →
    (∀ t, ∃ v, own.SameFor t w v ∧ Apart own v ∧ runAll dmax v (own.part t L) ≠ none) → runAll dmax w L ≠ none := by
  intro L
  induction L with
  | nil => intro w _ _ _ h; cases h
  | cons c L ih =>
    intro w hw hs H
    obtain ⟨k, op⟩ := c
    have hs' : own.Separate L := fun c hc => hs c (List.mem_cons_of_mem _ hc)
    have ho := hs (k, op) List.mem_cons_self
    obtain ⟨v, S, hv, hr⟩ := H (own.ctl k)
    have p1 : own.part (own.ctl k) ((k, op) :: L) = (k, op) :: own.part (own.ctl k) L :=
      List.filter_cons_of_pos (decide_eq_true rfl)
    rw [p1] at hr
    simp only [runAll] at hr
    cases hc : call dmax v k op with
    | none => rw [hc] at hr; exact absurd rfl hr
    | some r =>
      obtain ⟨v', o⟩ := r
      rw [hc, Option.bind_some] at hr
      have hr : runAll dmax v' (own.part (own.ctl k) L) ≠ none := fun e => hr (by simp only [e, Option.map_none])
      obtain ⟨w', hc', S'⟩ := call_same (SameFor.symm S) hv hw ho hc
      obtain ⟨A, F⟩ := call_apart hw ho hc'
      have := ih A hs' (fun t => by
        by_cases e : t = own.ctl k
        · subst e
          exact ⟨v', SameFor.symm S', (call_apart hv ho hc).1, hr⟩
        · obtain ⟨u, Su, hu, hru⟩ := H t
          have p2 : own.part t ((k, op) :: L) = own.part t L :=
            List.filter_cons_of_neg (by simpa using fun h : own.ctl k = t => e h.symm)
          rw [p2] at hru
          exact ⟨u, SameFor.trans (SameFor.symm (F t e)) Su, hu, hru⟩)
      simp only [runAll, hc', Option.bind_some]
      intro e
      exact this (Option.map_eq_none_iff.1 e)

/-- **C85** (alone): clients that share no controller and no object do not notice each other.  In any schedule of their
calls, a client observes of each of its calls (the exception thrown, `solve`'s `bool` and the problem handed over) and
finds in its controllers and objects exactly what it would if it had run alone. -/
theorem c85_alone {w w1 : MWorld K n} {L : List (Fin n × Op K)} {log : List (Fin n × Outcome K)} (h : Init w)
    (hs : own.Separate L) (hr : runAll dmax w L = some (w1, log)) (t : T) :
    ∃ v1, runAll dmax w (own.part t L) = some (v1, own.part t log) ∧ own.SameFor t w1 v1 := by
  obtain ⟨v1, r, S, -⟩ := run_part (t := t) L (SameFor.refl own t w) (apart_init h) (apart_init h) hs hr
  exact ⟨v1, r, S⟩

/-- **C85** (safety): if no client alone runs into undefined behaviour, no schedule of their calls does. -/
theorem c85_defined {w : MWorld K n} {L : List (Fin n × Op K)} (h : Init w) (hs : own.Separate L)
    (hr : ∀ t, runAll dmax w (own.part t L) ≠ none) : runAll dmax w L ≠ none :=
  run_defined L (apart_init h) hs fun t => ⟨w, SameFor.refl own t w, apart_init h, hr t⟩

/-- **C85** (schedules): two schedules in which every client makes the same calls in the same order are equivalent: both
are free of undefined behaviour or none is, they end in the same program state and every client observes the same. -/
theorem c85_schedules {w w1 : MWorld K n} {L L' : List (Fin n × Op K)} {log : List (Fin n × Outcome K)} (h : Init w)
    (hs : own.Separate L) (hs' : own.Separate L') (hp : ∀ t, own.part t L = own.part t L')
    (hr : runAll dmax w L = some (w1, log)) :
    ∃ log', runAll dmax w L' = some (w1, log') ∧ ∀ t, own.part t log' = own.part t log := by
  have D : runAll dmax w L' ≠ none := c85_defined h hs' fun t => by
    obtain ⟨v1, r, -⟩ := c85_alone h hs hr t
    rw [← hp t, r]
    exact fun e => by cases e
  obtain ⟨⟨w2, log'⟩, hr'⟩ := Option.ne_none_iff_exists'.1 D
  have key : ∀ t, own.part t log' = own.part t log ∧ own.SameFor t w2 w1 := by
    intro t
    obtain ⟨v1, r, S⟩ := c85_alone h hs hr t
    obtain ⟨v2, r', S'⟩ := c85_alone h hs' hr' t
    rw [← hp t, r, Option.some.injEq, Prod.mk.injEq] at r'
    obtain ⟨rfl, e⟩ := r'
    exact ⟨e.symm, SameFor.trans S' (SameFor.symm S)⟩
  have e : w2 = w1 := by
    have a1 : w2.pss = w1.pss := funext fun p => (key (own.ps p)).2.pss p rfl
    have a2 : w2.cons = w1.cons := funext fun p => (key (own.cons p)).2.cons p rfl
    have a3 : w2.costs = w1.costs := funext fun p => (key (own.costs p)).2.costs p rfl
    have a4 : w2.extCons = w1.extCons := funext fun p => (key (own.cons p)).2.extCons p rfl
    have a5 : w2.extCosts = w1.extCosts := funext fun p => (key (own.costs p)).2.extCosts p rfl
    have a6 : w2.ctls = w1.ctls := funext fun p => (key (own.ctl p)).2.ctls p rfl
    cases w2; cases w1
    simp only at a1 a2 a3 a4 a5 a6
    subst a1; subst a2; subst a3; subst a4; subst a5; subst a6
    rfl
  exact ⟨log', by rw [hr', e], fun t => (key t).1⟩

end MWorld
end Copra
