import Verif.Proofs.Copies2

/-! # Rebuilding a cost elsewhere, and the main theorem of C100 -/

namespace Copra
open Spec

set_option linter.unusedSectionVars false
set_option linter.unusedSimpArgs false

variable {K : Type} [Field K] [LinearOrder K] [IsStrictOrderedRing K]

namespace World

variable {d : Dims} {dmax : K} {E : World K → Op K → Prop} {C Q : Nat → Prop}

/-- How a cost came about; `a` tells whether some controller accepted it, `f` that it has not been updated since. -/
inductive BuiltK (d : Dims) (E : World K → Op K → Prop) (P : Prop) : Prop → Prop → Cost K → Prop
  | fresh {c} : FreshCost c → BuiltK d E P False False c
  | span {a f c c' junk} : BuiltK d E P a f c → (∃ (u : World K) (i : Nat), u.costs i = c ∧ E u (.spanCost i junk)) →
      (c.autoSpan junk = .ok c' ∨ ∃ e, c.autoSpan junk = .thrown e c') → BuiltK d E P a f c'
  | weights {a f c c' v} : BuiltK d E P a f c → (∃ (u : World K) (i : Nat), u.costs i = c ∧ E u (.weights i v)) →
      (c.setWeights v = .ok c' ∨ ∃ e, c.setWeights v = .thrown e c') → BuiltK d E P a f c'
  | weight {a f c x} : BuiltK d E P a f c → (∃ (u : World K) (i : Nat), u.costs i = c ∧ E u (.weight i x)) →
      BuiltK d E P a f (c.setWeight x)
  | init {a f c c' junk s} : BuiltK d E P a f c → P → BuiltPs d s → c.initializeCost junk s = .ok c' →
      BuiltK d E P True True c'
  | initThrown {a f c c' junk s e} : BuiltK d E P a f c → P → BuiltPs d s → c.initializeCost junk s = .thrown e c' →
      BuiltK d E P a f c'
  | update {f c c' s} : BuiltK d E P True f c → P → BuiltPs d s → c.update s = some c' → BuiltK d E P True False c'

theorem BuiltK.mono {P P' a f : Prop} {c : Cost K} (h : BuiltK d E P a f c) (hP : P → P') : BuiltK d E P' a f c := by
  induction h with
  | fresh h => exact .fresh h
  | span _ h1 h2 ih => exact .span ih h1 h2
  | weights _ h1 h2 ih => exact .weights ih h1 h2
  | weight _ h1 ih => exact .weight ih h1
  | init _ h1 h2 h3 ih => exact .init ih (hP h1) h2 h3
  | initThrown _ h1 h2 h3 ih => exact .initThrown ih (hP h1) h2 h3
  | update _ h1 h2 h3 ih => exact .update ih (hP h1) h2 h3

theorem BuiltK.chain {P f : Prop} {c c' : Cost K} {s : PreviewSystem K} (hP : P) (hs : BuiltPs d s)
    (h : BuiltK d E P True f c)
    (hc : Relation.ReflTransGen (fun a b : Cost K => a.update s = some b) c c') : ∃ f', BuiltK d E P True f' c' := by
  induction hc with
  | refl => exact ⟨f, h⟩
  | tail _ hu' ih => obtain ⟨f', ih⟩ := ih; exact ⟨_, .update ih hP hs hu'⟩

/-- The ghost with cost `j` (not) accepted and (not) fresh. -/
def _root_.Copra.Spec.Ghost.setCost (g : Ghost) (j : Nat) (a f : Prop) : Ghost :=
  { g with
    cost := fun k => (k = j ∧ a) ∨ (k ≠ j ∧ g.cost k)
    fresh := fun k => (k = j ∧ f) ∨ (k ≠ j ∧ g.fresh k) }

theorem set_false {R : Nat → Prop} {j : Nat} (h : ¬ R j) : (fun k => (k = j ∧ False) ∨ (k ≠ j ∧ R k)) = R := by
  funext k
  by_cases e : k = j
  · subst e
    exact propext ⟨fun h' => by
      rcases h' with h' | h'
      · exact h'.2.elim
      · exact absurd rfl h'.1, fun h' => absurd h' h⟩
  · exact propext ⟨fun h' => by
      rcases h' with h' | h'
      · exact absurd h'.1 e
      · exact h'.2, fun h' => Or.inr ⟨e, h'⟩⟩

theorem set_next {R : Nat → Prop} {j : Nat} {a ok : Prop} (hok : ok) :
    (fun k => ((k = j ∧ a) ∨ (k ≠ j ∧ R k)) ∨ (ok ∧ k = j)) = fun k => (k = j ∧ True) ∨ (k ≠ j ∧ R k) := by
  funext k
  by_cases e : k = j
  · exact propext ⟨fun _ => Or.inl ⟨e, trivial⟩, fun _ => Or.inr ⟨hok, e⟩⟩
  · exact propext ⟨fun h => by
      rcases h with (h | h) | h
      · exact absurd h.1 e
      · exact Or.inr h
      · exact absurd h.2 e, fun h => by
      rcases h with h | h
      · exact absurd h.1 e
      · exact Or.inl (Or.inr h)⟩

theorem set_not {R : Nat → Prop} {j : Nat} {ok : Prop} (hok : ¬ ok) : (fun k => R k ∨ (ok ∧ k = j)) = R := by
  funext k
  exact propext ⟨fun h => h.elim id fun h => absurd h.1 hok, Or.inl⟩

theorem set_drop {R : Nat → Prop} {j : Nat} {f : Prop} :
    (fun k => ((k = j ∧ f) ∨ (k ≠ j ∧ R k)) ∧ k ≠ j) = fun k => (k = j ∧ False) ∨ (k ≠ j ∧ R k) := by
  funext k
  by_cases e : k = j
  · exact propext ⟨fun h => absurd e h.2, fun h => by
      rcases h with h | h
      · exact h.2.elim
      · exact absurd e h.1⟩
  · exact propext ⟨fun h => by
      rcases h.1 with h | h
      · exact absurd h.1 e
      · exact Or.inr h, fun h => ⟨by
      rcases h with h | h
      · exact absurd h.1 e
      · exact Or.inr h, e⟩⟩

/-- A cost can be rebuilt in any slot holding a fresh cost. -/
theorem replayCost (O : ObjectWise E) {w : World K} {g : Ghost} {j : Nat} (hj : Q j)
    (h0 : ∀ c, FreshCost c → Hist d dmax (EO E C Q) { w with costs := upd w.costs j c } g ∧ ¬ g.cost j ∧ ¬ g.fresh j)
    {a f : Prop} {c : Cost K} (hc : BuiltK d E (∃ q, HasSystem w q) a f c) (hb : ∀ q, HasSystem w q → BuiltPs d (w.pss q)) :
    Hist d dmax (EO E C Q) { w with costs := upd w.costs j c } (g.setCost j a f) := by
  induction hc with
  | @fresh c h =>
    obtain ⟨h1, h2, h3⟩ := h0 c h
    have : g.setCost j False False = g := by
      unfold Ghost.setCost
      rw [set_false h2, set_false h3]
    rw [this]; exact h1
  | @span a f c c' junk _ hE hs ih =>
    obtain ⟨u, i, e, hE⟩ := hE
    have e1 : EO E C Q { w with costs := upd w.costs j c } (.spanCost j junk) :=
      ⟨O.spanCost u _ i j junk hE (by simp only [upd_same]; exact e.symm), hj⟩
    rcases hs with hs | ⟨x, hs⟩
    · exact Hist.ok (op := .spanCost j junk) ih trivial e1 (by simp only [step, upd_same, hs, Res.map, upd_upd])
    · exact Hist.thrown (op := .spanCost j junk) (e := x) ih trivial e1 (by simp only [step, upd_same, hs, Res.map, upd_upd])
  | @weights a f c c' v _ hE hs ih =>
    obtain ⟨u, i, e, hE⟩ := hE
    have e1 : EO E C Q { w with costs := upd w.costs j c } (.weights j v) :=
      ⟨O.weights u _ i j v hE (by simp only [upd_same]; exact e.symm), hj⟩
    rcases hs with hs | ⟨x, hs⟩
    · exact Hist.ok (op := .weights j v) ih trivial e1 (by simp only [step, upd_same, hs, Res.map, upd_upd])
    · exact Hist.thrown (op := .weights j v) (e := x) ih trivial e1 (by simp only [step, upd_same, hs, Res.map, upd_upd])
  | @weight a f c x _ hE ih =>
    obtain ⟨u, i, e, hE⟩ := hE
    have e1 : EO E C Q { w with costs := upd w.costs j c } (.weight j x) :=
      ⟨O.weight u _ i j x hE (by simp only [upd_same]; exact e.symm), hj⟩
    exact Hist.ok (op := .weight j x) ih trivial e1 (by simp only [step, upd_same, upd_upd])
  | @init a f c c' junk s _ hP hs hi ih =>
    obtain ⟨q, hq⟩ := hP
    obtain ⟨h1, hn⟩ := replayPs O ih hs q
    have h2 := Hist.ok (op := .initCost j q junk) h1 (by show 0 < _; simp only [upd_same]; exact hn)
      ⟨O.initCost _ _ _ _, hj, trivial⟩
      (w' := { w with pss := upd w.pss q s, costs := upd w.costs j c' })
      (by simp only [step, upd_same, hi, Res.map, upd_upd])
    have h3 := (replayPs O h2 (hb q hq) q).1
    dsimp only at h3
    rw [upd_upd, upd_self] at h3
    have e : Ghost.next (K := K) (g.setCost j a f) { w with costs := upd w.costs j c, pss := upd w.pss q s } True (.initCost j q junk)
      = g.setCost j True True := by
      unfold Ghost.next Ghost.setCost
      dsimp only
      rw [set_next trivial, set_next trivial]
    rw [← e]; exact h3
  | @initThrown a f c c' junk s x _ hP hs hi ih =>
    obtain ⟨q, hq⟩ := hP
    obtain ⟨h1, hn⟩ := replayPs O ih hs q
    have h2 := Hist.thrown (op := .initCost j q junk) (e := x) h1 (by show 0 < _; simp only [upd_same]; exact hn)
      ⟨O.initCost _ _ _ _, hj, trivial⟩
      (w' := { w with pss := upd w.pss q s, costs := upd w.costs j c' })
      (by simp only [step, upd_same, hi, Res.map, upd_upd])
    have h3 := (replayPs O h2 (hb q hq) q).1
    dsimp only at h3
    rw [upd_upd, upd_self] at h3
    have e : Ghost.next (K := K) (g.setCost j a f) { w with costs := upd w.costs j c, pss := upd w.pss q s } False (.initCost j q junk)
      = g.setCost j a f := by
      unfold Ghost.next
      dsimp only
      rw [set_not (fun h => h), set_not (fun h => h)]
    rw [← e]; exact h3
  | @update f c c' s _ hP hs hi ih =>
    obtain ⟨q, hq⟩ := hP
    obtain ⟨h1, hn⟩ := replayPs O ih hs q
    have h2 := Hist.ok (op := .updateCost j q) h1
      ⟨Or.inl ⟨rfl, trivial⟩, by show 0 < _; simp only [upd_same]; exact hn⟩
      ⟨O.updateCost _ _ _, hj, trivial⟩
      (w' := { w with pss := upd w.pss q s, costs := upd w.costs j c' })
      (by simp only [step, upd_same, hi, Res.ofOption, Res.map, upd_upd])
    have h3 := (replayPs O h2 (hb q hq) q).1
    dsimp only at h3
    rw [upd_upd, upd_self] at h3
    have e : Ghost.next (K := K) (g.setCost j True f) { w with costs := upd w.costs j c, pss := upd w.pss q s } True (.updateCost j q)
      = g.setCost j True False := by
      unfold Ghost.next Ghost.setCost
      dsimp only
      rw [set_drop]
    rw [← e]; exact h3

theorem eq_true {a : Prop} (h : a) : a = True := propext ⟨fun _ => trivial, fun _ => h⟩
theorem eq_false {a : Prop} (h : ¬ a) : a = False := propext ⟨h, False.elim⟩

theorem hist_builtK {w : World K} {g : Ghost} (h : Hist d dmax (EO E C Q) w g) :
    ∀ i, BuiltK d E (∃ q, HasSystem w q) (g.cost i) (g.fresh i) (w.costs i) := by
  have hps : ∀ {w g}, Hist d dmax (EO E C Q) w g → ∀ p, HasSystem w p → BuiltPs d (w.pss p) := fun h => hist_builtPs h
  have main : ∀ (w w' : World K) (g : Ghost) (op : Op K) (ok : Prop), Hist d dmax (EO E C Q) w g →
      (∀ i, BuiltK d E (∃ q, HasSystem w q) (g.cost i) (g.fresh i) (w.costs i)) → OpOk d w g op → EO E C Q w op →
      ((ok ∧ w.step dmax op = .ok w') ∨ (¬ ok ∧ ∃ e, w.step dmax op = .thrown e w')) →
      ∀ i, BuiltK d E (∃ q, HasSystem w' q) ((g.next w ok op).cost i) ((g.next w ok op).fresh i) (w'.costs i) := by
    intro w w' g op ok hh ih ho he hst i
    have hS : Steps dmax w op w' := by
      rcases hst with h | h
      · exact Or.inl h.2
      · exact Or.inr h.2
    have hsys : (∃ q, HasSystem w q) → ∃ q, HasSystem w' q := fun ⟨q, hq⟩ => ⟨q, (hh.good.stepSys ho hS).1 q hq⟩
    have ihi := (ih i).mono hsys
    have initCase : ∀ {p j junk}, HasSystem w p →
        (∀ c, (w.costs j).initializeCost junk (w.pss p) = .ok c → ok →
          w'.costs = upd w.costs j c →
          BuiltK d E (∃ q, HasSystem w' q) (g.cost i ∨ (ok ∧ i = j)) (g.fresh i ∨ (ok ∧ i = j)) (w'.costs i)) := by
      intro p j junk hp c hi hok e
      rw [e]
      by_cases hij : i = j
      · subst hij
        rw [upd_same, eq_true (Or.inr ⟨hok, rfl⟩ : g.cost i ∨ (ok ∧ i = i)), eq_true (Or.inr ⟨hok, rfl⟩ : g.fresh i ∨ (ok ∧ i = i))]
        exact .init ihi (hsys ⟨p, hp⟩) (hps hh p hp) hi
      · rw [upd_ne _ _ hij, show (g.cost i ∨ (ok ∧ i = j)) = g.cost i from propext ⟨fun h => h.elim id fun h => absurd h.2 hij, Or.inl⟩,
          show (g.fresh i ∨ (ok ∧ i = j)) = g.fresh i from propext ⟨fun h => h.elim id fun h => absurd h.2 hij, Or.inl⟩]
        exact ihi
    have thrownCase : ∀ {p j junk e}, HasSystem w p →
        (∀ c, (w.costs j).initializeCost junk (w.pss p) = .thrown e c → ¬ ok →
          w'.costs = upd w.costs j c →
          BuiltK d E (∃ q, HasSystem w' q) (g.cost i ∨ (ok ∧ i = j)) (g.fresh i ∨ (ok ∧ i = j)) (w'.costs i)) := by
      intro p j junk x hp c hi hok e
      rw [e, show (g.cost i ∨ (ok ∧ i = j)) = g.cost i from propext ⟨fun h => h.elim id fun h => absurd h.1 hok, Or.inl⟩,
          show (g.fresh i ∨ (ok ∧ i = j)) = g.fresh i from propext ⟨fun h => h.elim id fun h => absurd h.1 hok, Or.inl⟩]
      by_cases hij : i = j
      · subst hij
        rw [upd_same]
        exact .initThrown ihi (hsys ⟨p, hp⟩) (hps hh p hp) hi
      · rw [upd_ne _ _ hij]
        exact ihi
    have same : w'.costs i = w.costs i → BuiltK d E (∃ q, HasSystem w' q) (g.cost i) (g.fresh i) (w'.costs i) := by
      intro e; rw [e]; exact ihi
    have plain : (∀ p junk, op ≠ .initCost i p junk) → (∀ junk, op ≠ .addCost i junk) → (∀ p, op ≠ .updateCost i p) →
        (∀ env, op ≠ .solve env) → BuiltK d E (∃ q, HasSystem w' q) (g.cost i) (g.fresh i) (w'.costs i) := by
      intro n1 n2 n3 n4
      cases hS.costChange i with
      | same e => exact same e
      | span junk e hsp => subst e; exact .span ihi ⟨w, i, rfl, he.1⟩ hsp
      | weights v e hv => subst e; exact .weights ihi ⟨w, i, rfl, he.1⟩ hv
      | weight x e hv => subst e; rw [hv]; exact .weight ihi ⟨w, i, rfl, he.1⟩
      | init p junk e _ =>
        rcases e with e | ⟨e, _⟩
        · exact absurd e (n1 p junk)
        · exact absurd e (n2 junk)
      | update p e _ =>
        rcases e with e | ⟨⟨env, e⟩, _⟩
        · exact absurd e (n3 p)
        · exact absurd e (n4 env)
    cases op
    case initCost j p junk =>
      simp only [step, Res.map_ok, Res.map_thrown] at hst
      rcases hst with ⟨hok, c, hi, rfl⟩ | ⟨hok, x, c, hi, rfl⟩
      · exact initCase ho c hi hok rfl
      · exact thrownCase ho c hi hok rfl
    case addCost j junk =>
      simp only [step] at hst
      unfold addCost at hst
      split at hst
      · rcases hst with ⟨_, h⟩ | ⟨_, _, h⟩ <;> cases h
      · rename_i p hp
        split at hst
        · rename_i c hi
          rcases hst with ⟨hok, h⟩ | ⟨_, _, h⟩ <;> cases h
          exact initCase (hh.good.ctl p hp).1 c hi hok rfl
        · rename_i x c hi
          rcases hst with ⟨_, h⟩ | ⟨hok, _, h⟩ <;> cases h
          exact thrownCase (hh.good.ctl p hp).1 c hi hok rfl
        · rcases hst with ⟨_, h⟩ | ⟨_, _, h⟩ <;> cases h
    case updateCost j p =>
      simp only [step, Res.map_ok, Res.map_thrown, Res.ofOption_ok] at hst
      rcases hst with ⟨_, c, hi, rfl⟩ | ⟨_, x, _, hi, _⟩
      · show BuiltK d E _ (g.cost i) (g.fresh i ∧ i ≠ j) (upd w.costs j c i)
        by_cases hij : i = j
        · subst hij
          rw [upd_same, eq_false (fun h : g.fresh i ∧ i ≠ i => h.2 rfl)]
          rw [eq_true ho.1] at ihi ⊢
          exact .update ihi (hsys ⟨p, ho.2⟩) (hps hh p ho.2) hi
        · rw [upd_ne _ _ hij, show (g.fresh i ∧ i ≠ j) = g.fresh i from propext ⟨And.left, fun h => ⟨h, hij⟩⟩]
          exact ihi
      · exact absurd hi Res.ofOption_ne_thrown
    case solve env =>
      simp only [step, Res.ofOption_ok] at hst
      rcases hst with ⟨_, hst⟩ | ⟨_, x, hst⟩
      · obtain ⟨⟨w1, b, q⟩, hs, rfl⟩ := Option.map_eq_some_iff.1 hst
        obtain ⟨p1, ps, h1, h2, h3, h4, h5⟩ := solve_inv' hs
        show BuiltK d E _ (g.cost i) (g.fresh i ∧ i ∉ w.ctl.spCost) (w1.costs i)
        by_cases hi : i ∈ w.ctl.spCost
        · rw [eq_false (fun h : g.fresh i ∧ i ∉ w.ctl.spCost => h.2 hi)]
          rw [eq_true (hh.good.subK i hi)] at ihi ⊢
          have b0 := hps hh p1 (hh.good.ctl p1 h1).1
          have b1 : BuiltPs d ps := by
            split at h2
            · cases h2; exact b0
            · exact b0.update h2
          obtain ⟨c, c1, c2⟩ := updateCosts_last h5 hi
          have P1 := hsys ⟨p1, (hh.good.ctl p1 h1).1⟩
          obtain ⟨f', b2⟩ := ihi.chain P1 b1 c1
          exact .update b2 P1 b1 c2
        · have e : w1.costs i = w.costs i :=
            updateCosts_outside (Q := (· ∈ w.ctl.spCost)) hi w.ctl.spCost (fun _ h => h) h5
          rw [e, show (g.fresh i ∧ i ∉ w.ctl.spCost) = g.fresh i from propext ⟨And.left, fun h => ⟨h, hi⟩⟩]
          exact ihi
      · exact absurd hst Res.ofOption_ne_thrown
    all_goals exact plain (fun _ _ h => by cases h) (fun _ h => by cases h) (fun _ h => by cases h) (fun _ h => by cases h)
  induction h with
  | start h => exact fun i => .fresh (h.2.2.1 i)
  | ok hh ho he hs ih => exact main _ _ _ _ True hh ih ho he (Or.inl ⟨trivial, hs⟩)
  | thrown hh ho he hs ih => exact main _ _ _ _ False hh ih ho he (Or.inr ⟨fun h => h, _, hs⟩)

/-! ## Programs that copy -/

/-- Whatever a program with copies reaches, one without copies reaches as well. -/
theorem chist_hist (O : ObjectWise E) {w : World K} {g : Ghost} (h : CHist d dmax E w g C Q) :
    Hist d dmax (EO E C Q) w g := by
  induction h with
  | start h => exact .start h
  | @ok w w' g C Q op _ ho he hs ih =>
    refine .ok (ih.mono fun w op h => ⟨h.1, Only.mono (fun _ => Or.inl) (fun _ => Or.inl) h.2⟩) ho ⟨he, ?_⟩ hs
    exact Only.mono (fun _ => Or.inr) (fun _ => Or.inr) (only_names op)
  | @thrown w w' g C Q op e _ ho he hs ih =>
    refine .thrown (ih.mono fun w op h => ⟨h.1, Only.mono (fun _ => Or.inl) (fun _ => Or.inl) h.2⟩) ho ⟨he, ?_⟩ hs
    exact Only.mono (fun _ => Or.inr) (fun _ => Or.inr) (only_names op)
  | @copyConstr w g C Q i j _ hji hj ih =>
    have up : ∀ {w : World K} {g : Ghost}, Hist d dmax (EO E C Q) w g →
        Hist d dmax (EO E (fun k => C k ∨ k = i ∨ k = j) Q) w g :=
      fun h => h.mono fun w op h => ⟨h.1, Only.mono (fun _ => Or.inl) (fun _ h => h) h.2⟩
    exact replayConstr O (Or.inr (Or.inr rfl))
      (fun c hc => ⟨up (frameConstr O ih hj hc).1, (frameConstr O ih hj hc).2⟩) (hist_builtC ih i) (hist_builtPs ih)
  | @copyCost w g C Q i j _ hji hj ih =>
    have up : ∀ {w : World K} {g : Ghost}, Hist d dmax (EO E C Q) w g →
        Hist d dmax (EO E C (fun k => Q k ∨ k = i ∨ k = j)) w g :=
      fun h => h.mono fun w op h => ⟨h.1, Only.mono (fun _ h => h) (fun _ => Or.inl) h.2⟩
    exact replayCost O (Or.inr (Or.inr rfl))
      (fun c hc => ⟨up (frameCost O ih hj hc).1, (frameCost O ih hj hc).2⟩) (hist_builtK ih i) (hist_builtPs ih)
  | @copyPs w g C Q p q _ hq ih => exact (replayPs O ih (hist_builtPs ih q hq) p).1

end World
end Copra
