import Verif.Proofs.Copies

/-! # Rebuilding an object elsewhere (C100) -/

namespace Copra
open Spec

set_option linter.unusedSectionVars false
set_option linter.unusedSimpArgs false

variable {K : Type} [Field K] [LinearOrder K] [IsStrictOrderedRing K]

namespace World

variable {d : Dims} {dmax : K} {E : World K → Op K → Prop} {C Q : Nat → Prop}

/-! ## Preview systems -/

/-- How a preview system came about. -/
inductive BuiltPs (d : Dims) : PreviewSystem K → Prop
  | system {s s' A B v x} {N : Int} : A.cols = d.n → B.cols = d.m → N = d.N → PreviewSystem.system s A B v x N = .ok s' → BuiltPs d s'
  | xInit {s x} : BuiltPs d s → x.rows = d.n → BuiltPs d (s.setXInit x)
  | setDynamics {s A B v} : BuiltPs d s → (A.rows = d.n ∧ A.cols = d.n) → (B.rows = d.n ∧ B.cols = d.m) → v.rows = d.n →
      BuiltPs d (s.setDynamics A B v)
  | update {s s'} : BuiltPs d s → s.updateSystem = some s' → BuiltPs d s'

theorem system_indep {s t s' : PreviewSystem K} {A B : Mat K} {v x : Vec K} {N : Int}
    (h : s.system A B v x N = .ok s') : t.system A B v x N = .ok s' := by
  unfold PreviewSystem.system at *
  repeat' split at h
  all_goals first | cases h | (simp only [*, if_false]; try exact h)

theorem system_pos {s s' : PreviewSystem K} {A B : Mat K} {v x : Vec K} {N : Int}
    (h : s.system A B v x N = .ok s') : 0 < s'.nrUStep := by
  obtain ⟨a1, a2, a3, a4, a5, a6, a7⟩ := system_ok h
  rw [a1.dims.nrU]; exact a1.dims.Npos

theorem upd_upd {α : Type} (h : Nat → α) (i : Nat) (a b : α) : upd (upd h i a) i b = upd h i b := by
  funext j
  unfold upd
  split <;> rfl

/-- A preview system can be rebuilt in any slot. -/
theorem replayPs (O : ObjectWise E) {w : World K} {g : Ghost} (h : Hist d dmax (EO E C Q) w g) {s : PreviewSystem K}
    (hs : BuiltPs d s) (p : Nat) : Hist d dmax (EO E C Q) { w with pss := upd w.pss p s } g ∧ 0 < s.nrUStep := by
  induction hs with
  | @system s0 s' A B v x N h1 h2 h3 h4 =>
    refine ⟨?_, system_pos h4⟩
    refine Hist.ok (op := .system p A B v x N) h ⟨h1, h2, h3⟩ ⟨O.system _ _ _ _ _ _ _, trivial⟩ ?_
    simp only [step, system_indep (t := w.pss p) h4, Res.map]
  | @xInit s x _ hx ih =>
    refine ⟨?_, ih.2⟩
    refine Hist.ok (op := .xInit p x) ih.1 hx ⟨O.xInit _ _ _, trivial⟩ ?_
    simp only [step, upd_same, upd_upd]
  | @setDynamics s A B v _ hA hB hv ih =>
    refine ⟨?_, ih.2⟩
    refine Hist.ok (op := .setDynamics p A B v) ih.1 ⟨hA, hB, hv⟩ ⟨O.setDynamics _ _ _ _ _, trivial⟩ ?_
    simp only [step, upd_same, upd_upd]
  | @update s s' _ hu ih =>
    have hp : HasSystem { w with pss := upd w.pss p s } p := by
      unfold HasSystem; simp only [upd_same]; exact ih.2
    have := Hist.ok (op := .updatePs p) (w' := { w with pss := upd w.pss p s' }) ih.1 hp ⟨O.updatePs _ _, trivial⟩
      (by simp only [step, upd_same, upd_upd, hu, Res.ofOption, Res.map])
    refine ⟨this, ?_⟩
    have hS : HasSystem { w with pss := upd w.pss p s' } p :=
      (ih.1.good.stepSys (op := .updatePs p) hp (Or.inl (by simp only [step, upd_same, upd_upd, hu, Res.ofOption, Res.map]))).1 p hp
    unfold HasSystem at hS
    simpa only [upd_same] using hS

theorem hist_builtPs {w : World K} {g : Ghost} (h : Hist d dmax E w g) : ∀ p, HasSystem w p → BuiltPs d (w.pss p) := by
  refine Hist.inv (P := fun w _ => ∀ p, HasSystem w p → BuiltPs d (w.pss p)) ?_ ?_ h
  · rintro w ⟨h1, _⟩ p hp
    unfold HasSystem at hp
    rw [h1 p] at hp
    exact absurd hp (Nat.lt_irrefl 0)
  · intro w w' g op ok hg hg' ih ho he hst hok p hp
    clear he hok hg'
    have case_upd : ∀ {q : Nat} {s : PreviewSystem K}, (p = q → 0 < s.nrUStep → BuiltPs d s) →
        w'.pss = upd w.pss q s → BuiltPs d (w'.pss p) := by
      intro q s h1 h2
      unfold HasSystem at hp
      rw [h2] at hp ⊢
      by_cases e : p = q
      · subst e
        rw [upd_same] at hp ⊢
        exact h1 rfl hp
      · rw [upd_ne _ _ e] at hp ⊢
        exact ih p hp
    have case_same : w'.pss = w.pss → BuiltPs d (w'.pss p) := by
      intro e
      unfold HasSystem at hp
      rw [e] at hp ⊢
      exact ih p hp
    unfold Steps at hst
    rcases hst with h | ⟨e, h⟩ <;> cases op <;> simp only [step, Res.map_ok, Res.map_thrown, Res.ofOption_ok] at h
    case inl.system q A B v x0 N =>
      obtain ⟨s, h, rfl⟩ := h
      exact case_upd (fun _ _ => .system ho.1 ho.2.1 ho.2.2 h) rfl
    case inr.system q A B v x0 N =>
      obtain ⟨s, h, rfl⟩ := h
      have : s = w.pss q := by
        unfold PreviewSystem.system at h
        split_ifs at h
        all_goals first | (cases h; rfl) | exact absurd h Res.ofOption_ne_thrown
      subst this
      exact case_upd (fun _ hn => ih q hn) rfl
    case inl.xInit q x =>
      cases h
      exact case_upd (q := q) (s := (w.pss q).setXInit x) (fun _ hn => (ih q hn).xInit ho) rfl
    case inl.setDynamics q A B v =>
      cases h
      exact case_upd (q := q) (s := (w.pss q).setDynamics A B v) (fun _ hn => (ih q hn).setDynamics ho.1 ho.2.1 ho.2.2) rfl
    case inl.updatePs q =>
      obtain ⟨s, h, rfl⟩ := h
      exact case_upd (fun _ _ => (ih q ho).update h) rfl
    case inl.addCost j junk =>
      unfold addCost at h
      split at h
      · cases h
      · split at h <;> cases h
        exact case_same rfl
    case inr.addCost j junk =>
      unfold addCost at h
      split at h
      · cases h
      · split at h <;> cases h
        exact case_same rfl
    case inl.addConstraint j junk =>
      unfold addConstraint at h
      split at h
      · cases h
      · split at h
        · split at h <;> cases h
          exact case_same rfl
        · cases h
        · cases h
    case inr.addConstraint j junk =>
      unfold addConstraint at h
      split at h
      · cases h
      · split at h
        · split at h <;> cases h
        · cases h; exact case_same rfl
        · cases h
    case inl.clearConstraints =>
      obtain ⟨_, _, _, _, rfl⟩ := clearConstraints_inv h
      exact case_same rfl
    case inl.solve env =>
      obtain ⟨⟨w1, b, q⟩, hs, rfl⟩ := Option.map_eq_some_iff.1 h
      obtain ⟨w2, p2, l, s, l', h1, _, hl, _, rfl, rfl, hl', rfl⟩ := solve_inv hs
      obtain ⟨p1, ps, l1, l2, cons, costs, hp1, hps, e1, e2, hc, hk, rfl, f⟩ := updateSystem_inv h1
      refine case_upd (fun _ _ => ?_) rfl
      have b0 := ih p1 (hg.ctl p1 hp1).1
      split at hps
      · cases hps; exact b0
      · exact b0.update hps
    case inr.updateConstr | inr.updatePs | inr.updateCost | inr.constructPs | inr.initializeController | inr.removeConstraint =>
      obtain ⟨_, h, _⟩ := h
      exact absurd h Res.ofOption_ne_thrown
    case inr.clearConstraints | inr.solve => exact absurd h Res.ofOption_ne_thrown
    all_goals first
      | (cases h <;> exact case_same rfl)
      | (obtain ⟨_, _, rfl⟩ := h; exact case_same rfl)

/-! ## Constraints -/

/-- How a constraint came about; `a` tells whether some controller accepted it, `P` that there is a preview system. -/
inductive BuiltC (d : Dims) (E : World K → Op K → Prop) (P : Prop) : Prop → Constr K → Prop
  | fresh {c} : FreshConstr c → BuiltC d E P False c
  | span {a c c' junk} : BuiltC d E P a c → (∃ (u : World K) (i : Nat), u.cons i = c ∧ E u (.spanConstr i junk)) →
      (c.autoSpan junk = .ok c' ∨ ∃ e, c.autoSpan junk = .thrown e c') → BuiltC d E P a c'
  | init {a c c' junk s} : BuiltC d E P a c → P → BuiltPs d s → c.initializeConstraint junk s = .ok c' → BuiltC d E P True c'
  | update {c c' s} : BuiltC d E P True c → P → BuiltPs d s → s.isUpdated = true → c.update s = some c' →
      BuiltC d E P True c'

theorem BuiltC.mono {P P' a : Prop} {c : Constr K} (h : BuiltC d E P a c) (hP : P → P') : BuiltC d E P' a c := by
  induction h with
  | fresh h => exact .fresh h
  | span _ h1 h2 ih => exact .span ih h1 h2
  | init _ h1 h2 h3 ih => exact .init ih (hP h1) h2 h3
  | update _ h1 h2 h3 h4 ih => exact .update ih (hP h1) h2 h3 h4

theorem BuiltC.chain {P : Prop} {c c' : Constr K} {s : PreviewSystem K} (hP : P) (hs : BuiltPs d s)
    (hu : s.isUpdated = true) (h : BuiltC d E P True c)
    (hc : Relation.ReflTransGen (fun a b : Constr K => a.update s = some b) c c') : BuiltC d E P True c' := by
  induction hc with
  | refl => exact h
  | tail _ hu' ih => exact .update ih hP hs hu hu'

/-- The ghost with constraint `j` (not) accepted. -/
def _root_.Copra.Spec.Ghost.setConstr (g : Ghost) (j : Nat) (a : Prop) : Ghost :=
  { g with constr := fun k => (k = j ∧ a) ∨ (k ≠ j ∧ g.constr k) }

theorem setConstr_false {g : Ghost} {j : Nat} (h : ¬ g.constr j) : g.setConstr j False = g := by
  unfold Ghost.setConstr
  cases g
  dsimp only at h ⊢
  congr 1
  funext k
  by_cases e : k = j
  · subst e
    exact propext ⟨fun h' => by
      rcases h' with h' | h'
      · exact h'.2.elim
      · exact absurd rfl h'.1, fun h' => absurd h' h⟩
  · exact propext ⟨fun h' => by
      rcases h' with h' | h'
      · exact absurd h'.1 e
      · exact h'.2, fun h' => Or.inr ⟨e, h'⟩⟩

theorem setConstr_next {g : Ghost} {j : Nat} {a : Prop} {ok : Prop} (hok : ok) :
    ({ g.setConstr j a with constr := fun k => (g.setConstr j a).constr k ∨ (ok ∧ k = j) } : Ghost) = g.setConstr j True := by
  unfold Ghost.setConstr
  dsimp only
  congr 1
  funext k
  by_cases e : k = j
  · exact propext ⟨fun _ => Or.inl ⟨e, trivial⟩, fun _ => Or.inr ⟨hok, e⟩⟩
  · exact propext ⟨fun h => by
      rcases h with (h | h) | h
      · exact absurd h.1 e
      · exact Or.inr h
      · exact absurd h.2 e, fun h => by
      rcases h with h | h
      · exact absurd h.1 e
      · exact Or.inl (Or.inr h)⟩

/-- A constraint can be rebuilt in any slot holding a fresh constraint. -/
theorem replayConstr (O : ObjectWise E) {w : World K} {g : Ghost} {j : Nat} (hj : C j)
    (h0 : ∀ c, FreshConstr c → Hist d dmax (EO E C Q) { w with cons := upd w.cons j c } g ∧ ¬ g.constr j)
    {a : Prop} {c : Constr K} (hc : BuiltC d E (∃ q, HasSystem w q) a c) (hb : ∀ q, HasSystem w q → BuiltPs d (w.pss q)) :
    Hist d dmax (EO E C Q) { w with cons := upd w.cons j c } (g.setConstr j a) := by
  induction hc with
  | @fresh c h =>
    obtain ⟨h1, h2⟩ := h0 c h
    rw [setConstr_false h2]; exact h1
  | @span a c c' junk _ hE hs ih =>
    obtain ⟨u, i, e, hE⟩ := hE
    have e1 : EO E C Q { w with cons := upd w.cons j c } (.spanConstr j junk) :=
      ⟨O.spanConstr u _ i j junk hE (by simp only [upd_same]; exact e.symm), hj⟩
    rcases hs with hs | ⟨x, hs⟩
    · exact Hist.ok (op := .spanConstr j junk) ih trivial e1 (by simp only [step, upd_same, hs, Res.map, upd_upd])
    · exact Hist.thrown (op := .spanConstr j junk) (e := x) ih trivial e1 (by simp only [step, upd_same, hs, Res.map, upd_upd])
  | @init a c c' junk s _ hP hs hi ih =>
    obtain ⟨q, hq⟩ := hP
    obtain ⟨h1, hn⟩ := replayPs O ih hs q
    have h2 := Hist.ok (op := .initConstr j q junk) h1 (by show 0 < _; simp only [upd_same]; exact hn)
      ⟨O.initConstr _ _ _ _, hj, trivial⟩
      (w' := { w with pss := upd w.pss q s, cons := upd w.cons j c' })
      (by simp only [step, upd_same, hi, Res.map, upd_upd])
    have h3 := (replayPs O h2 (hb q hq) q).1
    dsimp only at h3
    rw [upd_upd, upd_self] at h3
    have e : Ghost.next (K := K) (g.setConstr j a) { w with cons := upd w.cons j c, pss := upd w.pss q s } True (.initConstr j q junk)
      = g.setConstr j True := setConstr_next trivial
    rw [← e]; exact h3
  | @update c c' s _ hP hs hu hi ih =>
    obtain ⟨q, hq⟩ := hP
    obtain ⟨h1, hn⟩ := replayPs O ih hs q
    have h2 := Hist.ok (op := .updateConstr j q) h1
      ⟨Or.inl ⟨rfl, trivial⟩, by show 0 < _; simp only [upd_same]; exact hn, by simp only [upd_same]; exact hu⟩
      ⟨O.updateConstr _ _ _, hj, trivial⟩
      (w' := { w with pss := upd w.pss q s, cons := upd w.cons j c' })
      (by simp only [step, upd_same, hi, Res.ofOption, Res.map, upd_upd])
    have h3 := (replayPs O h2 (hb q hq) q).1
    dsimp only at h3
    rw [upd_upd, upd_self] at h3
    exact h3

theorem solve_inv' {w w' : World K} {env : SolveEnv K} {b : Bool} {q : QP K} (h : w.solve env = some (w', b, q)) :
    ∃ p ps, w.ctl.ps = some p ∧ (if (w.pss p).isUpdated then some (w.pss p) else (w.pss p).updateSystem) = some ps ∧
      w'.pss = upd w.pss p ps ∧ w.ctl.spConstr.foldlM (updateConstr ps) w.cons = some w'.cons ∧
      w.ctl.spCost.foldlM (updateCost ps) w.costs = some w'.costs := by
  obtain ⟨w1, p2, l, s, l', h1, _, hl, _, rfl, rfl, hl', rfl⟩ := solve_inv h
  obtain ⟨p1, ps, l1, l2, cons, costs, hp1, hps, e1, e2, hc, hk, rfl, f⟩ := updateSystem_inv h1
  exact ⟨p1, ps, hp1, hps, rfl, hc, hk⟩

theorem next_constr {g : Ghost} {w : World K} {ok : Prop} {op : Op K} {i : Nat}
    (h : ∀ p junk, op ≠ .initConstr i p junk ∧ op ≠ .addConstraint i junk) :
    (g.next w ok op).constr i = g.constr i := by
  cases op <;> try rfl
  case initConstr j p junk =>
    exact propext ⟨fun h' => h'.elim id fun h' => absurd (by rw [h'.2]) (h p junk).1, Or.inl⟩
  case addConstraint j junk =>
    exact propext ⟨fun h' => h'.elim id fun h' => absurd (by rw [h'.2]) (h 0 junk).2, Or.inl⟩

theorem hist_builtC {w : World K} {g : Ghost} (h : Hist d dmax (EO E C Q) w g) :
    ∀ i, BuiltC d E (∃ q, HasSystem w q) (g.constr i) (w.cons i) := by
  have hps : ∀ {w g}, Hist d dmax (EO E C Q) w g → ∀ p, HasSystem w p → BuiltPs d (w.pss p) := fun h => hist_builtPs h
  have main : ∀ (w w' : World K) (g : Ghost) (op : Op K) (ok : Prop), Hist d dmax (EO E C Q) w g →
      (∀ i, BuiltC d E (∃ q, HasSystem w q) (g.constr i) (w.cons i)) → OpOk d w g op → EO E C Q w op →
      Hist d dmax (EO E C Q) w' (g.next w ok op) →
      ((ok ∧ w.step dmax op = .ok w') ∨ (¬ ok ∧ ∃ e, w.step dmax op = .thrown e w')) →
      ∀ i, BuiltC d E (∃ q, HasSystem w' q) ((g.next w ok op).constr i) (w'.cons i) := by
    intro w w' g op ok hh ih ho he hh' hst i
    have hS : Steps dmax w op w' := by
      rcases hst with h | h
      · exact Or.inl h.2
      · exact Or.inr h.2
    have hsys : (∃ q, HasSystem w q) → ∃ q, HasSystem w' q := fun ⟨q, hq⟩ => ⟨q, (hh.good.stepSys ho hS).1 q hq⟩
    have ihi := (ih i).mono hsys
    have accept : ∀ {p junk c}, HasSystem w p → (w.cons i).initializeConstraint junk (w.pss p) = .ok c →
        BuiltC d E (∃ q, HasSystem w' q) True c := fun hp hi => .init ihi (hsys ⟨_, hp⟩) (hps hh _ hp) hi
    by_cases hop : ∀ p junk, op ≠ .initConstr i p junk ∧ op ≠ .addConstraint i junk
    · rw [next_constr hop]
      cases hS.constrChange i with
      | same e => rw [e]; exact ihi
      | span junk e hsp =>
        subst e
        exact .span ihi ⟨w, i, rfl, he.1⟩ hsp
      | init p junk e _ =>
        rcases e with e | ⟨e, _⟩
        · exact absurd e (hop p junk).1
        · exact absurd e (hop p junk).2
      | update p e hc =>
        rcases e with rfl | ⟨⟨env, rfl⟩, hp⟩
        · obtain ⟨o1, o2, o3⟩ := ho
          have ew : w'.pss = w.pss := by
            unfold Steps at hS
            simp only [step, Res.map_ok, Res.map_thrown, Res.ofOption_ok] at hS
            rcases hS with ⟨_, _, rfl⟩ | ⟨e, _, h, _⟩
            · rfl
            · exact absurd h Res.ofOption_ne_thrown
          rw [ew] at hc
          have e1 : g.constr i = True := propext ⟨fun _ => trivial, fun _ => o1⟩
          rw [e1] at ihi ⊢
          exact ihi.chain (hsys ⟨p, o2⟩) (hps hh p o2) o3 hc
        · rcases hst with ⟨_, hst⟩ | ⟨_, _, hst⟩
          · simp only [step, Res.ofOption_ok] at hst
            obtain ⟨⟨w1, b, q⟩, hs, rfl⟩ := Option.map_eq_some_iff.1 hst
            obtain ⟨p1, ps, h1, h2, h3, h4, h5⟩ := solve_inv' hs
            by_cases hi : i ∈ w.ctl.spConstr
            · have e1 : g.constr i = True := propext ⟨fun _ => trivial, fun _ => hh.good.subC i hi⟩
              rw [e1] at ihi ⊢
              have b0 := hps hh p1 (hh.good.ctl p1 h1).1
              have sysok := (hh.good.sys p1 (hh.good.ctl p1 h1).1).1
              have : BuiltPs d ps ∧ ps.isUpdated = true := by
                split at h2
                · cases h2; exact ⟨b0, by assumption⟩
                · obtain ⟨s', e, a1, a2, a3, _⟩ := Copra.updateSystem_ok sysok
                  rw [h2] at e; cases e
                  exact ⟨b0.update h2, a3⟩
              exact ihi.chain (hsys ⟨p1, (hh.good.ctl p1 h1).1⟩) this.1 this.2 (updateConstrs_chain h4 i)
            · have e : w1.cons i = w.cons i :=
                updateConstrs_outside (C := (· ∈ w.ctl.spConstr)) hi w.ctl.spConstr (fun _ h => h) h4
              show BuiltC d E _ _ (w1.cons i)
              rw [e]; exact ihi
          · exact absurd hst Res.ofOption_ne_thrown
    · have hop : ∃ p junk, op = .initConstr i p junk ∨ op = .addConstraint i junk := by
        by_contra hne
        refine hop fun p junk => ⟨fun e => hne ⟨p, junk, Or.inl e⟩, fun e => hne ⟨p, junk, Or.inr e⟩⟩
      obtain ⟨p, junk, rfl | rfl⟩ := hop
      · rcases hst with ⟨hok, hst⟩ | ⟨hok, e, hst⟩
        · simp only [step, Res.map_ok] at hst
          obtain ⟨c, hi, rfl⟩ := hst
          have e1 : (g.next w ok (.initConstr i p junk)).constr i = True := propext ⟨fun _ => trivial, fun _ => Or.inr ⟨hok, rfl⟩⟩
          rw [e1]
          simp only [upd_same]
          exact accept ho hi
        · simp only [step, Res.map_thrown] at hst
          obtain ⟨c, hi, rfl⟩ := hst
          have e1 : (g.next w ok (.initConstr i p junk)).constr i = g.constr i :=
            propext ⟨fun h => h.elim id fun h => absurd h.1 hok, Or.inl⟩
          rw [e1]
          simp only [upd_same, Constr.init_thrown hi]
          exact ihi
      · rcases hst with ⟨hok, hst⟩ | ⟨hok, e, hst⟩
        · have e1 : (g.next w ok (.addConstraint i junk)).constr i = True := propext ⟨fun _ => trivial, fun _ => Or.inr ⟨hok, rfl⟩⟩
          rw [e1]
          simp only [step] at hst
          unfold addConstraint at hst
          split at hst
          · cases hst
          · rename_i p hp
            split at hst
            · split at hst <;> cases hst
              rename_i c hc _ l hl
              simp only [upd_same]
              exact accept (hh.good.ctl p hp).1 hc
            · cases hst
            · cases hst
        · have e1 : (g.next w ok (.addConstraint i junk)).constr i = g.constr i :=
            propext ⟨fun h => h.elim id fun h => absurd h.1 hok, Or.inl⟩
          rw [e1]
          simp only [step] at hst
          unfold addConstraint at hst
          split at hst
          · cases hst
          · split at hst
            · split at hst <;> cases hst
            · rename_i x c hc
              cases hst
              simp only [upd_same, Constr.init_thrown hc]
              exact ihi
            · cases hst
  induction h with
  | start h => exact fun i => .fresh (h.2.1 i)
  | ok hh ho he hs ih => exact main _ _ _ _ True hh ih ho he (.ok hh ho he hs) (Or.inl ⟨trivial, hs⟩)
  | thrown hh ho he hs ih => exact main _ _ _ _ False hh ih ho he (.thrown hh ho he hs) (Or.inr ⟨fun h => h, _, hs⟩)

end World
end Copra
