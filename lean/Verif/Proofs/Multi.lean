import Verif.SpecMulti
import Verif.Proofs.Compat
import Verif.Props.Registry

/-! # Every controller of a program with several controllers sees a single-controller history -/

namespace Copra
open Spec

set_option linter.unusedSectionVars false
set_option linter.unusedSimpArgs false

variable {K : Type} [Field K]

namespace World

/-- The outcome of a call. -/
def Out (dmax : K) (w : World K) (op : Op K) (ok : Prop) (w' : World K) : Prop :=
  (ok ∧ w.step dmax op = .ok w') ∨ (¬ ok ∧ ∃ e, w.step dmax op = .thrown e w')

/-- `u` with the shared objects of `v`. -/
def withHeap (u v : World K) : World K := { u with pss := v.pss, cons := v.cons, costs := v.costs }

/-- The same shared objects. -/
def SameHeap (u v : World K) : Prop := u.pss = v.pss ∧ u.cons = v.cons ∧ u.costs = v.costs

/-- A call that is not about reference counts. -/
def NotRefs : Op K → Prop
  | .refsConstr _ _ | .refsCost _ _ => False
  | _ => True

theorem solve_withHeap {env : SolveEnv K} {w w' : World K} {b : Bool} {q : QP K} (h : w.solve env = some (w', b, q)) :
    ∃ p ps, w.ctl.ps = some p ∧
      (if (w.pss p).isUpdated then some (w.pss p) else (w.pss p).updateSystem) = some ps ∧
      w'.pss = upd w.pss p ps ∧
      w.ctl.spConstr.foldlM (updateConstr ps) w.cons = some w'.cons ∧
      w.ctl.spCost.foldlM (updateCost ps) w.costs = some w'.costs ∧
      w'.extCons = w.extCons ∧ w'.extCosts = w.extCosts := by
  obtain ⟨w1, p', l, s, l', h1, _, _, _, _, _, _, rfl⟩ := solve_inv h
  obtain ⟨p, ps, l1, l2, cons, costs, hp, hps, _, _, hc, hk, rfl, _⟩ := updateSystem_inv h1
  exact ⟨p, ps, hp, hps, rfl, hc, hk, rfl, rfl⟩

theorem clearConstraints_heap {dmax : K} {w w' : World K} (h : w.clearConstraints dmax = some w') :
    w'.pss = w.pss ∧ w'.cons = w.cons ∧ w'.costs = w.costs ∧ w'.extCons = w.extCons ∧ w'.extCosts = w.extCosts := by
  unfold clearConstraints at h
  simp only [Option.bind_eq_bind, Option.bind_eq_some_iff, Option.pure_def, Option.some.injEq] at h
  obtain ⟨_, _, _, _, rfl⟩ := h
  exact ⟨rfl, rfl, rfl, rfl, rfl⟩

theorem addCost_inv {junk : Junk K} {w : World K} {i : Nat} {ok : Prop} {w' : World K} {dmax : K}
    (h : Out dmax w (.addCost i junk) ok w') :
    ∃ p c, w.ctl.ps = some p ∧
      ((ok ∧ (w.costs i).initializeCost junk (w.pss p) = .ok c) ∨
        (¬ ok ∧ ∃ e, (w.costs i).initializeCost junk (w.pss p) = .thrown e c)) ∧
      w'.pss = w.pss ∧ w'.cons = w.cons ∧ w'.costs = upd w.costs i c ∧ w'.extCons = w.extCons ∧
      w'.extCosts = w.extCosts := by
  unfold Out at h
  simp only [step] at h
  unfold addCost at h
  cases hp : w.ctl.ps with
  | none => rw [hp] at h; simp at h
  | some p =>
    rw [hp] at h
    simp only at h
    cases hi : (w.costs i).initializeCost junk (w.pss p) with
    | ok c =>
      rw [hi] at h; simp only [Res.ok.injEq, reduceCtorEq, exists_false, and_false, or_false] at h
      obtain ⟨ho, rfl⟩ := h
      exact ⟨p, c, rfl, Or.inl ⟨ho, hi⟩, rfl, rfl, rfl, rfl, rfl⟩
    | thrown e c =>
      rw [hi] at h; simp only [Res.thrown.injEq, reduceCtorEq, and_false, false_or] at h
      obtain ⟨ho, e', rfl, rfl⟩ := h
      exact ⟨p, c, rfl, Or.inr ⟨ho, e, hi⟩, rfl, rfl, rfl, rfl, rfl⟩
    | ub => rw [hi] at h; simp at h

theorem addConstraint_inv {junk : Junk K} {w : World K} {i : Nat} {ok : Prop} {w' : World K} {dmax : K}
    (h : Out dmax w (.addConstraint i junk) ok w') :
    ∃ p c, w.ctl.ps = some p ∧
      ((ok ∧ (w.cons i).initializeConstraint junk (w.pss p) = .ok c) ∨
        (¬ ok ∧ ∃ e, (w.cons i).initializeConstraint junk (w.pss p) = .thrown e c)) ∧
      w'.pss = w.pss ∧ w'.costs = w.costs ∧ w'.cons = upd w.cons i c ∧ w'.extCons = w.extCons ∧
      w'.extCosts = w.extCosts := by
  unfold Out at h
  simp only [step] at h
  unfold addConstraint at h
  cases hp : w.ctl.ps with
  | none => rw [hp] at h; simp at h
  | some p =>
    rw [hp] at h
    simp only at h
    cases hi : (w.cons i).initializeConstraint junk (w.pss p) with
    | ok c =>
      rw [hi] at h; simp only at h
      cases hl : w.ctl.addConstraintByType i c with
      | none => rw [hl] at h; simp at h
      | some l =>
        rw [hl] at h; simp only [Res.ok.injEq, reduceCtorEq, exists_false, and_false, or_false] at h
        obtain ⟨ho, rfl⟩ := h
        exact ⟨p, c, rfl, Or.inl ⟨ho, hi⟩, rfl, rfl, rfl, rfl, rfl⟩
    | thrown e c =>
      rw [hi] at h; simp only [Res.thrown.injEq, reduceCtorEq, and_false, false_or] at h
      obtain ⟨ho, e', rfl, rfl⟩ := h
      exact ⟨p, c, rfl, Or.inr ⟨ho, e, hi⟩, rfl, rfl, rfl, rfl, rfl⟩
    | ub => rw [hi] at h; simp at h

theorem solve_out {env : SolveEnv K} {w : World K} {ok : Prop} {w' : World K} {dmax : K}
    (h : Out dmax w (.solve env) ok w') : ok ∧ ∃ b q, w.solve env = some (w', b, q) := by
  rcases h with ⟨ho, h⟩ | ⟨_, e, h⟩ <;> simp only [step, Res.ofOption_ok] at h
  · simp only [Option.map_eq_some_iff] at h
    obtain ⟨⟨w2, b, q⟩, h, rfl⟩ := h
    exact ⟨ho, b, q, h⟩
  · exact absurd h Res.ofOption_ne_thrown

/-- Calls that are not about reference counts do not change what the client holds. -/
theorem out_ext {dmax : K} {w w' : World K} {op : Op K} {ok : Prop} (hn : NotRefs op) (h : Out dmax w op ok w') :
    w'.extCons = w.extCons ∧ w'.extCosts = w.extCosts := by
  cases op with
  | refsConstr => exact hn.elim
  | refsCost => exact hn.elim
  | addCost i junk => obtain ⟨_, _, _, _, _, _, _, a, b⟩ := addCost_inv h; exact ⟨a, b⟩
  | addConstraint i junk => obtain ⟨_, _, _, _, _, _, _, a, b⟩ := addConstraint_inv h; exact ⟨a, b⟩
  | solve env =>
    obtain ⟨_, b, q, h⟩ := solve_out h
    obtain ⟨_, _, _, _, _, _, _, a, b⟩ := solve_withHeap h
    exact ⟨a, b⟩
  | clearConstraints =>
    rcases h with ⟨_, h⟩ | ⟨_, e, h⟩ <;> simp only [step, Res.ofOption_ok] at h
    · obtain ⟨_, _, _, a, b⟩ := clearConstraints_heap h; exact ⟨a, b⟩
    · exact absurd h Res.ofOption_ne_thrown
  | _ =>
    rcases h with ⟨_, h⟩ | ⟨_, e, h⟩ <;>
      simp only [step, Res.map_ok, Res.map_thrown, Res.ok.injEq, reduceCtorEq] at h <;>
      first
      | (obtain ⟨_, _, rfl⟩ := h; exact ⟨rfl, rfl⟩)
      | (subst h; exact ⟨rfl, rfl⟩)

/-- Calls on an object do the same whichever controller is looked at. -/
theorem out_object {dmax : K} {u v v' : World K} {op : Op K} {ok : Prop} (hop : OnObject op) (hh : SameHeap u v)
    (h : Out dmax v op ok v') : Out dmax u op ok (withHeap u v') ∧ v'.ctl = v.ctl := by
  obtain ⟨e1, e2, e3⟩ := hh
  obtain ⟨up, uc, uk, ux, uy, ul⟩ := u
  simp only at e1 e2 e3
  subst e1 e2 e3
  unfold Out at h ⊢
  cases op <;> (try exact hop.elim) <;>
    (rcases h with ⟨ho, h⟩ | ⟨ho, e, h⟩ <;>
      simp only [step, Res.map_ok, Res.map_thrown, Res.ok.injEq, reduceCtorEq] at h <;>
      first
      | (subst h; exact ⟨Or.inl ⟨ho, rfl⟩, rfl⟩)
      | (obtain ⟨c, hc, rfl⟩ := h
         refine ⟨?_, rfl⟩
         first
         | exact Or.inl ⟨ho, by simp only [step, hc, Res.map]; rfl⟩
         | exact Or.inr ⟨ho, e, by simp only [step, hc, Res.map]; rfl⟩))

section other
variable {dmax : K} {P : World K → Ghost → Prop} {A : World K → Ghost → Op K → Prop}

theorem upd_self' {α : Type} (h : Nat → α) (i : Nat) : upd h i (h i) = h := by
  funext j; unfold upd; split
  · next e => rw [e]
  · rfl

theorem fold_constr (hcl : ∀ u g op ok u', P u g → A u g op → Out dmax u op ok u' → P u' (g.next u ok op))
    {u : World K} {g : Ghost} {p : Nat} :
    ∀ (L : List Nat) (cons cons' : Nat → Constr K),
      (∀ cons, ∀ i ∈ L, A { u with cons := cons } g (.updateConstr i p)) →
      L.foldlM (updateConstr (u.pss p)) cons = some cons' → P { u with cons := cons } g → P { u with cons := cons' } g := by
  intro L
  induction L with
  | nil => intro cons cons' _ h hP; simp only [List.foldlM_nil, Option.pure_def, Option.some.injEq] at h; subst h; exact hP
  | cons i L ih =>
    intro cons cons' hA h hP
    simp only [List.foldlM_cons, Option.bind_eq_bind, Option.bind_eq_some_iff] at h
    obtain ⟨c1, h1, h2⟩ := h
    refine ih c1 cons' (fun c j hj => hA c j (List.mem_cons_of_mem _ hj)) h2 ?_
    unfold updateConstr at h1
    simp only [Option.bind_eq_bind, Option.bind_eq_some_iff, Option.pure_def, Option.some.injEq] at h1
    obtain ⟨c, hc, rfl⟩ := h1
    exact hcl _ _ (.updateConstr i p) True _ hP (hA cons i List.mem_cons_self)
      (Or.inl ⟨trivial, by simp only [step, hc, Res.ofOption, Res.map]⟩)

theorem fold_cost (hcl : ∀ u g op ok u', P u g → A u g op → Out dmax u op ok u' → P u' (g.next u ok op))
    {u : World K} {g : Ghost} {p : Nat} :
    ∀ (L : List Nat) (costs costs' : Nat → Cost K) (fr : Nat → Prop),
      (∀ costs fr, ∀ i ∈ L, A { u with costs := costs } { g with fresh := fr } (.updateCost i p)) →
      L.foldlM (updateCost (u.pss p)) costs = some costs' → P { u with costs := costs } { g with fresh := fr } →
      P { u with costs := costs' } { g with fresh := fun j => fr j ∧ j ∉ L } := by
  intro L
  induction L with
  | nil =>
    intro cons cons' fr _ h hP; simp only [List.foldlM_nil, Option.pure_def, Option.some.injEq] at h; subst h
    simpa using hP
  | cons i L ih =>
    intro costs costs' fr hA h hP
    simp only [List.foldlM_cons, Option.bind_eq_bind, Option.bind_eq_some_iff] at h
    obtain ⟨c1, h1, h2⟩ := h
    unfold updateCost at h1
    simp only [Option.bind_eq_bind, Option.bind_eq_some_iff, Option.pure_def, Option.some.injEq] at h1
    obtain ⟨c, hc, rfl⟩ := h1
    have := ih _ costs' (fun j => fr j ∧ j ≠ i) (fun c f j hj => hA c f j (List.mem_cons_of_mem _ hj)) h2
      (hcl _ _ (.updateCost i p) True _ hP (hA costs fr i List.mem_cons_self)
        (Or.inl ⟨trivial, by simp only [step, hc, Res.ofOption, Res.map]⟩))
    simpa [List.mem_cons, not_or, and_assoc] using this

/-- What a call on another controller amounts to. -/
theorem other (hcl : ∀ u g op ok u', P u g → A u g op → Out dmax u op ok u' → P u' (g.next u ok op))
    {u v v' : World K} {gu gv : Ghost} {op : Op K} {ok : Prop} (hn : NotRefs op) (hh : SameHeap u v)
    (g1 : gu.constr = gv.constr) (g2 : gu.cost = gv.cost) (g3 : gu.fresh = gv.fresh)
    (hobj : OnObject op → A u gu op)
    (hic : ∀ i p junk, v.ctl.ps = some p → A u gu (.initConstr i p junk))
    (hik : ∀ i p junk, v.ctl.ps = some p → A u gu (.initCost i p junk))
    (hup : ∀ p, v.ctl.ps = some p → A u gu (.updatePs p))
    (huc : ∀ env b q, op = .solve env → v.solve env = some (v', b, q) → ∀ p cons, v.ctl.ps = some p → ∀ i ∈ v.ctl.spConstr,
      A { u with pss := v'.pss, cons := cons } gu (.updateConstr i p))
    (huk : ∀ env b q, op = .solve env → v.solve env = some (v', b, q) → ∀ p costs fr, v.ctl.ps = some p → ∀ i ∈ v.ctl.spCost,
      A { u with pss := v'.pss, cons := v'.cons, costs := costs } { gu with fresh := fr } (.updateCost i p))
    (hP : P u gu) (h : Out dmax v op ok v') :
    P (withHeap u v') ⟨(gv.next v ok op).constr, (gv.next v ok op).cost, (gv.next v ok op).fresh, gu.clean⟩ := by
  have same : v'.pss = v.pss → v'.cons = v.cons → v'.costs = v.costs → withHeap u v' = u := by
    obtain ⟨e1, e2, e3⟩ := hh
    intro a b c
    unfold withHeap
    rw [a, b, c, ← e1, ← e2, ← e3]
  have stay : (gv.next v ok op).constr = gv.constr → (gv.next v ok op).cost = gv.cost →
      (gv.next v ok op).fresh = gv.fresh → v'.pss = v.pss → v'.cons = v.cons → v'.costs = v.costs →
      P (withHeap u v') ⟨(gv.next v ok op).constr, (gv.next v ok op).cost, (gv.next v ok op).fresh, gu.clean⟩ := by
    intro a b c x y z
    rw [a, b, c, same x y z, ← g1, ← g2, ← g3]
    exact hP
  by_cases hop : OnObject op
  · have O := out_object hop hh h
    have := hcl _ _ _ _ _ hP (hobj hop) O.1
    have e : gu.next u ok op = ⟨(gv.next v ok op).constr, (gv.next v ok op).cost, (gv.next v ok op).fresh, gu.clean⟩ := by
      obtain ⟨a, b, c, d⟩ := gu
      obtain ⟨a', b', c', d'⟩ := gv
      simp only at g1 g2 g3
      subst g1 g2 g3
      cases op <;> first | rfl | exact hop.elim
    rw [← e]
    exact this
  cases op with
  | refsConstr => exact hn.elim
  | refsCost => exact hn.elim
  | addCost i junk =>
    obtain ⟨p, c, hp, hc, e1, e2, e3, _⟩ := addCost_inv h
    have := hcl _ _ (.initCost i p junk) ok (withHeap u v') hP (hik i p junk hp) ?_
    · simpa only [Ghost.next, g1, g2, g3] using this
    · obtain ⟨a, b, c'⟩ := hh
      have hw : withHeap u v' = { u with costs := upd u.costs i c } := by
        unfold withHeap; rw [e1, e2, e3, ← a, ← b, ← c']
      rw [hw]
      rcases hc with ⟨ho, hc⟩ | ⟨ho, e, hc⟩
      · exact Or.inl ⟨ho, by simp only [step, a, c', hc, Res.map]⟩
      · exact Or.inr ⟨ho, e, by simp only [step, a, c', hc, Res.map]⟩
  | addConstraint i junk =>
    obtain ⟨p, c, hp, hc, e1, e2, e3, _⟩ := addConstraint_inv h
    have := hcl _ _ (.initConstr i p junk) ok (withHeap u v') hP (hic i p junk hp) ?_
    · simpa only [Ghost.next, g1, g2, g3] using this
    · obtain ⟨a, b, c'⟩ := hh
      have hw : withHeap u v' = { u with cons := upd u.cons i c } := by
        unfold withHeap; rw [e1, e2, e3, ← a, ← b, ← c']
      rw [hw]
      rcases hc with ⟨ho, hc⟩ | ⟨ho, e, hc⟩
      · exact Or.inl ⟨ho, by simp only [step, a, b, hc, Res.map]⟩
      · exact Or.inr ⟨ho, e, by simp only [step, a, b, hc, Res.map]⟩
  | solve env =>
    obtain ⟨ho, b, q, hs⟩ := solve_out h
    obtain ⟨p, ps, hp, hps, e1, e2, e3, _⟩ := solve_withHeap hs
    obtain ⟨a, b', c'⟩ := hh
    have huc := huc env b q rfl hs p
    have huk := huk env b q rfl hs p
    have h1 : P { u with pss := v'.pss } gu := by
      by_cases hu : (v.pss p).isUpdated
      · rw [if_pos hu] at hps
        injection hps with hps
        subst hps
        rw [upd_self'] at e1
        rw [e1, ← a]
        exact hP
      · rw [if_neg hu] at hps
        refine hcl _ _ (.updatePs p) True _ hP (hup p hp) (Or.inl ⟨trivial, ?_⟩)
        simp only [step, a, hps, Res.ofOption, Res.map, e1]
    have hpp : v'.pss p = ps := by rw [e1]; unfold upd; rw [if_pos rfl]
    have h2 : P { u with pss := v'.pss, cons := v'.cons } gu := by
      refine fold_constr (u := { u with pss := v'.pss }) (p := p) hcl _ v.cons v'.cons (fun cons i hi => huc cons hp i hi)
        (by rw [hpp]; exact e2) ?_
      have : ({ u with pss := v'.pss, cons := v.cons } : World K) = { u with pss := v'.pss } := by rw [← b']
      rw [this]; exact h1
    have h3 := fold_cost (u := { u with pss := v'.pss, cons := v'.cons }) (p := p) (g := gu) hcl _ v.costs v'.costs gu.fresh
      (fun costs fr i hi => huk costs fr hp i hi) (by rw [hpp]; exact e3) (by
        have : ({ u with pss := v'.pss, cons := v'.cons, costs := v.costs } : World K)
          = { u with pss := v'.pss, cons := v'.cons } := by rw [← c']
        rw [this]; exact h2)
    simpa only [Ghost.next, g1, g2, g3, withHeap] using h3
  | clearConstraints =>
    rcases h with ⟨_, h⟩ | ⟨_, e, h⟩ <;> simp only [step, Res.ofOption_ok] at h
    · obtain ⟨a, b, c, _⟩ := clearConstraints_heap h
      exact stay rfl rfl rfl a b c
    · exact absurd h Res.ofOption_ne_thrown
  | construct b s =>
    rcases h with ⟨_, h⟩ | ⟨_, e, h⟩ <;> simp only [step, Res.ok.injEq, reduceCtorEq] at h
    subst h; exact stay rfl rfl rfl rfl rfl rfl
  | constructPs b s p junk =>
    rcases h with ⟨_, h⟩ | ⟨_, e, h⟩ <;> simp only [step, Res.map_ok, Res.map_thrown, Res.ok.injEq, reduceCtorEq] at h <;>
    obtain ⟨_, _, rfl⟩ := h <;> exact stay rfl rfl rfl rfl rfl rfl
  | useSolver s =>
    rcases h with ⟨_, h⟩ | ⟨_, e, h⟩ <;> simp only [step, Res.ok.injEq, reduceCtorEq] at h
    subst h; exact stay rfl rfl rfl rfl rfl rfl
  | initializeController p junk =>
    rcases h with ⟨_, h⟩ | ⟨_, e, h⟩ <;> simp only [step, Res.map_ok, Res.map_thrown, Res.ok.injEq, reduceCtorEq] at h <;>
    obtain ⟨_, _, rfl⟩ := h <;> exact stay rfl rfl rfl rfl rfl rfl
  | removeCost i =>
    rcases h with ⟨_, h⟩ | ⟨_, e, h⟩ <;> simp only [step, Res.ok.injEq, reduceCtorEq] at h
    subst h; exact stay rfl rfl rfl rfl rfl rfl
  | removeConstraint i =>
    rcases h with ⟨_, h⟩ | ⟨_, e, h⟩ <;> simp only [step, Res.map_ok, Res.map_thrown, Res.ok.injEq, reduceCtorEq] at h <;>
    obtain ⟨_, _, rfl⟩ := h <;> exact stay rfl rfl rfl rfl rfl rfl
  | clearCosts =>
    rcases h with ⟨_, h⟩ | ⟨_, e, h⟩ <;> simp only [step, Res.ok.injEq, reduceCtorEq] at h
    subst h; exact stay rfl rfl rfl rfl rfl rfl
  | resetInitialStateCost R r =>
    rcases h with ⟨_, h⟩ | ⟨_, e, h⟩ <;> simp only [step, Res.ok.injEq, reduceCtorEq] at h
    subst h; exact stay rfl rfl rfl rfl rfl rfl
  | resetInitialStateBounds R r =>
    rcases h with ⟨_, h⟩ | ⟨_, e, h⟩ <;> simp only [step, Res.ok.injEq, reduceCtorEq] at h
    subst h; exact stay rfl rfl rfl rfl rfl rfl
  | _ => exact absurd trivial hop

/-- Changing finitely many reference counts. -/
theorem refs (hcl : ∀ u g op ok u', P u g → A u g op → Out dmax u op ok u' → P u' (g.next u ok op))
    (hc : ∀ u g i m, A u g (.refsConstr i m)) (hk : ∀ u g i m, A u g (.refsCost i m)) {u : World K} {g : Ghost}
    (hP : P u g) {L : List Nat} {x y : Nat → Nat} (hx : ∀ i ∉ L, x i = u.extCons i) (hy : ∀ i ∉ L, y i = u.extCosts i) :
    P { u with extCons := x, extCosts := y } g := by
  have e1 : ∀ (L : List Nat) (u : World K), P u g → (∀ i ∉ L, x i = u.extCons i) → P { u with extCons := x } g := by
    intro L
    induction L with
    | nil =>
      intro u hP hx
      have : x = u.extCons := funext fun i => hx i List.not_mem_nil
      rw [this]; exact hP
    | cons i L ih =>
      intro u hP hx
      refine ih { u with extCons := upd u.extCons i (x i) }
        (hcl _ _ (.refsConstr i (x i)) True _ hP (hc _ _ _ _) (Or.inl ⟨trivial, rfl⟩)) ?_
      intro j hj
      show x j = upd u.extCons i (x i) j
      unfold upd
      split
      · next e => rw [e]
      · next e => exact hx j (by simp [e, hj])
  have e2 : ∀ (L : List Nat) (u : World K), P u g → (∀ i ∉ L, y i = u.extCosts i) → P { u with extCosts := y } g := by
    intro L
    induction L with
    | nil =>
      intro u hP hx
      have : y = u.extCosts := funext fun i => hx i List.not_mem_nil
      rw [this]; exact hP
    | cons i L ih =>
      intro u hP hx
      refine ih { u with extCosts := upd u.extCosts i (y i) }
        (hcl _ _ (.refsCost i (y i)) True _ hP (hk _ _ _ _) (Or.inl ⟨trivial, rfl⟩)) ?_
      intro j hj
      show y j = upd u.extCosts i (y i) j
      unfold upd
      split
      · next e => rw [e]
      · next e => exact hx j (by simp [e, hj])
  exact e2 L _ (e1 L u hP hx) hy

end other
end World

namespace MWorld
variable {n : Nat} {dmax : K} {P : World K → Ghost → Prop} {A : World K → Ghost → Op K → Prop}

theorem LMPC_refsC_zero {l : LMPC K} {i : Nat}
    (h : i ∉ l.spConstr ++ l.spEqConstr ++ l.spIneqConstr ++ l.spBoundConstr) : l.refsC i = 0 := by
  simp only [List.mem_append, not_or] at h
  unfold LMPC.refsC
  rw [List.count_eq_zero_of_not_mem h.1.1.1, List.count_eq_zero_of_not_mem h.1.1.2, List.count_eq_zero_of_not_mem h.1.2,
    List.count_eq_zero_of_not_mem h.2]

/-- The view of controller `k` after a call on itself. -/
theorem view_put_same (w : MWorld K n) (k : Fin n) {v : World K} (h1 : v.extCons = (w.view k).extCons)
    (h2 : v.extCosts = (w.view k).extCosts) : (w.put k v).view k = v := by
  obtain ⟨a, b, c, x, y, l⟩ := v
  simp only at h1 h2
  subst h1 h2
  unfold put view
  simp only [if_pos]
  congr 1
  · funext i
    congr 1
    apply Finset.sum_congr rfl
    intro j _
    split
    · rfl
    · rfl
  · funext i
    congr 1
    apply Finset.sum_congr rfl
    intro j _
    split
    · rfl
    · rfl

/-- The view of controller `k` after a call on another one. -/
theorem view_put_other (w : MWorld K n) {j k : Fin n} (hk : k ≠ j) (v : World K) :
    (w.put j v).view k = { (w.view k).withHeap v with
      extCons := ((w.put j v).view k).extCons, extCosts := ((w.put j v).view k).extCosts } := by
  have : (w.put j v).ctls k = w.ctls k := if_neg hk
  unfold view World.withHeap
  simp only [this]
  rfl

theorem next_view_same (g : MGhost n) (w : MWorld K n) (k : Fin n) (ok : Prop) (op : Op K) :
    (g.next w k ok op).view k = (g.view k).next (w.view k) ok op := by
  unfold MGhost.next MGhost.put MGhost.view
  simp only [if_pos]

theorem next_view_other (g : MGhost n) (w : MWorld K n) {j k : Fin n} (hk : k ≠ j) (ok : Prop) (op : Op K) :
    (g.next w j ok op).view k = ⟨((g.view j).next (w.view j) ok op).constr, ((g.view j).next (w.view j) ok op).cost,
      ((g.view j).next (w.view j) ok op).fresh, (g.view k).clean⟩ := by
  unfold MGhost.next MGhost.put MGhost.view
  simp only [if_neg hk]

/-- The outcome of a call. -/
def Out (dmax : K) (w : MWorld K n) (j : Fin n) (op : Op K) (ok : Prop) (w' : MWorld K n) : Prop :=
  (ok ∧ w.step dmax j op = .ok w') ∨ (¬ ok ∧ ∃ e, w.step dmax j op = .thrown e w')

theorem step_notRefs {w : MWorld K n} {j : Fin n} {op : Op K} (h : World.NotRefs op) :
    w.step dmax j op = ((w.view j).step dmax op).map (w.put j) := by
  cases op <;> first | rfl | exact h.elim

theorem out_inv {w w' : MWorld K n} {j : Fin n} {op : Op K} {ok : Prop} (hn : World.NotRefs op)
    (h : Out dmax w j op ok w') : ∃ v, World.Out dmax (w.view j) op ok v ∧ w' = w.put j v := by
  unfold Out at h
  rw [step_notRefs hn] at h
  rcases h with ⟨ho, h⟩ | ⟨ho, e, h⟩
  · obtain ⟨v, hv, rfl⟩ := Res.map_ok.1 h
    exact ⟨v, Or.inl ⟨ho, hv⟩, rfl⟩
  · obtain ⟨v, hv, rfl⟩ := Res.map_thrown.1 h
    exact ⟨v, Or.inr ⟨ho, e, hv⟩, rfl⟩

theorem ext_put_other (w : MWorld K n) {j k : Fin n} (v : World K) :
    ∃ L : List Nat, (∀ i ∉ L, ((w.put j v).view k).extCons i = (w.view k).extCons i) ∧
      ∀ i ∉ L, ((w.put j v).view k).extCosts i = (w.view k).extCosts i := by
  let lc := fun l : LMPC K => l.spConstr ++ l.spEqConstr ++ l.spIneqConstr ++ l.spBoundConstr
  refine ⟨(lc (w.ctls j) ++ lc v.ctl) ++ ((w.ctls j).spCost ++ v.ctl.spCost), fun i hi => ?_, fun i hi => ?_⟩
  · rw [List.mem_append, not_or, List.mem_append, not_or] at hi
    have a := LMPC_refsC_zero hi.1.1
    have b := LMPC_refsC_zero hi.1.2
    unfold view put
    simp only
    congr 1
    apply Finset.sum_congr rfl
    intro t _
    split
    · rfl
    · by_cases e : t = j
      · subst e; rw [if_pos rfl, a, b]
      · rw [if_neg e]
  · rw [List.mem_append, not_or, List.mem_append (s := (w.ctls j).spCost), not_or] at hi
    have a : (w.ctls j).refsK i = 0 := List.count_eq_zero_of_not_mem hi.2.1
    have b : v.ctl.refsK i = 0 := List.count_eq_zero_of_not_mem hi.2.2
    unfold view put
    simp only
    congr 1
    apply Finset.sum_congr rfl
    intro t _
    split
    · rfl
    · by_cases e : t = j
      · subst e; rw [if_pos rfl, a, b]
      · rw [if_neg e]

/-- One call on controller `j`, seen by controller `k`. -/
theorem sim (hcl : ∀ u g op ok u', P u g → A u g op → World.Out dmax u op ok u' → P u' (g.next u ok op))
    (hrc : ∀ u g i m, A u g (.refsConstr i m)) (hrk : ∀ u g i m, A u g (.refsCost i m))
    {w w' : MWorld K n} {g : MGhost n} {j k : Fin n} {op : Op K} {ok : Prop}
    (hA : A (w.view j) (g.view j) op) (hP : P (w.view k) (g.view k))
    (hobj : OnObject op → A (w.view k) (g.view k) op)
    (hic : ∀ i p junk, (w.ctls j).ps = some p → A (w.view k) (g.view k) (.initConstr i p junk))
    (hik : ∀ i p junk, (w.ctls j).ps = some p → A (w.view k) (g.view k) (.initCost i p junk))
    (hup : ∀ p, (w.ctls j).ps = some p → A (w.view k) (g.view k) (.updatePs p))
    (huc : ∀ v' env b q, op = .solve env → (w.view j).solve env = some (v', b, q) →
      ∀ p cons, (w.ctls j).ps = some p → ∀ i ∈ (w.ctls j).spConstr,
      A { w.view k with pss := v'.pss, cons := cons } (g.view k) (.updateConstr i p))
    (huk : ∀ v' env b q, op = .solve env → (w.view j).solve env = some (v', b, q) →
      ∀ p costs fr, (w.ctls j).ps = some p → ∀ i ∈ (w.ctls j).spCost,
      A { w.view k with pss := v'.pss, cons := v'.cons, costs := costs } { g.view k with fresh := fr } (.updateCost i p))
    (h : Out dmax w j op ok w') : P (w'.view k) ((g.next w j ok op).view k) := by
  by_cases hn : World.NotRefs op
  · obtain ⟨v, hv, rfl⟩ := out_inv hn h
    by_cases hk : k = j
    · subst hk
      obtain ⟨x1, x2⟩ := World.out_ext hn hv
      rw [view_put_same w k x1 x2, next_view_same]
      exact hcl _ _ _ _ _ hP hA hv
    · rw [view_put_other w hk v, next_view_other g w hk]
      obtain ⟨L, l1, l2⟩ := ext_put_other (j := j) (k := k) w v
      refine World.refs hcl hrc hrk ?_ (L := L) l1 l2
      refine World.other (v := w.view j) hcl hn ⟨rfl, rfl, rfl⟩ rfl rfl rfl hobj hic hik hup (huc v) (huk v) hP hv
  · cases op with
    | refsConstr i m => 
      rcases h with ⟨_, h⟩ | ⟨_, e, h⟩ <;> simp only [step, Res.ok.injEq, reduceCtorEq] at h
      subst h
      have e : (g.next w j ok (.refsConstr i m)).view k = g.view k := by
        unfold MGhost.next MGhost.put MGhost.view
        simp only [Ghost.next]
        congr 1
        split
        · next e => rw [e]
        · rfl
      rw [e]
      refine World.refs hcl hrc hrk hP (L := [i]) ?_ ?_
      · intro t ht
        unfold view
        simp only
        rw [World.upd_ne _ _ (by simpa using ht)]
      · intro t ht; rfl
    | refsCost i m => 
      rcases h with ⟨_, h⟩ | ⟨_, e, h⟩ <;> simp only [step, Res.ok.injEq, reduceCtorEq] at h
      subst h
      have e : (g.next w j ok (.refsCost i m)).view k = g.view k := by
        unfold MGhost.next MGhost.put MGhost.view
        simp only [Ghost.next]
        congr 1
        split
        · next e => rw [e]
        · rfl
      rw [e]
      refine World.refs hcl hrc hrk hP (L := [i]) ?_ ?_
      · intro t ht; rfl
      · intro t ht
        unfold view
        simp only
        rw [World.upd_ne _ _ (by simpa using ht)]
    | _ => exact absurd trivial hn

end MWorld

namespace MWorld
variable [LinearOrder K] [IsStrictOrderedRing K] {n : Nat} {d : Dims} {dmax : K} {E : World K → Op K → Prop}

theorem hist_closed : ∀ (u : World K) (g : Ghost) (op : Op K) (ok : Prop) (u' : World K), Hist d dmax E u g →
    OpOk d u g op ∧ E u op → World.Out dmax u op ok u' → Hist d dmax E u' (g.next u ok op) := by
  intro u g op ok u' h hA ho
  rcases ho with ⟨ho, hs⟩ | ⟨ho, e, hs⟩
  · rw [eq_true ho]; exact Hist.ok h hA.1 hA.2 hs
  · rw [eq_false ho]; exact Hist.thrown h hA.1 hA.2 hs

theorem opOk_object {u v : World K} {gu gv : Ghost} {op : Op K} (hop : OnObject op) (h : World.SameHeap u v)
    (h1 : gu.constr = gv.constr) (h2 : gu.cost = gv.cost) (ho : OpOk d v gv op) : OpOk d u gu op := by
  obtain ⟨e1, _, _⟩ := h
  cases op <;> simp only [OpOk, HasSystem, e1, h1, h2] at ho ⊢ <;> first | exact ho | exact hop.elim

theorem hist_sim (hE : AboutObjects E) {w w' : MWorld K n} {g : MGhost n} {j : Fin n} {op : Op K} {ok : Prop}
    (ho : OpOk d (w.view j) (g.view j) op) (he : E (w.view j) op)
    (ih : ∀ k, Hist d dmax E (w.view k) (g.view k)) (h : Out dmax w j op ok w') (k : Fin n) :
    Hist d dmax E (w'.view k) ((g.next w j ok op).view k) := by
  have G := (ih j).good
  have sys : ∀ p, (w.ctls j).ps = some p → HasSystem (w.view j) p := fun p hp => (G.ctl p hp).1
  refine sim (A := fun u g op => OpOk d u g op ∧ E u op) (dmax := dmax) hist_closed
    (fun u _ i m => ⟨trivial, hE.refsConstr u i m⟩) (fun u _ i m => ⟨trivial, hE.refsCost u i m⟩) ⟨ho, he⟩ (ih k)
    (fun hop => ⟨opOk_object (v := w.view j) (gv := g.view j) hop ⟨rfl, rfl, rfl⟩ rfl rfl ho,
      hE.shared (w.view j) _ _ hop rfl rfl rfl he⟩)
    (fun i p junk hp => ⟨sys p hp, hE.initConstr _ _ _ _⟩) (fun i p junk hp => ⟨sys p hp, hE.initCost _ _ _ _⟩)
    (fun p hp => ⟨sys p hp, hE.updatePs _ _⟩) ?_ ?_ h
  · rintro v' env b q rfl hs p cons hp i hi
    obtain ⟨p', hp', S⟩ := G.solved ho.2 hs
    have : p' = p := by have := hp'.symm.trans hp; injection this
    subst this
    have st : World.step dmax (w.view j) (.solve env) = .ok v' := by
      simp only [World.step, hs, Option.map_some]; rfl
    exact ⟨⟨G.subC i hi, (G.stepSys ho (Or.inl st)).1 p' (sys p' hp), S.heap.upd⟩, hE.updateConstr _ _ _⟩
  · rintro v' env b q rfl hs p costs fr hp i hi
    have st : World.step dmax (w.view j) (.solve env) = .ok v' := by
      simp only [World.step, hs, Option.map_some]; rfl
    exact ⟨⟨G.subK i hi, (G.stepSys ho (Or.inl st)).1 p (sys p hp)⟩, hE.updateCost _ _ _⟩

/-- What a program with several controllers does is, for each of them, a history of a program with that controller
only, in which the calls on the others appear as direct calls on the objects they share. -/
theorem _root_.Copra.Spec.MHist.view (hE : AboutObjects E) {w : MWorld K n} {g : MGhost n} (h : MHist d dmax E w g) :
    ∀ k, Hist d dmax E (w.view k) (g.view k) := by
  induction h with
  | start h =>
    intro k
    exact Hist.start ⟨h.1, h.2.1, h.2.2.1, h.2.2.2 k⟩
  | ok _ ho he hs ih => exact fun k => hist_sim hE ho he ih (Or.inl ⟨trivial, hs⟩) k
  | thrown _ ho he hs ih => exact fun k => hist_sim hE ho he ih (Or.inr ⟨id, _, hs⟩) k

theorem reachable_closed : ∀ (u : World K) (g : Ghost) (op : Op K) (ok : Prop) (u' : World K), World.Reachable dmax u →
    True → World.Out dmax u op ok u' → World.Reachable dmax u' := by
  intro u g op ok u' h _ ho
  refine World.Reachable.step h (op := op) ?_
  rcases ho with ⟨_, hs⟩ | ⟨_, e, hs⟩
  · exact Or.inl hs
  · exact Or.inr ⟨e, hs⟩

/-- The same without any rule about dimensions. -/
theorem Reachable.view {w : MWorld K n} (h : Reachable dmax w) (k : Fin n) : World.Reachable dmax (w.view k) := by
  have key : ∀ {w w' : MWorld K n} {j : Fin n} {op : Op K} {ok : Prop}, World.Reachable dmax (w.view k) →
      Out dmax w j op ok w' → World.Reachable dmax (w'.view k) := by
    intro w w' j op ok h ho
    exact sim (P := fun u _ => World.Reachable dmax u) (A := fun _ _ _ => True) (g := MGhost.start) reachable_closed
      (fun _ _ _ _ => trivial) (fun _ _ _ _ => trivial) trivial h (fun _ => trivial) (fun _ _ _ _ => trivial)
      (fun _ _ _ _ => trivial) (fun _ _ => trivial) (fun _ _ _ _ _ _ _ _ _ _ _ => trivial)
      (fun _ _ _ _ _ _ _ _ _ _ _ _ => trivial) ho
  induction h with
  | start h => exact ⟨_, [], ⟨h.1, h.2.1, h.2.2.1, h.2.2.2 k⟩, rfl⟩
  | ok _ hs ih => exact key ih (Or.inl ⟨trivial, hs⟩)
  | thrown _ hs ih => exact key ih (Or.inr ⟨id, _, hs⟩)

end MWorld

namespace Spec
variable [LinearOrder K]

theorem aboutObjects_any : AboutObjects (AnyOp (K := K)) := by
  constructor <;> intros <;> trivial

theorem aboutObjects_noBoundSpan : AboutObjects (NoBoundSpan (K := K)) := by
  refine ⟨?_, ?_, ?_, ?_, ?_, ?_, ?_, ?_⟩
  · intro w w' op hop e1 e2 e3 h
    cases op <;> simp only [NoBoundSpan, e2] at h ⊢ <;> exact h
  all_goals intros; trivial

theorem aboutObjects_nonnegWeights : AboutObjects (NonnegWeights (K := K)) := by
  refine ⟨?_, ?_, ?_, ?_, ?_, ?_, ?_, ?_⟩
  · intro w w' op hop e1 e2 e3 h
    cases op <;> exact h
  all_goals intros; trivial

theorem AboutObjects.and {E F : World K → Op K → Prop} (hE : AboutObjects E) (hF : AboutObjects F) :
    AboutObjects fun w op => E w op ∧ F w op :=
  ⟨fun w w' op ho a b c h => ⟨hE.shared w w' op ho a b c h.1, hF.shared w w' op ho a b c h.2⟩,
    fun _ _ => ⟨hE.updatePs _ _, hF.updatePs _ _⟩, fun _ _ _ _ => ⟨hE.initConstr _ _ _ _, hF.initConstr _ _ _ _⟩,
    fun _ _ _ => ⟨hE.updateConstr _ _ _, hF.updateConstr _ _ _⟩, fun _ _ _ _ => ⟨hE.initCost _ _ _ _, hF.initCost _ _ _ _⟩,
    fun _ _ _ => ⟨hE.updateCost _ _ _, hF.updateCost _ _ _⟩, fun _ _ _ => ⟨hE.refsConstr _ _ _, hF.refsConstr _ _ _⟩,
    fun _ _ _ => ⟨hE.refsCost _ _ _, hF.refsCost _ _ _⟩⟩

end Spec
end Copra
