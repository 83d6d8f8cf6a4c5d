import Verif.SpecLife
import Verif.Proofs.Multi

/-! # Every living controller of a program with moves and destructions sees a single-controller history -/

namespace Copra
open Spec

set_option linter.unusedSectionVars false
set_option linter.unusedSimpArgs false

variable {K : Type} [Field K] {n : Nat}

namespace MWorld

/-- Everything controllers hold. -/
def held (w : MWorld K n) : List Nat :=
  (List.finRange n).flatMap fun k =>
    ((w.ctls k).spConstr ++ (w.ctls k).spEqConstr ++ (w.ctls k).spIneqConstr ++ (w.ctls k).spBoundConstr) ++ (w.ctls k).spCost

theorem not_held {w : MWorld K n} {i : Nat} (h : i ∉ w.held) (k : Fin n) : (w.ctls k).refsC i = 0 ∧ (w.ctls k).refsK i = 0 := by
  have : i ∉ ((w.ctls k).spConstr ++ (w.ctls k).spEqConstr ++ (w.ctls k).spIneqConstr ++ (w.ctls k).spBoundConstr) ++
      (w.ctls k).spCost := fun hm => h (List.mem_flatMap.2 ⟨k, List.mem_finRange k, hm⟩)
  rw [List.mem_append, not_or] at this
  exact ⟨LMPC_refsC_zero this.1, List.count_eq_zero_of_not_mem this.2⟩

theorem ext_not_held {w : MWorld K n} {i : Nat} (h : i ∉ w.held) (k : Fin n) :
    (w.view k).extCons i = w.extCons i ∧ (w.view k).extCosts i = w.extCosts i := by
  constructor
  · show w.extCons i + ∑ j, (if j = k then 0 else (w.ctls j).refsC i) = _
    rw [Finset.sum_eq_zero, Nat.add_zero]
    intro j _; split
    · rfl
    · exact (not_held h j).1
  · show w.extCosts i + ∑ j, (if j = k then 0 else (w.ctls j).refsK i) = _
    rw [Finset.sum_eq_zero, Nat.add_zero]
    intro j _; split
    · rfl
    · exact (not_held h j).2

/-- The program as seen from place `k`, with another controller in it. -/
def viewWith (w : MWorld K n) (k : Fin n) (l : LMPC K) : World K := { w.view k with ctl := l }

theorem viewWith_self (w : MWorld K n) (k : Fin n) : w.viewWith k (w.ctls k) = w.view k := rfl

end MWorld

namespace LWorld
open MWorld World
variable {dmax : K} {P : World K → Ghost → Prop} {A : World K → Ghost → Op K → Prop}

/-- Every place carries a history; for a living controller it is that controller's. -/
def Inv (P : World K → Ghost → Prop) (w : LWorld K n) (g : MGhost n) : Prop :=
  ∀ k, ∃ l, P (w.w.viewWith k l) (g.view k) ∧ (w.alive k = true → l = w.w.ctls k)

/-- Two views of states that differ in the controllers' lists only. -/
theorem move_refs (hcl : ∀ u g op ok u', P u g → A u g op → World.Out dmax u op ok u' → P u' (g.next u ok op))
    (hrc : ∀ u g i m, A u g (.refsConstr i m)) (hrk : ∀ u g i m, A u g (.refsCost i m)) {w w' : MWorld K n} {g : Ghost}
    {k k' : Fin n} {l : LMPC K} (e1 : w'.extCons = w.extCons) (e2 : w'.extCosts = w.extCosts)
    {u : World K} (hu : P u g) (hp : u.pss = w'.pss) (hc : u.cons = w'.cons) (hk : u.costs = w'.costs) (hl : u.ctl = l)
    (x1 : u.extCons = (w.view k).extCons) (x2 : u.extCosts = (w.view k).extCosts) :
    P (w'.viewWith k' l) g := by
  have := World.refs (x := (w'.view k').extCons) (y := (w'.view k').extCosts) hcl hrc hrk hu (L := w.held ++ w'.held)
    (fun i hi => by
      rw [List.mem_append, not_or] at hi
      rw [x1, (ext_not_held hi.1 k).1, (ext_not_held hi.2 k').1, e1])
    (fun i hi => by
      rw [List.mem_append, not_or] at hi
      rw [x2, (ext_not_held hi.1 k).2, (ext_not_held hi.2 k').2, e2])
  obtain ⟨a, b, c, x, y, l'⟩ := u
  simp only at hp hc hk hl
  subst hp hc hk hl
  exact this

theorem put_ctl' (w : MWorld K n) (k : Fin n) (v : World K) : (w.put k v).ctls k = v.ctl := if_pos rfl

theorem put_ctls (w : MWorld K n) (j : Fin n) (v : World K) (k : Fin n) :
    (w.put j v).ctls k = if k = j then v.ctl else w.ctls k := rfl

theorem needsNone_cases {op : Op K} (h : NeedsNone op) (hn : NotRefs op) : OnObject op ∨ Creates op = true := by
  cases op <;> first | exact Or.inl trivial | exact Or.inr rfl | exact h.elim | exact hn.elim

theorem onObject_creates {op : Op K} (h : OnObject op) : Creates op = false := by
  cases op <;> first | rfl | exact h.elim

/-- Constructing a controller does not depend on what was in its place. -/
theorem out_creates {u v v' : World K} {op : Op K} {ok : Prop} (hop : Creates op = true) (hh : SameHeap u v)
    (h : World.Out dmax v op ok v') :
    World.Out dmax u op ok { u with ctl := v'.ctl } ∧ v'.pss = v.pss ∧ v'.cons = v.cons ∧ v'.costs = v.costs := by
  obtain ⟨e1, e2, e3⟩ := hh
  obtain ⟨up, uc, uk, ux, uy, ul⟩ := u
  simp only at e1 e2 e3
  subst e1 e2 e3
  unfold World.Out at h ⊢
  cases op <;> (try cases hop) <;>
    (rcases h with ⟨ho, h⟩ | ⟨ho, e, h⟩ <;>
      simp only [World.step, Res.map_ok, Res.map_thrown, Res.ok.injEq, reduceCtorEq] at h <;>
      first
      | (subst h; exact ⟨Or.inl ⟨ho, rfl⟩, rfl, rfl, rfl⟩)
      | (obtain ⟨c, hc, rfl⟩ := h
         refine ⟨?_, rfl, rfl, rfl⟩
         first
         | exact Or.inl ⟨ho, by simp only [World.step, hc, Res.map]⟩
         | exact Or.inr ⟨ho, e, by simp only [World.step, hc, Res.map]⟩))

theorem next_object (g : MGhost n) (w : MWorld K n) (j k : Fin n) (ok : Prop) (u : World K) {op : Op K} (h : OnObject op) :
    (g.next w j ok op).view k = (g.view k).next u ok op := by
  unfold MGhost.next MGhost.put MGhost.view
  cases op <;> first
    | exact h.elim
    | (simp only [Ghost.next]; congr 1; split
       · next e => rw [e]
       · rfl)

theorem next_creates_other (g : MGhost n) (w : MWorld K n) {j k : Fin n} (hk : k ≠ j) (ok : Prop) {op : Op K}
    (h : Creates op = true) : (g.next w j ok op).view k = g.view k := by
  rw [next_view_other g w hk]
  cases op <;> first | rfl | cases h

theorem next_creates_same (g : MGhost n) (w : MWorld K n) {j : Fin n} (ok : Prop) (u : World K) {op : Op K}
    (h : Creates op = true) : (g.next w j ok op).view j = (g.view j).next u ok op := by
  rw [next_view_same g w]
  cases op <;> first | rfl | cases h

/-- A call. -/
theorem inv_call (hcl : ∀ u g op ok u', P u g → A u g op → World.Out dmax u op ok u' → P u' (g.next u ok op))
    (hrc : ∀ u g i m, A u g (.refsConstr i m)) (hrk : ∀ u g i m, A u g (.refsCost i m))
    {w : LWorld K n} {w' : MWorld K n} {g : MGhost n} {j : Fin n} {op : Op K} {ok : Prop} (I : Inv P w g)
    (hal : w.alive j = true ∨ NeedsNone op)
    (hA : A (w.w.view j) (g.view j) op)
    (hobj : ∀ k l, OnObject op → A (w.w.viewWith k l) (g.view k) op)
    (hcr : ∀ l, Creates op = true → A (w.w.viewWith j l) (g.view j) op)
    (hic : w.alive j = true → ∀ k l i p junk, (w.w.ctls j).ps = some p → A (w.w.viewWith k l) (g.view k) (.initConstr i p junk))
    (hik : w.alive j = true → ∀ k l i p junk, (w.w.ctls j).ps = some p → A (w.w.viewWith k l) (g.view k) (.initCost i p junk))
    (hup : w.alive j = true → ∀ k l p, (w.w.ctls j).ps = some p → A (w.w.viewWith k l) (g.view k) (.updatePs p))
    (huc : w.alive j = true → ∀ k l v' env b q, op = .solve env → (w.w.view j).solve env = some (v', b, q) →
      ∀ p cons, (w.w.ctls j).ps = some p → ∀ i ∈ (w.w.ctls j).spConstr,
      A { w.w.viewWith k l with pss := v'.pss, cons := cons } (g.view k) (.updateConstr i p))
    (huk : w.alive j = true → ∀ k l v' env b q, op = .solve env → (w.w.view j).solve env = some (v', b, q) →
      ∀ p costs fr, (w.w.ctls j).ps = some p → ∀ i ∈ (w.w.ctls j).spCost,
      A { w.w.viewWith k l with pss := v'.pss, cons := v'.cons, costs := costs } { g.view k with fresh := fr } (.updateCost i p))
    (h : MWorld.Out dmax w.w j op ok w') :
    Inv P ⟨w', fun i => w.alive i || (decide (i = j) && Creates op)⟩ (g.next w.w j ok op) := by
  by_cases hn : NotRefs op
  · obtain ⟨v, hv, rfl⟩ := out_inv hn h
    by_cases hob : OnObject op
    · intro k
      obtain ⟨l, hl, hk⟩ := I k
      have O := out_object (u := w.w.viewWith k l) (v := w.w.view j) hob ⟨rfl, rfl, rfl⟩ hv
      refine ⟨l, ?_, fun ha => ?_⟩
      · rw [next_object g w.w j k ok (w.w.viewWith k l) hob]
        exact move_refs hcl hrc hrk rfl rfl (hcl _ _ _ _ _ hl (hobj k l hob) O.1) rfl rfl rfl rfl (w := w.w) (k := k) rfl rfl
      · simp only [onObject_creates hob, Bool.and_false, Bool.or_false] at ha
        rw [hk ha]
        show _ = if k = j then v.ctl else w.w.ctls k
        split
        · next e => rw [O.2, e]; rfl
        · rfl
    · by_cases hc : Creates op = true
      · intro k
        obtain ⟨l, hl, hk⟩ := I k
        by_cases e : k = j
        · subst e
          have O := out_creates (u := w.w.viewWith k l) (v := w.w.view k) hc ⟨rfl, rfl, rfl⟩ hv
          refine ⟨v.ctl, ?_, fun _ => (put_ctl' w.w k v).symm⟩
          rw [next_creates_same g w.w ok (w.w.viewWith k l) hc]
          exact move_refs hcl hrc hrk rfl rfl (hcl _ _ _ _ _ hl (hcr l hc) O.1) O.2.1.symm O.2.2.1.symm O.2.2.2.symm rfl
            (w := w.w) (k := k) rfl rfl
        · have O := out_creates (u := w.w.viewWith k l) (v := w.w.view j) hc ⟨rfl, rfl, rfl⟩ hv
          refine ⟨l, ?_, fun ha => ?_⟩
          · rw [next_creates_other g w.w e ok hc]
            exact move_refs hcl hrc hrk rfl rfl hl O.2.1.symm O.2.2.1.symm O.2.2.2.symm rfl (w := w.w) (k := k) rfl rfl
          · simp only [decide_eq_false e, Bool.false_and, Bool.or_false] at ha
            rw [hk ha]
            show _ = if k = j then v.ctl else w.w.ctls k
            rw [if_neg e]
      · have ha : w.alive j = true := hal.resolve_right fun hN => (needsNone_cases hN hn).elim hob hc
        have hc : Creates op = false := by simpa using hc
        intro k
        obtain ⟨l, hl, hk⟩ := I k
        by_cases e : k = j
        · subst e
          have := hk ha
          subst this
          obtain ⟨x1, x2⟩ := out_ext hn hv
          refine ⟨v.ctl, ?_, fun _ => (put_ctl' w.w k v).symm⟩
          rw [next_view_same]
          exact move_refs hcl hrc hrk rfl rfl (hcl _ _ _ _ _ hl hA hv) rfl rfl rfl rfl (w := w.w) (k := k) x1 x2
        · refine ⟨l, ?_, fun ha => ?_⟩
          · rw [next_view_other g w.w e]
            have := World.other (u := w.w.viewWith k l) (v := w.w.view j) (gu := g.view k) (gv := g.view j) hcl hn
              ⟨rfl, rfl, rfl⟩ rfl rfl rfl (hobj k l) (hic ha k l) (hik ha k l) (hup ha k l) (huc ha k l v) (huk ha k l v) hl hv
            exact move_refs hcl hrc hrk rfl rfl this rfl rfl rfl rfl (w := w.w) (k := k) rfl rfl
          · simp only [hc, Bool.and_false, Bool.or_false] at ha
            rw [hk ha]
            show _ = if k = j then v.ctl else w.w.ctls k
            rw [if_neg e]
  · intro k
    obtain ⟨l, hl, hk⟩ := I k
    cases op with
    | refsConstr i m =>
      rcases h with ⟨_, h⟩ | ⟨_, e, h⟩ <;> simp only [MWorld.step, Res.ok.injEq, reduceCtorEq] at h
      subst h
      have e : (g.next w.w j ok (.refsConstr i m)).view k = g.view k := by
        unfold MGhost.next MGhost.put MGhost.view
        simp only [Ghost.next]
        congr 1
        split
        · next e => rw [e]
        · rfl
      rw [e]
      refine ⟨l, ?_, fun ha => hk (by simpa [Creates] using ha)⟩
      refine World.refs hcl hrc hrk hl (L := [i]) ?_ ?_
      · intro t ht
        unfold viewWith view
        simp only
        rw [World.upd_ne _ _ (by simpa using ht)]
      · intro t ht; rfl
    | refsCost i m =>
      rcases h with ⟨_, h⟩ | ⟨_, e, h⟩ <;> simp only [MWorld.step, Res.ok.injEq, reduceCtorEq] at h
      subst h
      have e : (g.next w.w j ok (.refsCost i m)).view k = g.view k := by
        unfold MGhost.next MGhost.put MGhost.view
        simp only [Ghost.next]
        congr 1
        split
        · next e => rw [e]
        · rfl
      rw [e]
      refine ⟨l, ?_, fun ha => hk (by simpa [Creates] using ha)⟩
      refine World.refs hcl hrc hrk hl (L := [i]) ?_ ?_
      · intro t ht; rfl
      · intro t ht
        unfold viewWith view
        simp only
        rw [World.upd_ne _ _ (by simpa using ht)]
    | _ => exact absurd trivial hn

/-- A move. -/
theorem inv_move (hcl : ∀ u g op ok u', P u g → A u g op → World.Out dmax u op ok u' → P u' (g.next u ok op))
    (hrc : ∀ u g i m, A u g (.refsConstr i m)) (hrk : ∀ u g i m, A u g (.refsCost i m))
    {w w' : LWorld K n} {g : MGhost n} {j k : Fin n} {ok : Prop} (I : Inv P w g) (hjk : j ≠ k) (ha : w.alive k = true)
    (h : w.step dmax (.move j k) = .ok w') : Inv P w' (g.lnext w ok (.move j k)) := by
  simp only [step, Res.ok.injEq] at h
  subst h
  intro i
  by_cases e : i = j
  · subst e
    obtain ⟨l, hl, hk⟩ := I k
    refine ⟨l, ?_, fun _ => by show l = if i = i then _ else _; rw [if_pos rfl]; exact hk ha⟩
    have e : (g.lnext w ok (.move i k)).view i = g.view k := by
      simp only [MGhost.lnext, MGhost.view, if_pos]
    rw [e]
    exact move_refs hcl hrc hrk rfl rfl hl rfl rfl rfl rfl (w := w.w) (k := k) rfl rfl
  · obtain ⟨l, hl, hk⟩ := I i
    have e' : (g.lnext w ok (.move j k)).view i = g.view i := by
      simp only [MGhost.lnext, MGhost.view, if_neg e]
    rw [e']
    refine ⟨l, move_refs hcl hrc hrk rfl rfl hl rfl rfl rfl rfl (w := w.w) (k := i) rfl rfl, fun hal => ?_⟩
    simp only [if_neg e] at hal
    split at hal
    · cases hal
    · next e2 => simp only [if_neg e, if_neg e2]; exact hk hal

/-- A destruction. -/
theorem inv_destroy (hcl : ∀ u g op ok u', P u g → A u g op → World.Out dmax u op ok u' → P u' (g.next u ok op))
    (hrc : ∀ u g i m, A u g (.refsConstr i m)) (hrk : ∀ u g i m, A u g (.refsCost i m))
    {w w' : LWorld K n} {g : MGhost n} {k : Fin n} {ok : Prop} (I : Inv P w g)
    (h : w.step dmax (.destroy k) = .ok w') : Inv P w' (g.lnext w ok (.destroy k)) := by
  simp only [step, Res.ok.injEq] at h
  subst h
  intro i
  obtain ⟨l, hl, hk⟩ := I i
  refine ⟨l, move_refs hcl hrc hrk rfl rfl hl rfl rfl rfl rfl (w := w.w) (k := i) rfl rfl, fun hal => ?_⟩
  simp only at hal
  split at hal
  · cases hal
  · next e2 => simp only [if_neg e2]; exact hk hal

end LWorld

namespace LWorld
open MWorld World
variable [LinearOrder K] [IsStrictOrderedRing K] {d : Dims} {dmax : K} {E : World K → Op K → Prop}

/-- The call does not look at the controller. -/
theorem opOk_creates {u v : World K} {gu gv : Ghost} {op : Op K} (hop : Creates op = true) (h : World.SameHeap u v)
    (ho : OpOk d v gv op) : OpOk d u gu op := by
  obtain ⟨e1, _, _⟩ := h
  cases op <;> simp only [OpOk, HasSystem, e1] at ho ⊢ <;> first | exact ho | cases hop

theorem hist_call (hE : AboutCalls E) {w : LWorld K n} {w' : MWorld K n} {g : MGhost n} {j : Fin n} {op : Op K} {ok : Prop}
    (I : Inv (Hist d dmax E) w g) (hal : w.alive j = true ∨ NeedsNone op)
    (ho : OpOk d (w.w.view j) (g.view j) op) (he : E (w.w.view j) op) (h : MWorld.Out dmax w.w j op ok w') :
    Inv (Hist d dmax E) ⟨w', fun i => w.alive i || (decide (i = j) && Creates op)⟩ (g.next w.w j ok op) := by
  have G : w.alive j = true → Good d dmax (w.w.view j) (g.view j) := by
    intro ha
    obtain ⟨l, hl, hk⟩ := I j
    have := hk ha
    subst this
    exact hl.good
  have sys : w.alive j = true → ∀ p, (w.w.ctls j).ps = some p → HasSystem (w.w.view j) p := fun ha p hp => ((G ha).ctl p hp).1
  refine inv_call (A := fun u g op => OpOk d u g op ∧ E u op) hist_closed (fun u _ i m => ⟨trivial, hE.refsConstr u i m⟩)
    (fun u _ i m => ⟨trivial, hE.refsCost u i m⟩) I hal ⟨ho, he⟩
    (fun k l hop => ⟨opOk_object (v := w.w.view j) (gv := g.view j) hop ⟨rfl, rfl, rfl⟩ rfl rfl ho,
      hE.shared (w.w.view j) _ _ hop rfl rfl rfl he⟩)
    (fun l hop => ⟨opOk_creates (v := w.w.view j) (gv := g.view j) hop ⟨rfl, rfl, rfl⟩ ho,
      hE.creates (w.w.view j) _ _ hop rfl rfl rfl he⟩)
    (fun ha k l i p junk hp => ⟨sys ha p hp, hE.initConstr _ _ _ _⟩)
    (fun ha k l i p junk hp => ⟨sys ha p hp, hE.initCost _ _ _ _⟩)
    (fun ha k l p hp => ⟨sys ha p hp, hE.updatePs _ _⟩) ?_ ?_ h
  · rintro ha k l v' env b q rfl hs p cons hp i hi
    have G := G ha
    obtain ⟨p', hp', S⟩ := G.solved ho.2 hs
    have : p' = p := by have := hp'.symm.trans hp; injection this
    subst this
    have st : World.step dmax (w.w.view j) (.solve env) = .ok v' := by
      simp only [World.step, hs, Option.map_some]; rfl
    exact ⟨⟨G.subC i hi, (G.stepSys ho (Or.inl st)).1 p' (sys ha p' hp), S.heap.upd⟩, hE.updateConstr _ _ _⟩
  · rintro ha k l v' env b q rfl hs p costs fr hp i hi
    have G := G ha
    have st : World.step dmax (w.w.view j) (.solve env) = .ok v' := by
      simp only [World.step, hs, Option.map_some]; rfl
    exact ⟨⟨G.subK i hi, (G.stepSys ho (Or.inl st)).1 p (sys ha p hp)⟩, hE.updateCost _ _ _⟩

theorem inv_step (hE : AboutCalls E) {w w' : LWorld K n} {g : MGhost n} {op : LOp K n} {ok : Prop}
    (I : Inv (Hist d dmax E) w g) (ho : LOpOk d w g op) (he : LExtra E w op)
    (h : (ok ∧ w.step dmax op = .ok w') ∨ (¬ ok ∧ ∃ e, w.step dmax op = .thrown e w')) :
    Inv (Hist d dmax E) w' (g.lnext w ok op) := by
  cases op with
  | call k op =>
    have : ∃ v, MWorld.Out dmax w.w k op ok v ∧ w' = ⟨v, fun i => w.alive i || (decide (i = k) && Creates op)⟩ := by
      rcases h with ⟨a, h⟩ | ⟨a, e, h⟩ <;> simp only [step, Res.map_ok, Res.map_thrown] at h <;> obtain ⟨v, hv, rfl⟩ := h
      · exact ⟨v, Or.inl ⟨a, hv⟩, rfl⟩
      · exact ⟨v, Or.inr ⟨a, e, hv⟩, rfl⟩
    obtain ⟨v, hv, rfl⟩ := this
    exact hist_call hE I ho.1 ho.2 he hv
  | move j k =>
    rcases h with ⟨a, h⟩ | ⟨a, e, h⟩
    · exact inv_move (A := fun u g op => OpOk d u g op ∧ E u op) hist_closed (fun u _ i m => ⟨trivial, hE.refsConstr u i m⟩)
        (fun u _ i m => ⟨trivial, hE.refsCost u i m⟩) I ho.1 ho.2.1 h
    · simp only [step, reduceCtorEq] at h
  | destroy k =>
    rcases h with ⟨a, h⟩ | ⟨a, e, h⟩
    · exact inv_destroy (A := fun u g op => OpOk d u g op ∧ E u op) hist_closed (fun u _ i m => ⟨trivial, hE.refsConstr u i m⟩)
        (fun u _ i m => ⟨trivial, hE.refsCost u i m⟩) I h
    · simp only [step, reduceCtorEq] at h

theorem _root_.Copra.Spec.LHist.inv (hE : AboutCalls E) {w : LWorld K n} {g : MGhost n} (h : LHist d dmax E w g) :
    Inv (Hist d dmax E) w g := by
  induction h with
  | start h =>
    intro k
    rcases h.2.2.2 k with ⟨_, b, s, e⟩ | ⟨ha, e⟩
    · exact ⟨_, Hist.start ⟨h.1, h.2.1, h.2.2.1, b, s, e⟩, fun _ => rfl⟩
    · refine ⟨LMPC.construct false ⟨.qld, Vec.zero 0⟩, Hist.start ⟨h.1, h.2.1, h.2.2.1, _, _, rfl⟩, fun ha' => ?_⟩
      rw [ha] at ha'; cases ha'
  | ok _ ho he hs ih => exact inv_step hE ih ho he (Or.inl ⟨trivial, hs⟩)
  | thrown _ ho he hs ih => exact inv_step hE ih ho he (Or.inr ⟨id, _, hs⟩)

/-- For each living controller, what the program did is a history of a program with that controller only. -/
theorem _root_.Copra.Spec.LHist.view (hE : AboutCalls E) {w : LWorld K n} {g : MGhost n} (h : LHist d dmax E w g)
    {k : Fin n} (ha : w.alive k = true) : Hist d dmax E (w.w.view k) (g.view k) := by
  obtain ⟨l, hl, hk⟩ := h.inv hE k
  have := hk ha
  subst this
  exact hl

/-- Places without a living controller hold nothing. -/
theorem _root_.Copra.Spec.LHist.dead {w : LWorld K n} {g : MGhost n} (h : LHist d dmax E w g) :
    ∀ k, w.alive k = false → w.w.ctls k = (w.w.ctls k).movedFrom := by
  have key : ∀ {w w' : LWorld K n} {g : MGhost n} {op : LOp K n}, LOpOk d w g op →
      (∀ k, w.alive k = false → w.w.ctls k = (w.w.ctls k).movedFrom) →
      (w.step dmax op = .ok w' ∨ ∃ e, w.step dmax op = .thrown e w') →
      ∀ k, w'.alive k = false → w'.w.ctls k = (w'.w.ctls k).movedFrom := by
    intro w w' g op ho ih hs k hk
    cases op with
    | call j op =>
      have : ∃ v, MWorld.Out dmax w.w j op (w.step dmax (.call j op) = .ok w') v ∧
          w' = ⟨v, fun i => w.alive i || (decide (i = j) && Creates op)⟩ := by
        by_cases hok : w.step dmax (.call j op) = .ok w'
        · have h := hok
          simp only [step, Res.map_ok] at h
          obtain ⟨v, hv, e⟩ := h
          exact ⟨v, Or.inl ⟨hok, hv⟩, e.symm⟩
        · obtain ⟨e, h⟩ := hs.resolve_left hok
          simp only [step, Res.map_thrown] at h
          obtain ⟨v, hv, e'⟩ := h
          exact ⟨v, Or.inr ⟨hok, e, hv⟩, e'.symm⟩
      obtain ⟨v, hv, rfl⟩ := this
      simp only [Bool.or_eq_false_iff] at hk
      have hkk := ih k hk.1
      have same : v.ctls k = w.w.ctls k := by
        by_cases hn : NotRefs op
        · obtain ⟨x, hx, rfl⟩ := out_inv hn hv
          show (if k = j then x.ctl else w.w.ctls k) = _
          split
          · next e =>
            subst e
            have hN : NeedsNone op := ho.1.resolve_left (by rw [hk.1]; simp)
            rcases needsNone_cases hN hn with hob | hc
            · exact (out_object (u := w.w.view k) hob ⟨rfl, rfl, rfl⟩ hx).2
            · simp [hc] at hk
          · rfl
        · cases op with
          | refsConstr i m =>
            rcases hv with ⟨_, h⟩ | ⟨_, e, h⟩ <;> simp only [MWorld.step, Res.ok.injEq, reduceCtorEq] at h
            subst h; rfl
          | refsCost i m =>
            rcases hv with ⟨_, h⟩ | ⟨_, e, h⟩ <;> simp only [MWorld.step, Res.ok.injEq, reduceCtorEq] at h
            subst h; rfl
          | _ => exact absurd trivial hn
      show v.ctls k = (v.ctls k).movedFrom
      rw [same]; exact hkk
    | move j i =>
      simp only [step, Res.ok.injEq, reduceCtorEq, exists_false, or_false] at hs
      subst hs
      simp only at hk ⊢
      split at hk
      · cases hk
      · next e =>
        simp only [if_neg e]
        split
        · rfl
        · next e2 => rw [if_neg e2] at hk; exact ih k hk
    | destroy i =>
      simp only [step, Res.ok.injEq, reduceCtorEq, exists_false, or_false] at hs
      subst hs
      simp only at hk ⊢
      split
      · rfl
      · next e2 => rw [if_neg e2] at hk; exact ih k hk
  induction h with
  | start h =>
    intro k hk
    rcases h.2.2.2 k with ⟨ha, _⟩ | ⟨_, e⟩
    · rw [ha] at hk; cases hk
    · exact e
  | ok _ ho _ hs ih => exact key ho ih (Or.inl hs)
  | thrown _ ho _ hs ih => exact key ho ih (Or.inr ⟨_, hs⟩)

end LWorld
end Copra
