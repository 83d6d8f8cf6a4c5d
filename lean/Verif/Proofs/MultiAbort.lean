import Verif.SpecMultiAbort
import Verif.Proofs.Abort
import Verif.Props.Multi

/-! # An aborted solve of one of several controllers is a failed one that drops nothing (for C106) -/

namespace Copra
open Spec

set_option linter.unusedSectionVars false

variable {K : Type} [Field K] [LinearOrder K] [IsStrictOrderedRing K]

namespace MWorld
variable {n : Nat} {d : Dims} {dmax : K} {E : World K → Op K → Prop} {F : Fin n → Op K → Prop} {w w' : MWorld K n}
  {g g' : MGhost n} {k : Fin n} {env : SolveEnv K} {q : QP K} {a b : Fin n → Option Int}

/-- Set the time measurements. -/
def mclock (a b : Fin n → Option Int) (w : MWorld K n) : MWorld K n :=
  { w with ctls := fun j => (w.ctls j).clock (a j) (b j) }

theorem mclock_self (w : MWorld K n) : mclock (fun j => (w.ctls j).solveTime) (fun j => (w.ctls j).solveAndBuildTime) w = w := rfl

theorem mclock_view (w : MWorld K n) (k : Fin n) : (mclock a b w).view k = World.clock (a k) (b k) (w.view k) := rfl

theorem mclock_put (w : MWorld K n) (k : Fin n) (v : World K) (x y : Option Int) :
    (mclock a b w).put k (World.clock x y v) = mclock (Function.update a k x) (Function.update b k y) (w.put k v) := by
  unfold mclock put
  simp only [MWorld.mk.injEq, true_and]
  refine ⟨rfl, rfl, rfl, ?_⟩
  funext j
  by_cases e : j = k
  · subst e; simp [World.clock]
  · simp [e, Function.update_of_ne]

theorem mclock_out {op : Op K} {ok : Prop} (h : Out dmax w k op ok w') :
    ∃ a' b', Out dmax (mclock a b w) k op ok (mclock a' b' w') := by
  by_cases hn : World.NotRefs op
  · obtain ⟨f, hf, he⟩ := World.clock_step (a := a k) (b := b k) (dmax := dmax) (w := w.view k) (op := op)
    unfold Out at h ⊢
    rw [step_notRefs hn, mclock_view, he]
    rw [step_notRefs hn] at h
    rcases h with ⟨ho, h⟩ | ⟨ho, e, h⟩
    · obtain ⟨v, hv, rfl⟩ := Res.map_ok.1 h
      obtain ⟨x, y, hx⟩ := hf v
      refine ⟨Function.update a k x, Function.update b k y, Or.inl ⟨ho, ?_⟩⟩
      · rw [hv]
        show Res.ok ((mclock a b w).put k (f v)) = _
        rw [hx]
        exact congrArg Res.ok (mclock_put w k v x y)
    · obtain ⟨v, hv, rfl⟩ := Res.map_thrown.1 h
      obtain ⟨x, y, hx⟩ := hf v
      refine ⟨Function.update a k x, Function.update b k y, Or.inr ⟨ho, e, ?_⟩⟩
      · rw [hv]
        show Res.thrown e ((mclock a b w).put k (f v)) = _
        rw [hx]
        exact congrArg (Res.thrown e) (mclock_put w k v x y)
  · refine ⟨a, b, ?_⟩
    cases op with
    | refsConstr i m =>
      rcases h with ⟨ho, h⟩ | ⟨_, e, h⟩ <;> simp only [step, Res.ok.injEq, reduceCtorEq] at h
      subst h
      exact Or.inl ⟨ho, rfl⟩
    | refsCost i m =>
      rcases h with ⟨ho, h⟩ | ⟨_, e, h⟩ <;> simp only [step, Res.ok.injEq, reduceCtorEq] at h
      subst h
      exact Or.inl ⟨ho, rfl⟩
    | _ => exact absurd trivial hn

theorem mclock_next {op : Op K} {P : Prop} : g.next (mclock a b w) k P op = g.next w k P op := by
  unfold MGhost.next
  rw [mclock_view, World.next_clock]

theorem mclock_solveThrow (h : w.solveThrow env k = some (w', q)) :
    (mclock a b w).solveThrow env k = some (mclock a b w', q) := by
  unfold solveThrow at h ⊢
  rw [mclock_view, World.clock_solveThrow]
  simp only [Option.map_eq_some_iff, Prod.mk.injEq] at h
  obtain ⟨⟨v, q'⟩, hv, rfl, rfl⟩ := h
  rw [hv]
  simp only [Option.map_some, Option.some.injEq, Prod.mk.injEq, and_true]
  rw [mclock_put, Function.update_eq_self, Function.update_eq_self]

theorem put_view_self (g : MGhost n) (k : Fin n) : g.put k (g.view k) = g := by
  unfold MGhost.put MGhost.view
  simp only
  congr 1
  funext j
  split
  · next e => rw [e]
  · rfl

theorem next_refs {op : Op K} {P : Prop} (h : ¬ World.NotRefs op) : g.next w k P op = g := by
  cases op with
  | refsConstr i m => exact put_view_self g k
  | refsCost i m => exact put_view_self g k
  | _ => exact absurd trivial h

/-- The client copies or drops `shared_ptr`s. -/
def mrefs (f h : Nat → Nat) (w : MWorld K n) : MWorld K n := { w with extCons := f, extCosts := h }

theorem mlater_refsConstr (hI : IgnoresSolve E) (hF : ∀ op, ¬ OnObject op → F k op) {w0 : MWorld K n} {g0 : MGhost n}
    (f : Nat → Nat) : ∀ (L : List Nat), MLater d dmax E F w0 g0 w g →
    MLater d dmax E F w0 g0 { w with extCons := fun i => if i ∈ L then f i else w.extCons i } g
  | [], h => by simpa using h
  | a :: L, h => by
    have h1 := mlater_refsConstr hI hF f L h
    have h2 := MLater.ok (op := .refsConstr a (f a)) (k := k) h1 trivial (hI.refsConstr _ _ _) (hF _ id) rfl
    rw [next_refs id] at h2
    have e : World.upd (fun i => if i ∈ L then f i else w.extCons i) a (f a) = fun i => if i ∈ a :: L then f i else w.extCons i := by
      funext i
      unfold World.upd
      by_cases hi : i = a
      · simp [hi]
      · simp [hi]
    change MLater d dmax E F w0 g0 { w with extCons := World.upd (fun i => if i ∈ L then f i else w.extCons i) a (f a) } g at h2
    rw [e] at h2
    exact h2

theorem mlater_refsCost (hI : IgnoresSolve E) (hF : ∀ op, ¬ OnObject op → F k op) {w0 : MWorld K n} {g0 : MGhost n}
    (f : Nat → Nat) : ∀ (L : List Nat), MLater d dmax E F w0 g0 w g →
    MLater d dmax E F w0 g0 { w with extCosts := fun i => if i ∈ L then f i else w.extCosts i } g
  | [], h => by simpa using h
  | a :: L, h => by
    have h1 := mlater_refsCost hI hF f L h
    have h2 := MLater.ok (op := .refsCost a (f a)) (k := k) h1 trivial (hI.refsCost _ _ _) (hF _ id) rfl
    rw [next_refs id] at h2
    have e : World.upd (fun i => if i ∈ L then f i else w.extCosts i) a (f a) = fun i => if i ∈ a :: L then f i else w.extCosts i := by
      funext i
      unfold World.upd
      by_cases hi : i = a
      · simp [hi]
      · simp [hi]
    change MLater d dmax E F w0 g0 { w with extCosts := World.upd (fun i => if i ∈ L then f i else w.extCosts i) a (f a) } g at h2
    rw [e] at h2
    exact h2

theorem mlater_refs (hI : IgnoresSolve E) (hF : ∀ op, ¬ OnObject op → F k op) {w0 : MWorld K n} {g0 : MGhost n}
    (C Q : List Nat) (f h : Nat → Nat) (l : MLater d dmax E F w0 g0 w g) :
    MLater d dmax E F w0 g0
      (mrefs (fun i => if i ∈ C then f i else w.extCons i) (fun i => if i ∈ Q then h i else w.extCosts i) w) g :=
  mlater_refsCost hI hF h Q (mlater_refsConstr hI hF f C l)

theorem mrefs_view (f h : Nat → Nat) (w : MWorld K n) (k : Fin n) :
    (mrefs f h w).view k = World.setRefs ((mrefs f h w).view k).extCons ((mrefs f h w).view k).extCosts (w.view k) := rfl

theorem msolveThrow_some (h : w.solveThrow env k = some (w', q)) :
    ∃ v, (w.view k).solveThrow env = some (v, q) ∧ w' = w.put k v := by
  unfold solveThrow at h
  simp only [Option.map_eq_some_iff, Prod.mk.injEq] at h
  obtain ⟨⟨v, q'⟩, hs, rfl, rfl⟩ := h
  exact ⟨v, hs, rfl⟩

/-- The aborted solve is a failed one after the client copied the `shared_ptr`s of the controller. -/
theorem aborted_held (hE : AboutObjects E) (hI : IgnoresSolve E) (h : MHist d dmax E w g)
    (ho : OpOk d (w.view k) (g.view k) (.solve env)) {v : World K} (ht : (w.view k).solveThrow env = some (v, q)) :
    ∃ f h', (∀ i, i ∉ (w.ctls k).spConstr → f i = w.extCons i) ∧ (∀ i, i ∉ (w.ctls k).spCost → h' i = w.extCosts i) ∧
      (∀ {w0 g0}, MLater d dmax E (fun j op => j = k ∧ ¬ OnObject op) w0 g0 w g →
        MLater d dmax E (fun j op => j = k ∧ ¬ OnObject op) w0 g0 (mrefs f h' w) g) ∧
      MHist d dmax E (mrefs f h' w) g ∧ Held ((mrefs f h' w).view k) ∧
      OpOk d ((mrefs f h' w).view k) (g.view k) (.solve (World.failing env)) ∧
      ((mrefs f h' w).view k).solve (World.failing env) =
        some (World.clock (some (env.t2 - env.t1)) (some (env.t3 - env.t0))
          (World.setRefs ((mrefs f h' w).view k).extCons ((mrefs f h' w).view k).extCosts v), false, q) := by
  have l : ∀ {w0 g0}, MLater d dmax E (fun j op => j = k ∧ ¬ OnObject op) w0 g0 w g → _ := fun {w0 g0} l0 =>
    mlater_refs (k := k) hI (fun _ h => ⟨rfl, h⟩) (w.ctls k).spConstr (w.ctls k).spCost (fun _ => 1) (fun _ => 1) l0
  have H := (l .refl).hist h
  have held : Held ((mrefs (fun i => if i ∈ (w.ctls k).spConstr then 1 else w.extCons i)
      (fun i => if i ∈ (w.ctls k).spCost then 1 else w.extCosts i) w).view k) := by
    refine ⟨fun i hi => ?_, fun i hi => ?_⟩
    · change i ∈ (w.ctls k).spConstr at hi
      simp [view, mrefs, hi]
    · change i ∈ (w.ctls k).spCost at hi
      simp [view, mrefs, hi]
  refine ⟨_, _, fun i hi => if_neg hi, fun i hi => if_neg hi, l, H, held, ?_⟩
  have hv := H.view hE k
  rw [mrefs_view] at held hv ⊢
  exact World.aborted_failed_of (w := w.view k) hv held ho ht

/-- An aborted `solve` of one controller is simulated by calls that do not fail in that way, up to the time
measurements. -/
theorem mlater_aborted (hE : AboutObjects E) (hI : IgnoresSolve E) (hF : ∀ op, ¬ OnObject op → F k op) (h : MHist d dmax E w g)
    (ho : OpOk d (w.view k) (g.view k) (.solve env)) (ht : w.solveThrow env k = some (w', q)) {w0 : MWorld K n}
    {g0 : MGhost n} (l : MLater d dmax E F w0 g0 w g) :
    ∃ a b, MLater d dmax E F w0 g0 (mclock a b w') (g.next w k True (.solve env)) := by
  obtain ⟨v, hv, rfl⟩ := msolveThrow_some ht
  obtain ⟨f, h', hf, hh, lift, _, _, ho1, hs⟩ := aborted_held hE hI h ho hv
  have weak : ∀ {w1 g1}, MLater d dmax E (fun j op => j = k ∧ ¬ OnObject op) w g w1 g1 → MLater d dmax E F w0 g0 w1 g1 := by
    intro w1 g1 m
    induction m with
    | refl => exact l
    | ok _ o1 he hc h1 ih => exact .ok ih o1 he (by rw [hc.1]; exact hF _ hc.2) h1
    | thrown _ o1 he hc h1 ih => exact .thrown ih o1 he (by rw [hc.1]; exact hF _ hc.2) h1
  have l1 := weak (lift .refl)
  have st : (mrefs f h' w).step dmax k (.solve (World.failing env)) = .ok ((mrefs f h' w).put k
      (World.clock (some (env.t2 - env.t1)) (some (env.t3 - env.t0))
          (World.setRefs ((mrefs f h' w).view k).extCons ((mrefs f h' w).view k).extCosts v))) := by
    rw [step_notRefs (op := .solve _) trivial]
    simp only [World.step, hs]
    rfl
  have l2 := MLater.ok l1 ho1 (hI.solve _ _) (hF _ id) st
  have l3 := mlater_refs hI hF (w.ctls k).spConstr (w.ctls k).spCost w.extCons w.extCosts l2
  refine ⟨fun j => if j = k then some (env.t2 - env.t1) else (w.ctls j).solveTime,
    fun j => if j = k then some (env.t3 - env.t0) else (w.ctls j).solveAndBuildTime, ?_⟩
  have c1 : (fun i => if i ∈ (w.ctls k).spConstr then w.extCons i else f i) = w.extCons := by
    funext i; by_cases hi : i ∈ (w.ctls k).spConstr <;> simp [hi, hf]
  have c2 : (fun i => if i ∈ (w.ctls k).spCost then w.extCosts i else h' i) = w.extCosts := by
    funext i; by_cases hi : i ∈ (w.ctls k).spCost <;> simp [hi, hh]
  change MLater d dmax E F w0 g0 (mrefs (fun i => if i ∈ (w.ctls k).spConstr then w.extCons i else f i)
    (fun i => if i ∈ (w.ctls k).spCost then w.extCosts i else h' i) _) (g.next w k True (.solve env)) at l3
  rw [c1, c2] at l3
  refine (congrArg (fun z => MLater d dmax E F w0 g0 z (g.next w k True (.solve env))) ?_).mp l3
  unfold mrefs mclock put World.clock World.setRefs
  simp only [MWorld.mk.injEq, true_and]
  funext j
  by_cases e : j = k
  · subst e; simp
  · simp only [if_neg e]; rfl

/-- With aborted solves the same states are reached later, up to the time measurements. -/
theorem malater_mlater (hE : AboutObjects E) (hI : IgnoresSolve E)
    (hF : ∀ j op op', F j op → ¬ OnObject op → ¬ OnObject op' → F j op') (h : MHist d dmax E (mclock a b w) g)
    (l : MALater d dmax E F w g w' g') : ∃ a' b', MLater d dmax E F (mclock a b w) g (mclock a' b' w') g' := by
  induction l with
  | refl => exact ⟨a, b, .refl⟩
  | @ok w1 w2 g1 k op _ ho he hf hs ih =>
    obtain ⟨a1, b1, l1⟩ := ih
    obtain ⟨a2, b2, ho'⟩ := mclock_out (a := a1) (b := b1) (Or.inl ⟨trivial, hs⟩ : Out dmax w1 k op True w2)
    refine ⟨a2, b2, ?_⟩
    rw [← mclock_next (a := a1) (b := b1)]
    exact .ok l1 (World.opOk_clock ho) (hI.times _ _ _ ⟨_, _, rfl⟩ he) hf
      (ho'.elim (fun h => h.2) fun h => absurd trivial h.1)
  | @thrown w1 w2 g1 k op e _ ho he hf hs ih =>
    obtain ⟨a1, b1, l1⟩ := ih
    obtain ⟨a2, b2, ho'⟩ := mclock_out (a := a1) (b := b1) (Or.inr ⟨id, e, hs⟩ : Out dmax w1 k op False w2)
    refine ⟨a2, b2, ?_⟩
    rw [← mclock_next (a := a1) (b := b1)]
    rcases ho' with ⟨x, _⟩ | ⟨_, e', h'⟩
    · exact x.elim
    · exact .thrown l1 (World.opOk_clock ho) (hI.times _ _ _ ⟨_, _, rfl⟩ he) hf h'
  | @aborted w1 w2 g1 k env q _ ho hf ht ih =>
    obtain ⟨a1, b1, l1⟩ := ih
    obtain ⟨a2, b2, l2⟩ := mlater_aborted hE hI (fun op hop => hF _ _ _ hf id hop) (l1.hist h) (World.opOk_clock ho)
      (mclock_solveThrow ht) l1
    rw [mclock_next] at l2
    exact ⟨a2, b2, l2⟩

theorem mahist_mhist (hE : AboutObjects E) (hI : IgnoresSolve E) (h : MAHist d dmax E w g) :
    ∃ a b, MHist d dmax E (mclock a b w) g := by
  induction h with
  | start h => exact ⟨_, _, .start (by rw [mclock_self]; exact h)⟩
  | @ok w w' g k op h o e hs ih =>
    obtain ⟨a, b, ih⟩ := ih
    obtain ⟨a', b', l⟩ := malater_mlater (F := fun _ _ => True) hE hI (fun _ _ _ _ _ _ => trivial) ih
      (.ok .refl o e trivial hs)
    exact ⟨a', b', l.hist ih⟩
  | @thrown w w' g k op x h o e hs ih =>
    obtain ⟨a, b, ih⟩ := ih
    obtain ⟨a', b', l⟩ := malater_mlater (F := fun _ _ => True) hE hI (fun _ _ _ _ _ _ => trivial) ih
      (.thrown .refl o e trivial hs)
    exact ⟨a', b', l.hist ih⟩
  | @aborted w w' g k env q h o ht ih =>
    obtain ⟨a, b, ih⟩ := ih
    obtain ⟨a', b', l⟩ := malater_mlater (F := fun _ _ => True) hE hI (fun _ _ _ _ _ _ => trivial) ih
      (.aborted .refl o trivial ht)
    exact ⟨a', b', l.hist ih⟩

end MWorld
end Copra
