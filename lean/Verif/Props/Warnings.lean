import Verif.Model.Warnings
import Verif.Props.WorldExamples

/-! # Deletion warnings (C78) and names (C79) -/

set_option linter.unusedSectionVars false
set_option maxRecDepth 100000

namespace Copra

section
variable {K : Type} [Field K] [LinearOrder K] [IsStrictOrderedRing K]

/-! ## C78: deletion warnings -/

/-- Specification: the text printed about one dropped element. -/
def droppedText (name : List Char) : List Char :=
  "A '".toList ++ name ++ "' has been destroyed.\nIt has been removed from the controller\n".toList

namespace LMPC

/-- The output of one walk: one text per erased element, in order. -/
theorem checkListOut_eq (debug warn : Bool) (name : Nat → List Char) (limit : Nat) (other : Nat → Nat)
    (L : List Nat) :
    checkListOut debug warn name limit other [] L =
      ((L.filter fun i => !decide (limit < other i + L.count i)).map fun i => deletionWarn debug warn (name i)).flatten := by
  have key : ∀ (rest kept : List Nat),
      (∀ i, limit < other i + L.count i → (kept ++ rest).count i = L.count i) →
      (∀ i, (kept ++ rest).count i ≤ L.count i) →
      checkListOut debug warn name limit other kept rest =
        ((rest.filter fun i => !decide (limit < other i + L.count i)).map fun i => deletionWarn debug warn (name i)).flatten := by
    intro rest
    induction rest with
    | nil => intro kept _ _; rfl
    | cons i rest ih =>
      intro kept h1 h2
      rw [checkListOut]
      by_cases hk : limit < other i + L.count i
      · have := h1 i hk
        rw [if_neg (by omega), ih (kept ++ [i]) (by simpa using h1) (by simpa using h2),
          List.filter_cons_of_neg (by simpa using hk)]
      · have := h2 i
        rw [if_pos (by omega), List.filter_cons_of_pos (by simpa using hk), List.map_cons, List.flatten_cons]
        congr 1
        refine ih kept ?_ ?_
        · intro j hj
          have e : (kept ++ i :: rest).count j = (kept ++ rest).count j := by
            have : i ≠ j := by rintro rfl; exact hk hj
            simp [List.count_append, this]
          rw [← e]; exact h1 j hj
        · intro j
          refine le_trans ?_ (h2 j)
          simp only [List.count_append, List.count_cons]
          omega
  exact key L [] (fun i _ => by simp) (fun i => by simp)

theorem flatten_silent {L : List Nat} {f : Nat → List Char} (h : ∀ i, f i = []) : (L.map f).flatten = [] := by
  induction L with
  | nil => rfl
  | cons a L ih => simp [h, ih]

theorem checkDeleteOut_eq (debug : Bool) (cname kname : Nat → List Char) (ec ek : Nat → Nat) (l : LMPC K) :
    l.checkDeleteOut debug cname kname ec ek =
      ((l.spConstr.filter fun i => decide (i ∉ (l.checkDelete ec ek).spConstr)).map
        fun i => deletionWarn debug true (cname i)).flatten ++
      ((l.spCost.filter fun i => decide (i ∉ (l.checkDelete ec ek).spCost)).map
        fun i => deletionWarn debug true (kname i)).flatten := by
  have sil : ∀ i, deletionWarn debug false (cname i) = [] := by intro i; cases debug <;> rfl
  have mem : ∀ (limit : Nat) (other : Nat → Nat) (L : List Nat),
      (L.filter fun i => !decide (limit < other i + L.count i)) =
        L.filter fun i => decide (i ∉ checkList limit other [] L) := by
    intro limit other L
    apply List.filter_congr
    intro i hi
    rw [checkList_eq]
    simp only [List.mem_filter, hi, true_and, decide_eq_true_eq, decide_not]
  unfold checkDeleteOut
  simp only [checkListOut_eq, flatten_silent sil, List.append_nil, mem]
  rfl

end LMPC

theorem Constr.name_eq {c c' : Constr K} (h1 : c'.kind = c.kind) (h2 : c'.isIneq = c.isIneq) : c'.name = c.name := by
  unfold Constr.name; rw [h1, h2]

theorem Cost.name_eq {c c' : Cost K} (h : c'.kind = c.kind) : c'.name = c.name := by
  unfold Cost.name; rw [h]

namespace World

/-- **C78**: in a debug build every solve prints, on `stderr`, exactly one text for each entry of the controller that it
drops — constraints first, then costs, each in the order of registration, with the name of the element — and
nothing else; in a release build it prints nothing. -/
theorem c78_warnings {w w' : World K} {env : SolveEnv K} {b : Bool} {q : QP K} (hs : w.solve env = some (w', b, q)) :
    w.solveStderr false env = some [] ∧
    w.solveStderr true env = some (
      ((w.ctl.spConstr.filter fun i => decide (i ∉ w'.ctl.spConstr)).map fun i => droppedText (w.cons i).name).flatten ++
      ((w.ctl.spCost.filter fun i => decide (i ∉ w'.ctl.spCost)).map fun i => droppedText (w.costs i).name).flatten) := by
  have fr := (solve_frame hs).1
  obtain ⟨_, d1, d2, d3, d4, d5⟩ := solve_frame hs
  obtain ⟨w1, p, l, s, l', h1, hp, hl, hsol, rfl, rfl, hl', e⟩ := solve_inv hs
  obtain ⟨_, _, _, _, _, _, _, _, _, _, _, _, ew, f⟩ := updateSystem_inv h1
  have f' : LMPC.Fixed w.ctl w1.ctl := by rw [ew]; exact f
  have g : LMPC.Fixed w.ctl l := f'.trans (LMPC.makeQPForm_fixed hl)
  have hrun : ∀ debug, w.solveStderr debug env = some (LMPC.checkDeleteOut debug (fun i => (w1.cons i).name)
      (fun i => (w1.costs i).name) w1.extCons w1.extCosts
      { l with sol := some { s with result := (env.answer l.qp).2 }, solveTime := some (env.t2 - env.t1) }) := by
    intro debug
    unfold solveStderr
    simp only [Option.bind_eq_bind, Option.bind_eq_some_iff, Option.pure_def, Option.some.injEq]
    exact ⟨w1, h1, p, hp, l, hl, s, hsol, rfl⟩
  have n1 : (fun i => (w1.cons i).name) = fun i => (w.cons i).name := by
    funext i
    have k := fr.cons i
    rw [e] at k
    exact Constr.name_eq k.kind k.isIneq
  have n2 : (fun i => (w1.costs i).name) = fun i => (w.costs i).name := by
    funext i
    have k := fr.costs i
    rw [e] at k
    refine Cost.name_eq ?_
    have := congrArg Cost.kind k
    exact this
  have e1 : w1.extCons = w.extCons := by rw [ew]
  have e2 : w1.extCosts = w.extCosts := by rw [ew]
  have c : ∀ {a b : LMPC K}, a.spConstr = b.spConstr → a.spEqConstr = b.spEqConstr → a.spIneqConstr = b.spIneqConstr →
      a.spBoundConstr = b.spBoundConstr → a.spCost = b.spCost → ∀ debug cn kn ec ek,
      a.checkDeleteOut debug cn kn ec ek = b.checkDeleteOut debug cn kn ec ek := by
    intro a b h1 h2 h3 h4 h5 debug cn kn ec ek
    simp only [LMPC.checkDeleteOut, h1, h2, h3, h4, h5]
  have out : ∀ debug, w.solveStderr debug env = some (
      ((w.ctl.spConstr.filter fun i => decide (i ∉ w'.ctl.spConstr)).map
        fun i => deletionWarn debug true (w.cons i).name).flatten ++
      ((w.ctl.spCost.filter fun i => decide (i ∉ w'.ctl.spCost)).map
        fun i => deletionWarn debug true (w.costs i).name).flatten) := by
    intro debug
    have hc := c (a := { l with sol := some { s with result := (env.answer l.qp).2 }, solveTime := some (env.t2 - env.t1) })
      (b := w.ctl) g.spConstr g.spEqConstr g.spIneqConstr g.spBoundConstr g.spCost
    rw [hrun, n1, n2, e1, e2, hc, LMPC.checkDeleteOut_eq, d1, d5]
  refine ⟨?_, out true⟩
  rw [out false, LMPC.flatten_silent (f := fun i => deletionWarn false true (w.cons i).name) (fun _ => rfl),
    LMPC.flatten_silent (f := fun i => deletionWarn false true (w.costs i).name) (fun _ => rfl)]
  rfl

/-- **C78** (who is named): with C39, an element is named at most once, and exactly when it is registered once and nobody
outside the controller references it any more. -/
theorem c78_named_once {dmax : K} {w w' : World K} (h : Reachable dmax w) {env : SolveEnv K} {b : Bool} {q : QP K}
    (hs : w.solve env = some (w', b, q)) :
    (∀ i, (w.ctl.spConstr.filter fun i => decide (i ∉ w'.ctl.spConstr)).count i =
      if w.extCons i = 0 ∧ w.ctl.spConstr.count i = 1 then 1 else 0) ∧
    (∀ i, (w.ctl.spCost.filter fun i => decide (i ∉ w'.ctl.spCost)).count i =
      if w.extCosts i = 0 ∧ w.ctl.spCost.count i = 1 then 1 else 0) := by
  obtain ⟨e1, _, _, _, e5⟩ := c39_as_built h hs
  have key : ∀ (L : List Nat) (ext : Nat → Nat) (i : Nat),
      (L.filter fun i => decide (i ∉ L.filter fun i => decide (0 < ext i ∨ 1 < L.count i))).count i =
        if ext i = 0 ∧ L.count i = 1 then 1 else 0 := by
    intro L ext i
    split
    · rename_i hi
      rw [List.count_filter, hi.2]
      simp [List.mem_filter, hi.1, hi.2]
    · rename_i hi
      apply List.count_eq_zero_of_not_mem
      intro hm
      simp only [List.mem_filter, decide_eq_true_eq, not_and] at hm
      have hp : 0 < L.count i := List.count_pos_iff.2 hm.1
      have := hm.2 hm.1
      apply hi
      omega
  rw [e1, e5]
  exact ⟨key _ _, key _ _⟩

/-! ## C79: names -/

/-- Whatever the outcome, the object has the class it had. -/
def KindKept (k : CostKind) : Res (Cost K) → Prop
  | .ok c => c.kind = k
  | .thrown _ c => c.kind = k
  | .ub => True

theorem KindKept.andThen {k : CostKind} {r : Res (Cost K)} {f : Cost K → Res (Cost K)} (h : KindKept k r)
    (hf : ∀ c, c.kind = k → KindKept k (f c)) : KindKept k (r.andThen f) := by
  cases r with
  | ok c => exact hf c h
  | thrown e c => exact h
  | ub => trivial

theorem KindKept.map {α : Type} {k : CostKind} {r : Res α} {f : α → Cost K} (hf : ∀ a, (f a).kind = k) :
    KindKept k (r.map f) := by
  cases r with
  | ok c => exact hf c
  | thrown e c => exact hf c
  | ub => trivial

theorem autoSpan_kind (junk : Junk K) (c : Cost K) : KindKept c.kind (c.autoSpan junk) := by
  unfold Cost.autoSpan
  split
  · exact KindKept.andThen (KindKept.map fun _ => rfl) fun c hc =>
      KindKept.andThen (KindKept.map fun _ => hc) fun c hc => KindKept.map fun _ => hc
  · rfl
  · exact KindKept.andThen (KindKept.map fun _ => rfl) fun c hc =>
      KindKept.andThen (KindKept.map fun _ => hc) fun c hc => KindKept.map fun _ => hc
  · exact KindKept.andThen (KindKept.map fun _ => rfl) fun c hc =>
      KindKept.andThen (KindKept.map fun _ => hc) fun c hc =>
      KindKept.andThen (KindKept.map fun _ => hc) fun c hc => KindKept.map fun _ => hc

theorem setWeights_kind (c : Cost K) (v : Vec K) : KindKept c.kind (c.setWeights v) := by
  unfold Cost.setWeights
  split
  · rfl
  · split
    · trivial
    · split
      · generalize loop 0 _ _ _ = o
        cases o with
        | none => trivial
        | some v => rfl
      · rfl

theorem initializeCost_kind (junk : Junk K) (ps : PreviewSystem K) (c : Cost K) :
    KindKept c.kind (c.initializeCost junk ps) := by
  unfold Cost.initializeCost
  split
  · unfold Cost.initTrajectory; simp only; split_ifs <;> rfl
  · unfold Cost.initTarget; simp only; split_ifs <;> rfl
  · unfold Cost.initControl; simp only; split_ifs <;> rfl
  · unfold Cost.initMixed; simp only; split_ifs <;> rfl

theorem Steps.costKind {dmax : K} {w w' : World K} {op : Op K} (h : Steps dmax w op w') (i : Nat) :
    (w'.costs i).kind = (w.costs i).kind := by
  have out : ∀ {k : CostKind} {r : Res (Cost K)} {c' : Cost K}, KindKept k r → (r = .ok c' ∨ ∃ e, r = .thrown e c') →
      c'.kind = k := by
    rintro k r c' hk (rfl | ⟨e, rfl⟩) <;> exact hk
  cases h.costChange i with
  | same e => rw [e]
  | span junk _ e => exact out (autoSpan_kind junk _) e
  | weights v _ e => exact out (setWeights_kind _ v) e
  | weight x _ e => rw [e]; rfl
  | init p junk _ e => exact out (initializeCost_kind junk _ _) e
  | update p _ e =>
    generalize w'.costs i = c' at e
    induction e with
    | refl => rfl
    | tail _ hs ih => exact (congrArg Cost.kind (Cost.update_same hs)).trans ih

/-- **C79** (stable): the name of a constraint or cost never changes, whatever calls are made. -/
theorem c79_name_stable {dmax : K} {w w' : World K} {ops : List (Op K)} (h : w.run dmax ops = some w') (i : Nat) :
    (w'.cons i).name = (w.cons i).name ∧ (w'.costs i).name = (w.costs i).name := by
  refine ⟨Constr.name_eq (run_ident ops h i).kind (run_ident ops h i).isIneq, Cost.name_eq ?_⟩
  exact run_induct (P := fun w' => (w'.costs i).kind = (w.costs i).kind)
    (fun a op b hp hs => (hs.costKind i).trans hp) ops rfl h

/-- **C79** (constraints, partial): among the constraints that are not `MixedConstraint`s the name tells the class and,
where the class allows both, whether it is an equality or an inequality.  Missing: mixed constraints
(`c79_false_mixed`). -/
theorem c79_constraint_name_partial {c c' : Constr K} (h : FreshConstr c) (h' : FreshConstr c')
    (hm : c.kind ≠ .mixed) (hm' : c'.kind ≠ .mixed) (hn : c.name = c'.name) :
    c.kind = c'.kind ∧ c.constraintType = c'.constraintType := by
  have side : ∀ {c : Constr K}, FreshConstr c → c.kind = .trajBound → c.isIneq = true := by
    rintro c (⟨_, _, _, rfl⟩ | ⟨_, _, _, rfl⟩ | ⟨_, _, _, _, rfl⟩ | ⟨_, _, rfl⟩ | ⟨_, _, rfl⟩) hk <;>
      first | rfl | cases hk
  have s1 := side h
  have s2 := side h'
  unfold Constr.name at hn
  unfold Constr.constraintType
  cases h1 : c.kind <;> cases h2 : c'.kind <;> cases h3 : c.isIneq <;> cases h4 : c'.isIneq <;>
    simp_all (config := { decide := true })

/-- **C79** (costs): the name of a cost tells its class. -/
theorem c79_cost_name {c c' : Cost K} (hn : c.name = c'.name) : c.kind = c'.kind := by
  unfold Cost.name at hn
  cases h1 : c.kind <;> cases h2 : c'.kind <;> simp_all (config := { decide := true })

/-- C79 is false for mixed constraints: every `MixedConstraint` has the name of a `ControlConstraint`
(include/constraints.h 204). -/
theorem c79_false_mixed (E G G' : Mat K) (f f' : Vec (Ext K)) (b : Bool) :
    (Constr.mkMixed E G f b).name = (Constr.mkControl G' f' b).name ∧
    (Constr.mkMixed E G f b).kind ≠ (Constr.mkControl G' f' b).kind := by
  cases b <;> exact ⟨rfl, fun h => CKind.noConfusion h⟩

end World
end

namespace Ex
open World

/-- C78 applies: the client forgot constraint 0 and cost 1. -/
example : (z14.solveStderr true opt).map String.ofList = some
    ("A '" ++ String.ofList (z14.cons 0).name ++ "' has been destroyed.\nIt has been removed from the controller\n" ++
     "A '" ++ String.ofList (z14.costs 1).name ++ "' has been destroyed.\nIt has been removed from the controller\n") := by
  decide +kernel

example : ∃ w' b q, z14.solve opt = some (w', b, q) ∧ z14.solveStderr false opt = some [] := by
  have h : (z14.solve opt).isSome = true := by decide +kernel
  obtain ⟨⟨w', b, q⟩, hr⟩ := Option.isSome_iff_exists.1 h
  exact ⟨w', b, q, hr, (c78_warnings hr).1⟩

example : ∃ w' b q, z14.solve opt = some (w', b, q) ∧
    (z14.ctl.spCost.filter fun i => decide (i ∉ w'.ctl.spCost)).count 1 = 1 := by
  have h : (z14.solve opt).isSome = true := by decide +kernel
  obtain ⟨⟨w', b, q⟩, hr⟩ := Option.isSome_iff_exists.1 h
  refine ⟨w', b, q, hr, ?_⟩
  rw [(c78_named_once rz14 hr).2 1]
  decide +kernel

example : String.ofList (z14.costs 1).name = "ControlCost" ∧
    String.ofList (z14.cons 0).name = "Trajectory inequality constraint" := by decide +kernel

/-- C79 applies along a history that spans, adds and solves. -/
example : ∃ w', w12.run 1000 [.spanConstr 7 jk, .addConstraint 7 jk, .solve opt] = some w' ∧
    (w'.cons 7).name = (w12.cons 7).name ∧ (w'.costs 7).name = (w12.costs 7).name := by
  have h : (w12.run 1000 [.spanConstr 7 jk, .addConstraint 7 jk, .solve opt]).isSome = true := by decide +kernel
  obtain ⟨w', hr⟩ := Option.isSome_iff_exists.1 h
  exact ⟨w', hr, c79_name_stable hr 7⟩

example := c79_constraint_name_partial (K := ℚ) (c := theCons 0) (c' := theCons 6) (Or.inl ⟨_, _, _, rfl⟩) (Or.inl ⟨_, _, _, rfl⟩)
  (by decide) (by decide) (by decide)
example := c79_cost_name (c := theCosts 1) (c' := theCosts 4) (by decide)

end Ex
end Copra
