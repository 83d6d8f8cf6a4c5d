import Verif.Proofs.Lifetime
import Verif.Props.InitVariants
import Verif.Props.Tighter

/-! # Controllers that are constructed, moved and destroyed: C76 -/

namespace Copra
open Spec

set_option linter.unusedSectionVars false
set_option maxRecDepth 100000

section
variable {K : Type} [Field K] [LinearOrder K] [IsStrictOrderedRing K]

namespace Spec

theorem aboutCalls_any : AboutCalls (AnyOp (K := K)) := ⟨aboutObjects_any, fun _ _ _ _ _ _ _ _ => trivial⟩

theorem aboutCalls_noBoundSpan : AboutCalls (NoBoundSpan (K := K)) :=
  ⟨aboutObjects_noBoundSpan, fun _ _ op h _ _ _ _ => by cases op <;> simp only [LWorld.Creates, reduceCtorEq] at h <;> trivial⟩

theorem aboutCalls_nonnegWeights : AboutCalls (NonnegWeights (K := K)) :=
  ⟨aboutObjects_nonnegWeights, fun _ _ op h _ _ _ _ => by cases op <;> simp only [LWorld.Creates, reduceCtorEq] at h <;> trivial⟩

theorem AboutCalls.and {E F : World K → Op K → Prop} (hE : AboutCalls E) (hF : AboutCalls F) :
    AboutCalls fun w op => E w op ∧ F w op :=
  ⟨hE.toAboutObjects.and hF.toAboutObjects,
    fun w w' op h a b c e => ⟨hE.creates w w' op h a b c e.1, hF.creates w w' op h a b c e.2⟩⟩

end Spec

namespace World

theorem updateSystem_refs (junk : Junk K) (w : World K) (ec ek : Nat → Nat) :
    ({ w with extCons := ec, extCosts := ek } : World K).updateSystem junk =
      (w.updateSystem junk).map fun v => { v with extCons := ec, extCosts := ek } := by
  unfold updateSystem
  cases w.ctl.ps with
  | none => rfl
  | some p =>
    simp only [Option.bind_eq_bind, Option.bind_some, Option.pure_def]
    split <;> simp only [Option.map_bind, Function.comp_def, Option.map_some]

/-- What `updateResults` computes does not depend on the lists. -/
theorem updateResults_refs (ps : PreviewSystem K) (l l' : LMPC K) (ec ek ec' ek' : Nat → Nat)
    (h : (l.checkDelete ec ek).updateResults ps = some l') :
    ∃ l'', (l.checkDelete ec' ek').updateResults ps = some l'' ∧ l''.control = l'.control ∧ l''.trajectory = l'.trajectory := by
  unfold LMPC.updateResults LMPC.initialState at h ⊢
  simp only [LMPC.checkDelete, Option.bind_eq_bind, Option.pure_def] at h ⊢
  cases hs : l.sol with
  | none => rw [hs] at h; cases h
  | some s =>
    simp only [hs, Option.bind_some] at h ⊢
    split at h
    · next hi =>
      simp only [if_pos hi]
      cases e1 : LMPC.cornerOff s.result.rows ps.fullUDim with
      | none => rw [e1] at h; cases h
      | some o =>
        simp only [e1, Option.bind_some] at h ⊢
        cases e2 : s.result.segment? o ps.fullUDim with
        | none => rw [e2] at h; cases h
        | some u =>
          simp only [e2, Option.bind_some, Option.bind_eq_some_iff, Option.some.injEq] at h ⊢
          obtain ⟨x, hx, t, ht, rfl⟩ := h
          exact ⟨_, ⟨x, hx, t, ht, rfl⟩, rfl, rfl⟩
    · next hi =>
      simp only [if_neg hi]
      cases e1 : LMPC.predict ps ps.x0 s.result with
      | none => rw [e1] at h; cases h
      | some t =>
        simp only [e1, Option.bind_some, Option.some.injEq] at h ⊢
        subst h
        exact ⟨_, rfl, rfl, rfl⟩

/-- How many `shared_ptr`s are held elsewhere does not matter for what a solve hands over, returns and computes. -/
theorem solve_refs {env : SolveEnv K} {w w' : World K} {b : Bool} {q : QP K} (hs : w.solve env = some (w', b, q))
    (ec ek : Nat → Nat) : ∃ v, ({ w with extCons := ec, extCosts := ek } : World K).solve env = some (v, b, q) ∧
      v.pss = w'.pss ∧ v.cons = w'.cons ∧ v.costs = w'.costs ∧ v.ctl.control = w'.ctl.control ∧
      v.ctl.trajectory = w'.ctl.trajectory := by
  unfold solve at hs ⊢
  rw [updateSystem_refs]
  cases hu : w.updateSystem env.junk with
  | none => rw [hu] at hs; cases hs
  | some w1 =>
    rw [hu] at hs
    simp only [Option.bind_eq_bind, Option.bind_some, Option.map_some, Option.pure_def] at hs ⊢
    cases hp : w1.ctl.ps with
    | none => rw [hp] at hs; cases hs
    | some p =>
      rw [hp] at hs
      simp only [Option.bind_some] at hs ⊢
      cases hl : w1.ctl.makeQPForm env.inverse w1.cons w1.costs (w1.pss p) with
      | none => rw [hl] at hs; cases hs
      | some l =>
        rw [hl] at hs
        simp only [Option.bind_some] at hs ⊢
        cases hso : l.sol with
        | none => rw [hso] at hs; cases hs
        | some s =>
          rw [hso] at hs
          simp only [Option.bind_some] at hs ⊢
          split at hs
          · next hb =>
            simp only [Option.bind_eq_some_iff, Option.some.injEq, Prod.mk.injEq] at hs
            obtain ⟨l', h', rfl, rfl, rfl⟩ := hs
            obtain ⟨l'', h'', e1, e2⟩ := updateResults_refs _ _ _ _ _ ec ek h'
            simp only [if_pos hb, h'', Option.bind_some, Option.some.injEq, Prod.mk.injEq]
            exact ⟨_, ⟨rfl, trivial⟩, rfl, rfl, rfl, e1, e2⟩
          · next hb =>
            simp only [Option.some.injEq, Prod.mk.injEq] at hs
            obtain ⟨rfl, rfl, rfl⟩ := hs
            simp only [if_neg hb, Option.some.injEq, Prod.mk.injEq]
            exact ⟨_, ⟨rfl, trivial⟩, rfl, rfl, rfl, rfl, rfl⟩

end World

namespace LWorld
variable {n : Nat} {d : Dims} {dmax : K} {E : World K → Op K → Prop} {w w' : LWorld K n} {m' : MWorld K n} {g : MGhost n}
  {j k : Fin n} {env : SolveEnv K}

/-! ## What moving and destroying do -/

theorem refs_movedFrom (l : LMPC K) (i : Nat) : l.movedFrom.refsC i = 0 ∧ l.movedFrom.refsK i = 0 := ⟨rfl, rfl⟩

/-- **C76** (move): after `LMPC j(std::move(k))` into a place without a controller, the program looks to `j` exactly as it
looked to `k` before: the same objects, the same reference counts, the same lists, problem and results — so every call on
`j` does exactly what it would have done on `k`. -/
theorem c76_move (h : LHist d dmax E w g) (ho : LOpOk d w g (.move j k)) (hj : w.alive j = false)
    (hs : w.step dmax (.move j k) = .ok w') :
    w'.alive j = true ∧ w'.alive k = false ∧ w'.w.view j = w.w.view k ∧ ∀ op,
      (w'.w.view j).step dmax op = (w.w.view k).step dmax op := by
  obtain ⟨hjk, hk, _⟩ := ho
  simp only [step, Res.ok.injEq] at hs
  subst hs
  have hd : ∀ i, (w.w.ctls j).refsC i = 0 ∧ (w.w.ctls j).refsK i = 0 := by
    intro i
    rw [h.dead j hj]
    exact refs_movedFrom _ i
  have key : ∀ (f : LMPC K → Nat) , f (w.w.ctls j) = 0 → f (w.w.ctls k).movedFrom = 0 →
      (∑ i, if i = j then 0 else f (if i = j then w.w.ctls k else if i = k then (w.w.ctls k).movedFrom else w.w.ctls i)) =
      ∑ i, if i = k then 0 else f (w.w.ctls i) := by
    intro f fj fk
    refine Finset.sum_congr rfl fun i _ => ?_
    by_cases e : i = j
    · subst e; rw [if_pos rfl, if_neg hjk, fj]
    · rw [if_neg e, if_neg e]
      by_cases e' : i = k
      · rw [if_pos e', if_pos e', fk]
      · rw [if_neg e', if_neg e']
  have hv : (MWorld.view { w.w with
      ctls := fun i => if i = j then w.w.ctls k else if i = k then (w.w.ctls k).movedFrom else w.w.ctls i } j) = w.w.view k := by
    unfold MWorld.view
    congr 1
    · funext i
      rw [key (fun l => l.refsC i) (hd i).1 (refs_movedFrom _ i).1]
    · funext i
      rw [key (fun l => l.refsK i) (hd i).2 (refs_movedFrom _ i).2]
    · exact if_pos rfl
  exact ⟨if_pos rfl, (if_neg (Ne.symm hjk)).trans (if_pos rfl), hv, fun op => by rw [hv]⟩

/-- **C76** (move assignment): after `j = std::move(k)`, also onto a living controller, a solve of `j` hands over the same
problem, returns the same and computes the same control and trajectory as the solve of `k` would have. -/
theorem c76_move_solve (hs : w.step dmax (.move j k) = .ok w') {b : Bool} {q : QP K}
    (h1 : w.w.solve env k = some (m', b, q)) :
    w'.w.ctls j = w.w.ctls k ∧ ∃ v', w'.w.solve env j = some (v', b, q) ∧ (v'.ctls j).control = (m'.ctls k).control ∧
      (v'.ctls j).trajectory = (m'.ctls k).trajectory := by
  simp only [step, Res.ok.injEq] at hs
  subst hs
  obtain ⟨u, hu, rfl⟩ := MWorld.solve_some h1
  refine ⟨if_pos rfl, ?_⟩
  generalize hv : ({ w.w with
      ctls := fun i => if i = j then w.w.ctls k else if i = k then (w.w.ctls k).movedFrom else w.w.ctls i } : MWorld K n) = v
  obtain ⟨x, hx, _, _, _, e1, e2⟩ := World.solve_refs hu (v.view j).extCons (v.view j).extCosts
  have ev : ({ w.w.view k with extCons := (v.view j).extCons, extCosts := (v.view j).extCosts } : World K) = v.view j := by
    subst hv
    unfold MWorld.view
    simp only [if_pos]
  rw [ev] at hx
  refine ⟨v.put j x, by unfold MWorld.solve; rw [hx]; rfl, ?_, ?_⟩
  · rw [MWorld.put_ctl, MWorld.put_ctl]; exact e1
  · rw [MWorld.put_ctl, MWorld.put_ctl]; exact e2

/-- **C76** (the others): moving or destroying a controller changes no preview system, constraint or cost and no other
controller; their next solves hand over the same problems, return the same and compute the same results. -/
theorem c76_others {i : Fin n} (hs : (w.step dmax (.move j k) = .ok w' ∧ i ≠ j ∧ i ≠ k) ∨
      (w.step dmax (.destroy k) = .ok w' ∧ i ≠ k)) :
    w'.alive i = w.alive i ∧ w'.w.ctls i = w.w.ctls i ∧ w'.w.pss = w.w.pss ∧ w'.w.cons = w.w.cons ∧
    w'.w.costs = w.w.costs ∧ w'.w.extCons = w.w.extCons ∧ w'.w.extCosts = w.w.extCosts ∧
    ∀ {b : Bool} {q : QP K}, w.w.solve env i = some (m', b, q) →
      ∃ v', w'.w.solve env i = some (v', b, q) ∧ v'.pss = m'.pss ∧ v'.cons = m'.cons ∧ v'.costs = m'.costs ∧
        (v'.ctls i).control = (m'.ctls i).control ∧ (v'.ctls i).trajectory = (m'.ctls i).trajectory := by
  have key : w'.w.ctls i = w.w.ctls i → w'.w.pss = w.w.pss → w'.w.cons = w.w.cons → w'.w.costs = w.w.costs →
      ∀ {b : Bool} {q : QP K}, w.w.solve env i = some (m', b, q) →
      ∃ v', w'.w.solve env i = some (v', b, q) ∧ v'.pss = m'.pss ∧ v'.cons = m'.cons ∧ v'.costs = m'.costs ∧
        (v'.ctls i).control = (m'.ctls i).control ∧ (v'.ctls i).trajectory = (m'.ctls i).trajectory := by
    intro a1 a2 a3 a4 b q h1
    obtain ⟨u, hu, rfl⟩ := MWorld.solve_some h1
    obtain ⟨x, hx, c1, c2, c3, e1, e2⟩ := World.solve_refs hu (w'.w.view i).extCons (w'.w.view i).extCosts
    have ev : ({ w.w.view i with extCons := (w'.w.view i).extCons, extCosts := (w'.w.view i).extCosts } : World K) = w'.w.view i := by
      unfold MWorld.view
      simp only [a1, a2, a3, a4]
    rw [ev] at hx
    refine ⟨w'.w.put i x, by unfold MWorld.solve; rw [hx]; rfl, c1, c2, c3, ?_, ?_⟩
    · rw [MWorld.put_ctl, MWorld.put_ctl]; exact e1
    · rw [MWorld.put_ctl, MWorld.put_ctl]; exact e2
  rcases hs with ⟨h, hj, hk⟩ | ⟨h, hk⟩
  · simp only [step, Res.ok.injEq] at h
    subst h
    have a : (if i = j then w.w.ctls k else if i = k then (w.w.ctls k).movedFrom else w.w.ctls i) = w.w.ctls i := by
      rw [if_neg hj, if_neg hk]
    exact ⟨by simp only [if_neg hj, if_neg hk], a, rfl, rfl, rfl, rfl, rfl, fun {b q} => key a rfl rfl rfl⟩
  · simp only [step, Res.ok.injEq] at h
    subst h
    have a : (if i = k then (w.w.ctls k).movedFrom else w.w.ctls i) = w.w.ctls i := if_neg hk
    exact ⟨by simp only [if_neg hk], a, rfl, rfl, rfl, rfl, rfl, fun {b q} => key a rfl rfl rfl⟩

/-! ## What a living controller guarantees, whatever was moved and destroyed before -/

/-- **C76** (safety): in every program that constructs, moves and destroys controllers, `solve` on a living controller is
free of undefined behaviour and hands over a well formed problem. -/
theorem c76_solve_defined (hE : AboutCalls E) (h : LHist d dmax E w g) (ha : w.alive k = true)
    (ho : LOpOk d w g (.call k (.solve env))) :
    ∃ m' b q, w.w.solve env k = some (m', b, q) ∧ w.step dmax (.call k (.solve env)) = .ok ⟨m', w.alive⟩ ∧ WellSized q ∧
      q.nrVar = numVars d (w.w.ctls k) := by
  obtain ⟨v, b, q, hs, hst, hw, hn⟩ := World.c50_solve_defined (h.view hE ha) ho.2
  refine ⟨w.w.put k v, b, q, ?_, ?_, hw, hn⟩
  · unfold MWorld.solve; rw [hs]; rfl
  · have : w.w.step dmax k (.solve env) = .ok (w.w.put k v) := by
      rw [MWorld.step_notRefs (op := .solve env) trivial, hst]; rfl
    simp only [step, this]
    simp [Res.map, Creates]

/-- **C76** (feasible set): C30 for every living controller. -/
theorem c76_feasible_set {b : Bool} {q : QP K} {p : Nat} (hE : AboutCalls E)
    (hE' : ∀ w op, E w op → NoBoundSpan w op) (h : LHist d dmax E w g) (ha : w.alive k = true)
    (ho : LOpOk d w g (.call k (.solve env))) (hi : (w.w.ctls k).isInit = false)
    (hb : (w.w.ctls k).spBoundConstr = [] → g.clean k)
    (hh : ∀ i ∈ (w.w.ctls k).spConstr, (w.w.cons i).userData.Honest)
    (hs : w.w.solve env k = some (m', b, q)) (hp : (w.w.ctls k).ps = some p) (U : Nat → K) :
    Feasible q U ↔
      (∀ i ∈ (w.w.ctls k).spConstr, (w.w.cons i).userData.Holds d (Spec.traj d (w.w.view k) p U) U) ∧
      ((w.w.ctls k).spBoundConstr = [] → ∀ j < d.m * d.N, -dmax ≤ U j ∧ U j ≤ dmax) := by
  obtain ⟨v, hv, rfl⟩ := MWorld.solve_some hs
  exact World.c30_feasible_set (h.view hE ha) hE' ho.2 hi hb hh hv hp U

/-- **C76** (end to end): whatever controllers were constructed, moved and destroyed before, C59 holds for every living
one. -/
theorem c76_end_to_end {q : QP K} {p : Nat} {s : SolverKind} {junk : Junk K} (hE : AboutCalls E)
    (hE' : ∀ w op, E w op → NoBoundSpan w op) (h : LHist d dmax E w g) (ha : w.alive k = true)
    (ho : LOpOk d w g (.call k (.solve env))) (hi : (w.w.ctls k).isInit = false)
    (hb : (w.w.ctls k).spBoundConstr = [] → g.clean k)
    (hh : ∀ i ∈ (w.w.ctls k).spConstr, (w.w.cons i).userData.Honest)
    (hf : ∀ i ∈ (w.w.ctls k).spCost, (w.w.costs i).userData.PerStepState d → g.fresh i ∧ (w.w.ctls k).spCost.count i = 1)
    (hs : w.w.solve env k = some (m', true, q)) (hp : (w.w.ctls k).ps = some p)
    (hn : q.nrEq + q.nrIneq + 2 * q.nrVar ≤ intMax)
    (hopt : BackEndOptimal dmax junk s q (env.answer q).2.e) :
    (∀ i ∈ (w.w.ctls k).spConstr,
      (w.w.cons i).userData.Holds d (Spec.traj d (w.w.view k) p (m'.ctls k).control.e) (m'.ctls k).control.e) ∧
    IsStacked d (Spec.traj d (w.w.view k) p (m'.ctls k).control.e) (m'.ctls k).trajectory ∧
    ∀ V : Nat → K, (∀ i ∈ (w.w.ctls k).spConstr, (w.w.cons i).userData.Holds d (Spec.traj d (w.w.view k) p V) V) →
      (∀ j < d.m * d.N, -dmax ≤ V j ∧ V j ≤ dmax) →
      (s = .osqp → ∀ i < q.Aineq.rows, -dmax ≤ rowValue q.Aineq V i) →
      World.totalCost d (w.w.view k) p (m'.ctls k).control.e ≤ World.totalCost d (w.w.view k) p V := by
  obtain ⟨v, hv, rfl⟩ := MWorld.solve_some hs
  rw [MWorld.put_ctl]
  exact World.c59_end_to_end (h.view hE ha) hE' ho.2 hi hb hh hf hv hp hn hopt

/-- **C76** (end to end) for an `InitialStateLMPC`. -/
theorem c76_end_to_end_init {q : QP K} {p : Nat} {s : SolverKind} {junk : Junk K} (hE : AboutCalls E)
    (hE' : ∀ w op, E w op → NoBoundSpan w op) (h : LHist d dmax E w g) (ha : w.alive k = true)
    (ho : LOpOk d w g (.call k (.solve env))) (hi : (w.w.ctls k).isInit = true)
    (hb : (w.w.ctls k).spBoundConstr = [] → g.clean k)
    (hh : ∀ i ∈ (w.w.ctls k).spConstr, (w.w.cons i).userData.Honest)
    (hf : ∀ i ∈ (w.w.ctls k).spCost, (w.w.costs i).userData.PerStepState d → g.fresh i ∧ (w.w.ctls k).spCost.count i = 1)
    (hs : w.w.solve env k = some (m', true, q)) (hp : (w.w.ctls k).ps = some p)
    (hn : q.nrEq + q.nrIneq + 2 * q.nrVar ≤ intMax)
    (hopt : BackEndOptimal dmax junk s q (env.answer q).2.e) :
    ∃ x : Vec K, (m'.ctls k).initialState (m'.pss p) = some x ∧ InitBounds d (w.w.ctls k) x.e ∧
      IsStacked d (Spec.trajFrom d (w.w.view k) p x.e (m'.ctls k).control.e) (m'.ctls k).trajectory ∧
      (∀ i ∈ (w.w.ctls k).spConstr,
        (w.w.cons i).userData.Holds d (Spec.trajFrom d (w.w.view k) p x.e (m'.ctls k).control.e) (m'.ctls k).control.e) ∧
      ∀ V : Nat → K, (∀ i ∈ (w.w.ctls k).spConstr, (w.w.cons i).userData.Holds d (Spec.trajFrom d (w.w.view k) p x.e V) V) →
        (∀ j < d.m * d.N, -dmax ≤ V j ∧ V j ≤ dmax) →
        (s = .osqp → ∀ i < q.Aineq.rows, -dmax ≤ rowValue q.Aineq (joined d x.e V) i) →
        totalCostFrom d (w.w.view k) p x.e (m'.ctls k).control.e ≤ totalCostFrom d (w.w.view k) p x.e V := by
  obtain ⟨v, hv, rfl⟩ := MWorld.solve_some hs
  rw [MWorld.put_ctl]
  exact World.c60_initial_state_end_to_end (h.view hE ha) hE' ho.2 hi hb hh hf hv hp hn hopt

/-- **C76** (dropping): a solve of a living controller drops a constraint or cost exactly when neither the client nor
another *living* controller holds it (and it is not registered twice): destroyed and moved-from controllers hold nothing. -/
theorem c76_drops (hE : AboutCalls E) (h : LHist d dmax E w g) (ha : w.alive k = true) {b : Bool} {q : QP K}
    (hs : w.w.solve env k = some (m', b, q)) :
    ((m'.ctls k).spConstr = (w.w.ctls k).spConstr.filter fun i =>
      0 < w.w.extCons i ∨ (∃ j, j ≠ k ∧ w.alive j = true ∧ i ∈ (w.w.ctls j).spConstr) ∨ 1 < (w.w.ctls k).spConstr.count i) ∧
    ((m'.ctls k).spCost = (w.w.ctls k).spCost.filter fun i =>
      0 < w.w.extCosts i ∨ (∃ j, j ≠ k ∧ w.alive j = true ∧ i ∈ (w.w.ctls j).spCost) ∨ 1 < (w.w.ctls k).spCost.count i) ∧
    ∀ j, j ≠ k → m'.ctls j = w.w.ctls j := by
  obtain ⟨v, hv, rfl⟩ := MWorld.solve_some hs
  obtain ⟨e1, _, _, _, e5⟩ := World.c39_as_built (World.hist_reachable (h.view hE ha)) hv
  rw [MWorld.put_ctl, e1, e5]
  have dead : ∀ j, w.alive j = false → ∀ i, (w.w.ctls j).refsC i = 0 ∧ (w.w.ctls j).refsK i = 0 := by
    intro j hj i
    rw [h.dead j hj]
    exact refs_movedFrom _ i
  have cnt : ∀ j, w.alive j = true → ∀ i, (w.w.ctls j).refsC i = 2 * (w.w.ctls j).spConstr.count i := by
    intro j hj i
    obtain ⟨_, _, _, c, _⟩ := World.c35_registries_consistent (World.hist_reachable (h.view hE hj))
    have c : (w.w.ctls j).spEqConstr.count i + (w.w.ctls j).spIneqConstr.count i + (w.w.ctls j).spBoundConstr.count i =
      (w.w.ctls j).spConstr.count i := c i
    unfold LMPC.refsC; omega
  have pos : ∀ j i, 0 < (w.w.ctls j).refsC i ↔ w.alive j = true ∧ i ∈ (w.w.ctls j).spConstr := by
    intro j i
    cases hj : w.alive j with
    | false => simp [dead j hj i]
    | true =>
      rw [cnt j hj i, ← List.count_pos_iff]
      constructor
      · intro h; exact ⟨rfl, by omega⟩
      · intro h; have := h.2; omega
  have posK : ∀ j i, 0 < (w.w.ctls j).refsK i ↔ w.alive j = true ∧ i ∈ (w.w.ctls j).spCost := by
    intro j i
    cases hj : w.alive j with
    | false => simp [dead j hj i]
    | true =>
      unfold LMPC.refsK
      rw [← List.count_pos_iff]
      simp
  have sum : ∀ (f : Fin n → Nat) (P : Fin n → Prop), (∀ j, 0 < f j ↔ P j) →
      ((0 < ∑ j, if j = k then 0 else f j) ↔ ∃ j, j ≠ k ∧ P j) := by
    intro f P hf
    rw [Finset.sum_pos_iff]
    constructor
    · rintro ⟨j, _, hj⟩
      by_cases e : j = k
      · rw [if_pos e] at hj; exact absurd hj (Nat.lt_irrefl 0)
      · rw [if_neg e] at hj; exact ⟨j, e, (hf j).1 hj⟩
    · rintro ⟨j, e, hj⟩
      exact ⟨j, Finset.mem_univ _, by rw [if_neg e]; exact (hf j).2 hj⟩
  refine ⟨?_, ?_, fun j hj => MWorld.put_ctl_ne w.w hj v⟩
  · refine List.filter_congr fun i _ => ?_
    rw [decide_eq_decide, ← or_assoc]
    refine or_congr ?_ Iff.rfl
    show 0 < w.w.extCons i + ∑ j, (if j = k then 0 else (w.w.ctls j).refsC i) ↔ _
    rw [Nat.add_pos_iff_pos_or_pos, sum _ _ fun j => pos j i]
  · refine List.filter_congr fun i _ => ?_
    rw [decide_eq_decide, ← or_assoc]
    refine or_congr ?_ Iff.rfl
    show 0 < w.w.extCosts i + ∑ j, (if j = k then 0 else (w.w.ctls j).refsK i) ↔ _
    rw [Nat.add_pos_iff_pos_or_pos, sum _ _ fun j => posK j i]

end LWorld
end

namespace LWorld
variable {K : Type} [Field K] {n : Nat}

/-- The state after a step (also after an exception). -/
def after (dmax : K) (w : LWorld K n) (op : LOp K n) : LWorld K n :=
  match w.step dmax op with
  | .ok w' => w'
  | .thrown _ w' => w'
  | .ub => w

/-- The step ends normally. -/
def okB (dmax : K) (w : LWorld K n) (op : LOp K n) : Bool :=
  match w.step dmax op with
  | .ok _ => true
  | _ => false

theorem okB_step {dmax : K} {w : LWorld K n} {op : LOp K n} (h : okB dmax w op = true) :
    w.step dmax op = .ok (after dmax w op) := by
  unfold okB at h
  unfold after
  cases hs : w.step dmax op <;> rw [hs] at h <;> first | rfl | cases h

theorem hist_after {d : Dims} {dmax : K} {E : World K → Op K → Prop} {w : LWorld K n} {g : MGhost n}
    {op : LOp K n} (h : LHist d dmax E w g) (ho : LOpOk d w g op) (he : LExtra E w op)
    (hk : okB dmax w op = true) : LHist d dmax E (after dmax w op) (g.lnext w True op) := .ok h ho he (okB_step hk)

end LWorld

namespace Ex.Life
open LWorld

theorem nice_calls : AboutCalls Ex.Multi.Nice := aboutCalls_noBoundSpan.and aboutCalls_nonnegWeights

/-- Place 0 holds a default constructed controller, places 1 and 2 hold none. -/
def l0 : LWorld ℚ 3 where
  w := {
    pss := fun _ => PreviewSystem.default
    cons := theCons
    costs := theCosts
    extCons := fun _ => 0
    extCosts := fun _ => 0
    ctls := fun k => if k = 0 then LMPC.construct false solver else (LMPC.construct false solver).movedFrom }
  alive := fun k => k = 0

theorem l0_init : LWorld.Init l0 := by
  refine ⟨fun _ => rfl, w0_init.2.1, w0_init.2.2.1, fun k => ?_⟩
  by_cases h : k = 0
  · exact Or.inl ⟨by unfold l0; simp [h], false, solver, if_pos h⟩
  · refine Or.inr ⟨by unfold l0; simp [h], ?_⟩
    show (if k = 0 then _ else _) = LMPC.movedFrom (if k = 0 then _ else _)
    rw [if_neg h]
    rfl

/-- Controller 0 is given a system, constraint 0 and cost 1, and is moved to place 1; a new controller in place 0 gets the
same system and objects, controller 1 is moved on to place 2, controller 0 is destroyed. -/
def l1 := after 1000 l0 (.call 0 opSys)
def l2 := after 1000 l1 (.call 0 opCtl)
def l3 := after 1000 l2 (.call 0 (.addConstraint 0 jk))
def l4 := after 1000 l3 (.call 0 (.addCost 1 jk))
def l5 := after 1000 l4 (.move 1 0)
def l6 := after 1000 l5 (.call 0 (.constructPs false solver 0 jk))
def l7 := after 1000 l6 (.call 0 (.addConstraint 0 jk))
def l8 := after 1000 l7 (.call 0 (.addCost 1 jk))
def l9 := after 1000 l8 (.move 2 1)
def l10 := after 1000 l9 (.destroy 0)

theorem move5 : ∃ g, LHist d 1000 Ex.Multi.Nice l4 g ∧ LOpOk d l4 g (.move 1 0) ∧ g.clean 0 := by
  have a1 := hist_after (d := d) (dmax := 1000) (E := Ex.Multi.Nice) (op := .call 0 opSys) (.start l0_init)
    ⟨Or.inl (by decide +kernel), ⟨rfl, rfl, rfl⟩⟩ ⟨trivial, trivial⟩ (by decide +kernel)
  have a2 := hist_after (op := .call 0 opCtl) a1
    ⟨Or.inl (by decide +kernel), show HasSystem (l1.w.view 0) 0 by unfold HasSystem; decide +kernel⟩ ⟨trivial, trivial⟩
    (by decide +kernel : okB 1000 l1 _ = true)
  have a3 := hist_after (op := .call 0 (.addConstraint 0 jk)) a2
    ⟨Or.inl (by decide +kernel), fun _ => (by decide +kernel : (l2.w.ctls 0).spBoundConstr = [])⟩ ⟨trivial, trivial⟩
    (by decide +kernel : okB 1000 l2 _ = true)
  have a4 := hist_after (op := .call 0 (.addCost 1 jk)) a3 ⟨Or.inl (by decide +kernel), trivial⟩ ⟨trivial, trivial⟩
    (by decide +kernel : okB 1000 l3 _ = true)
  exact ⟨_, a4, ⟨by decide, by decide +kernel, fun h => absurd h (by decide +kernel)⟩, trivial⟩

theorem hl10 : ∃ g, LHist d 1000 Ex.Multi.Nice l10 g ∧ g.clean 2 := by
  obtain ⟨g4, a4, o5, c4⟩ := move5
  have a5 := hist_after (op := .move 1 0) a4 o5 trivial (by decide +kernel)
  have a6 := hist_after (op := .call 0 (.constructPs false solver 0 jk)) a5
    ⟨Or.inr trivial, show HasSystem (l5.w.view 0) 0 by unfold HasSystem; decide +kernel⟩ ⟨trivial, trivial⟩
    (by decide +kernel : okB 1000 l5 _ = true)
  have a7 := hist_after (op := .call 0 (.addConstraint 0 jk)) a6
    ⟨Or.inl (by decide +kernel), fun _ => (by decide +kernel : (l6.w.ctls 0).spBoundConstr = [])⟩ ⟨trivial, trivial⟩
    (by decide +kernel : okB 1000 l6 _ = true)
  have a8 := hist_after (op := .call 0 (.addCost 1 jk)) a7 ⟨Or.inl (by decide +kernel), trivial⟩ ⟨trivial, trivial⟩
    (by decide +kernel : okB 1000 l7 _ = true)
  have a9 := hist_after (op := .move 2 1) a8 ⟨by decide, by decide +kernel, fun h => absurd h (by decide +kernel)⟩ trivial
    (by decide +kernel : okB 1000 l8 _ = true)
  have a10 := hist_after (op := .destroy 0) a9 (by decide +kernel : l9.alive 0 = true) trivial
    (by decide +kernel : okB 1000 l9 _ = true)
  exact ⟨_, a10, c4⟩

/-- C76 (move) applies. -/
example : l5.alive 1 = true ∧ l5.alive 0 = false ∧ l5.w.view 1 = l4.w.view 0 := by
  obtain ⟨g, h, o, _⟩ := move5
  obtain ⟨a, b, c, _⟩ := c76_move h o (by decide +kernel) (okB_step (op := .move 1 0) (by decide +kernel))
  exact ⟨a, b, c⟩

/-- The moved controller still has its constraint and cost, the moved-from one has nothing. -/
example : (l5.w.ctls 1).spConstr = [0] ∧ (l5.w.ctls 1).spCost = [1] ∧ (l5.w.ctls 1).ps = some 0 ∧
    (l5.w.ctls 0).spConstr = [] ∧ (l5.w.ctls 0).ps = none := by decide +kernel

def best : SolveEnv ℚ := Ex.Multi.best

/-- C76 (move assignment) applies, also onto the living controller 0. -/
example : ∃ q v', l8.w.solve best 1 = some q ∧ (after 1000 l8 (.move 0 1)).w.solve best 0 = some (v', q.2.1, q.2.2) := by
  obtain ⟨⟨m, b, q⟩, hr⟩ := Option.isSome_iff_exists.1 (by decide +kernel : (l8.w.solve best 1).isSome = true)
  obtain ⟨_, v', h, _⟩ := c76_move_solve (okB_step (w := l8) (dmax := 1000) (op := .move 0 1) (by decide +kernel)) hr
  exact ⟨_, v', hr, h⟩

/-- C76 (the others) applies. -/
example : l10.w.ctls 2 = l9.w.ctls 2 ∧ l10.w.cons = l9.w.cons := by
  obtain ⟨_, a, _, b, _⟩ := c76_others (env := best) (m' := l9.w) (j := 0) (i := (2 : Fin 3))
    (Or.inr ⟨okB_step (w := l9) (dmax := 1000) (op := .destroy 0) (by decide +kernel), by decide⟩)
  exact ⟨a, b⟩

def r11 : MWorld ℚ 3 × Bool × QP ℚ := (l10.w.solve best 2).getD (l10.w, false, q13)

theorem s11 : l10.w.solve best 2 = some (r11.1, true, r11.2.2) := by
  have e : (l10.w.solve best 2).isSome = true := by decide +kernel
  obtain ⟨r, hr⟩ := Option.isSome_iff_exists.1 e
  have h1 : r11 = r := by unfold r11; rw [hr]; rfl
  have h2 : r11.2.1 = true := by decide +kernel
  rw [hr, ← h2, h1]

theorem o11 (g : MGhost 3) : LOpOk d l10 g (.call 2 (.solve best)) :=
  ⟨Or.inl (by decide +kernel), by decide +kernel,
    contract rfl (fun e => absurd (congrArg Option.isSome e) (by decide +kernel : (l10.w.ctls 2).sol.isSome ≠ false)) (by decide +kernel)⟩

theorem honest11 : ∀ i ∈ (l10.w.ctls 2).spConstr, (l10.w.cons i).userData.Honest := by
  intro i hi
  rw [(by decide +kernel : (l10.w.ctls 2).spConstr = [0])] at hi
  rw [List.mem_singleton.1 hi]
  have : (l10.w.cons 0).kind = .trajectory := by decide +kernel
  unfold Constr.userData
  rw [this]
  trivial

theorem plain11 : ∀ i ∈ (l10.w.ctls 2).spCost, ¬ (l10.w.costs i).userData.PerStepState d := by
  intro i hi
  rw [(by decide +kernel : (l10.w.ctls 2).spCost = [1])] at hi
  rw [List.mem_singleton.1 hi]
  have : (l10.w.costs 1).kind = .control := by decide +kernel
  unfold Cost.userData
  rw [this]
  exact id

theorem opt11 : IsOptimal r11.2.2 (best.answer r11.2.2).2.e := by
  obtain ⟨g, h, _⟩ := hl10
  obtain ⟨v, hv, _⟩ := MWorld.solve_some s11
  have P := World.c29_hessian (h.view nice_calls (by decide +kernel : l10.alive 2 = true)) (fun _ _ h => h.2) (o11 g).2
    (by decide +kernel) hv
  rw [(by decide +kernel : r11.2.2.nrVar = r11.2.2.c.rows)] at P
  exact optimal_of_stationary (psd_of_pd P) (by decide +kernel) (by decide +kernel)

/-- C76 (end to end) applies to the controller that was moved twice, with every back end. -/
example (s : SolverKind) (junk : Junk ℚ) :
    (∀ i ∈ (l10.w.ctls 2).spConstr, (l10.w.cons i).userData.Holds d (Spec.traj d (l10.w.view 2) 0 (r11.1.ctls 2).control.e)
      (r11.1.ctls 2).control.e) ∧
    IsStacked d (Spec.traj d (l10.w.view 2) 0 (r11.1.ctls 2).control.e) (r11.1.ctls 2).trajectory := by
  obtain ⟨g, h, c⟩ := hl10
  obtain ⟨a, b, _⟩ := c76_end_to_end (s := s) (junk := junk) nice_calls (fun _ _ h => h.1) h
    (by decide +kernel : l10.alive 2 = true) (o11 g) (by decide +kernel) (fun _ => c) honest11
    (fun i hi hp => absurd hp (plain11 i hi)) s11 (by decide +kernel : (l10.w.ctls 2).ps = some 0) (by decide +kernel)
    (backEndOptimal_of (by decide +kernel) (by decide +kernel) (by decide +kernel) opt11)
  exact ⟨a, b⟩

example : (r11.1.ctls 2).control.e 0 = 1000000 / 1000001 := by decide +kernel

/-- C76 (dropping): the destroyed controller no longer keeps the objects alive, so this solve drops them; while controller 0
still lived it would not have. -/
example : (r11.1.ctls 2).spConstr = [] ∧ (r11.1.ctls 2).spCost = [] := by decide +kernel
example : ((l9.w.solve best 2).map fun r => ((r.1.ctls 2).spConstr, (r.1.ctls 2).spCost)) = some ([0], [1]) := by decide +kernel
example : ∃ g, LHist d 1000 Ex.Multi.Nice l10 g := by obtain ⟨g, h, _⟩ := hl10; exact ⟨g, h⟩
example := fun (g : MGhost 3) (h : LHist d 1000 Ex.Multi.Nice l10 g) => c76_drops nice_calls h (by decide +kernel) s11

/-! The same for an `InitialStateLMPC` that is moved before it solves. -/

def opR : Op ℚ := .resetInitialStateCost (mat 2 2 [[1, 0], [0, 1]]) (vec [1/10, 1/5])
def opB : Op ℚ := .resetInitialStateBounds (evec [.fin (-5), .fin (-5)]) (evec [.fin 5, .fin 5])

def i2 := after 1000 l1 (.call 2 (.constructPs true solver 0 jk))
def i3 := after 1000 i2 (.call 2 (.addConstraint 0 jk))
def i4 := after 1000 i3 (.call 2 (.addCost 1 jk))
def i5 := after 1000 i4 (.call 2 opR)
def i6 := after 1000 i5 (.call 2 opB)
def i7 := after 1000 i6 (.move 1 2)

theorem hi7 : ∃ g, LHist d 1000 Ex.Multi.Nice i7 g ∧ g.clean 1 := by
  have a1 := hist_after (d := d) (dmax := 1000) (E := Ex.Multi.Nice) (op := .call 0 opSys) (.start l0_init)
    ⟨Or.inl (by decide +kernel), ⟨rfl, rfl, rfl⟩⟩ ⟨trivial, trivial⟩ (by decide +kernel)
  have a2 := hist_after (op := .call 2 (.constructPs true solver 0 jk)) a1
    ⟨Or.inr trivial, show HasSystem (l1.w.view 2) 0 by unfold HasSystem; decide +kernel⟩ ⟨trivial, trivial⟩
    (by decide +kernel : okB 1000 l1 _ = true)
  have a3 := hist_after (op := .call 2 (.addConstraint 0 jk)) a2
    ⟨Or.inl (by decide +kernel), fun _ => (by decide +kernel : (i2.w.ctls 2).spBoundConstr = [])⟩ ⟨trivial, trivial⟩
    (by decide +kernel : okB 1000 i2 _ = true)
  have a4 := hist_after (op := .call 2 (.addCost 1 jk)) a3 ⟨Or.inl (by decide +kernel), trivial⟩ ⟨trivial, trivial⟩
    (by decide +kernel : okB 1000 i3 _ = true)
  have a5 := hist_after (op := .call 2 opR) a4 ⟨Or.inl (by decide +kernel), trivial⟩ ⟨trivial, trivial⟩
    (by decide +kernel : okB 1000 i4 _ = true)
  have a6 := hist_after (op := .call 2 opB) a5 ⟨Or.inl (by decide +kernel), trivial⟩ ⟨trivial, trivial⟩
    (by decide +kernel : okB 1000 i5 _ = true)
  exact ⟨_, hist_after (op := .move 1 2) a6 ⟨by decide, by decide +kernel, fun h => absurd h (by decide +kernel)⟩ trivial
    (by decide +kernel : okB 1000 i6 _ = true), trivial⟩

def rI7 : MWorld ℚ 3 × Bool × QP ℚ := (i7.w.solve (envI Ex.Multi.yMI true) 1).getD (i7.w, false, q13)

theorem sI7 : i7.w.solve (envI Ex.Multi.yMI true) 1 = some (rI7.1, true, rI7.2.2) := by
  have e : (i7.w.solve (envI Ex.Multi.yMI true) 1).isSome = true := by decide +kernel
  obtain ⟨r, hr⟩ := Option.isSome_iff_exists.1 e
  have h1 : rI7 = r := by unfold rI7; rw [hr]; rfl
  have h2 : rI7.2.1 = true := by decide +kernel
  rw [hr, ← h2, h1]

theorem optI7 : IsOptimal rI7.2.2 ((envI Ex.Multi.yMI true).answer rI7.2.2).2.e := by
  refine optimal_of_stationary ?_ (by decide +kernel) (by decide +kernel)
  rw [(by decide +kernel : rI7.2.2.c.rows = 4)]
  have hd : ∀ i < 4, ∀ j < 4, rI7.2.2.Q.e i j = if i = j then (if i < 2 then 1 else 1000001 / 1000000) else 0 := by decide +kernel
  refine ⟨fun i hi j hj => by rw [hd i hi j hj, hd j hj i hi]; by_cases h : i = j <;> simp [h, eq_comm], fun x => ?_⟩
  apply Finset.sum_nonneg; intro i hi
  apply Finset.sum_nonneg; intro j hj
  rw [hd i (Finset.mem_range.1 hi) j (Finset.mem_range.1 hj)]
  by_cases h : i = j
  · subst h
    rw [if_pos rfl]
    have := mul_self_nonneg (x i)
    split <;> nlinarith
  · rw [if_neg h]; simp

/-- C76 (end to end) applies to it, with every back end. -/
example (s : SolverKind) (junk : Junk ℚ) :
    ∃ x : Vec ℚ, (rI7.1.ctls 1).initialState (rI7.1.pss 0) = some x ∧ InitBounds d (i7.w.ctls 1) x.e ∧
      IsStacked d (Spec.trajFrom d (i7.w.view 1) 0 x.e (rI7.1.ctls 1).control.e) (rI7.1.ctls 1).trajectory := by
  obtain ⟨g, h, c⟩ := hi7
  have o : LOpOk d i7 g (.call 1 (.solve (envI Ex.Multi.yMI true))) :=
    ⟨Or.inl (by decide +kernel), by decide +kernel, contractI rfl (by decide +kernel) (by decide +kernel)⟩
  have hh : ∀ i ∈ (i7.w.ctls 1).spConstr, (i7.w.cons i).userData.Honest := by
    intro i hi
    rw [(by decide +kernel : (i7.w.ctls 1).spConstr = [0])] at hi
    rw [List.mem_singleton.1 hi]
    have : (i7.w.cons 0).kind = .trajectory := by decide +kernel
    unfold Constr.userData
    rw [this]
    trivial
  have hf : ∀ i ∈ (i7.w.ctls 1).spCost, ¬ (i7.w.costs i).userData.PerStepState d := by
    intro i hi
    rw [(by decide +kernel : (i7.w.ctls 1).spCost = [1])] at hi
    rw [List.mem_singleton.1 hi]
    have : (i7.w.costs 1).kind = .control := by decide +kernel
    unfold Cost.userData
    rw [this]
    exact id
  obtain ⟨x, a, b, e, _⟩ := c76_end_to_end_init (s := s) (junk := junk) nice_calls (fun _ _ h => h.1) h
    (by decide +kernel : i7.alive 1 = true) o (by decide +kernel) (fun _ => c) hh (fun i hi hp => absurd hp (hf i hi)) sI7
    (by decide +kernel : (i7.w.ctls 1).ps = some 0) (by decide +kernel)
    (backEndOptimal_of (by decide +kernel) (by decide +kernel) (by decide +kernel) optI7)
  exact ⟨x, a, b, e⟩

end Ex.Life
end Copra
