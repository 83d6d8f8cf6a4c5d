import Verif.Proofs.UserThrow
import Verif.Proofs.Calls

/-! # C115: no exception from client code damages the controller -/

namespace Copra
open Spec

set_option linter.unusedSectionVars false
set_option linter.unusedSimpArgs false

variable {K S : Type} [Field K] [LinearOrder K] [IsStrictOrderedRing K]

namespace UWorld

variable {d : Dims} {dmax : K} {X X' : UWorld K S} {g : Ghost} {n : Nat × Nat} {env : SolveEnv K} {b : Bool} {q : QP K}
  {p : Nat} {junk : Junk K}

/-- **C115** (no new states): with calls of `solve` aborted by the solver or by user-defined objects a program reaches no
state that it could not reach without, but for the time measurements, the problem under construction and the row counters; and
these have no influence on a `solve`. -/
theorem c115_no_new_states (h : XHist d dmax X g n) :
    ∃ X1 X2, UHist d dmax X2 g ∧ ButTimesU X X1 ∧ AlikeButProblem X1 X2 ∧
      ∀ env, X2.solve env = X.solve env ∧
        ∀ X3 q, X.solveThrow env = some (X3, q) → ∃ X4, ButTimesU X3 X4 ∧ X1.solveThrow env = some (X4, q) := by
  obtain ⟨a, b, H⟩ := xhist_auhist h
  obtain ⟨X2, H2, A, -, e⟩ := c99_no_new_states H
  refine ⟨_, X2, H2, butTimes_clock X, A, fun env => ⟨(e env).trans (clock_solve env X), fun X3 q ht => ?_⟩⟩
  exact ⟨X3.clock a b, butTimes_clock X3, by rw [clock_solveThrow, ht]; rfl⟩

/-- The controller's systems are sound. -/
theorem xhist_sys (h : XHist d dmax X g n) (hp : X.world.ctl.ps = some p) {ps : PreviewSystem K}
    (hps : (if (X.world.pss p).isUpdated then some (X.world.pss p) else (X.world.pss p).updateSystem) = some ps) :
    ps.A = (X.world.pss p).A ∧ ps.B = (X.world.pss p).B ∧ ps.d = (X.world.pss p).d ∧ ps.x0 = (X.world.pss p).x0 := by
  obtain ⟨a, b, H0⟩ := xhist_auhist h
  obtain ⟨s, -, H⟩ := auhist_uhist H0
  by_cases hu : (X.world.pss p).isUpdated = true
  · rw [if_pos hu] at hps; cases hps; exact ⟨rfl, rfl, rfl, rfl⟩
  · rw [if_neg hu] at hps
    obtain ⟨v, gv, P, -⟩ := projects H
    have hs := (P.hist.good.ctl p (P.without.ctl.ps.trans hp)).1
    have G := (P.hist.good.sys p hs).1
    rw [P.without.pss] at G
    obtain ⟨ps', e, -, -, -, r1, r2, r3, r4⟩ := Copra.updateSystem_ok (ps := X.world.pss p) G
    rw [hps] at e; cases e
    exact ⟨r1, r2, r3, r4⟩

/-- **C115** (what a solver that throws leaves untouched): the results, the time measurements, the registered constraints
and costs, the data of the initial-state controller, the declared contents of the library's constraints and costs, the systems,
and every object that is not registered.  Every registered user-defined object was updated as by a `solve` that is not
aborted. -/
theorem c115_keeps (h : XHist d dmax X g n) (ht : X.solveThrow env = some (X', q)) (hp : X.world.ctl.ps = some p) :
    (X'.world.ctl.control = X.world.ctl.control ∧ X'.world.ctl.trajectory = X.world.ctl.trajectory ∧
      X'.world.ctl.solveTime = X.world.ctl.solveTime ∧ X'.world.ctl.solveAndBuildTime = X.world.ctl.solveAndBuildTime) ∧
    (X'.world.ctl.spConstr = X.world.ctl.spConstr ∧ X'.world.ctl.spEqConstr = X.world.ctl.spEqConstr ∧
      X'.world.ctl.spIneqConstr = X.world.ctl.spIneqConstr ∧ X'.world.ctl.spBoundConstr = X.world.ctl.spBoundConstr ∧
      X'.world.ctl.spCost = X.world.ctl.spCost) ∧
    (X'.world.ctl.isInit = X.world.ctl.isInit ∧ X'.world.ctl.ps = X.world.ctl.ps ∧ X'.world.ctl.R = X.world.ctl.R ∧
      X'.world.ctl.r = X.world.ctl.r ∧ X'.world.ctl.x0lb = X.world.ctl.x0lb ∧ X'.world.ctl.x0ub = X.world.ctl.x0ub) ∧
    (∀ i, X.consClass i = none → (X'.world.cons i).userData = (X.world.cons i).userData) ∧
    (∀ i, X.costClass i = none → (X'.world.costs i).userData = (X.world.costs i).userData) ∧
    (∀ r, (X'.world.pss r).A = (X.world.pss r).A ∧ (X'.world.pss r).B = (X.world.pss r).B ∧
      (X'.world.pss r).d = (X.world.pss r).d ∧ (X'.world.pss r).x0 = (X.world.pss r).x0) ∧
    (∀ i ∉ X.world.ctl.spConstr, X'.world.cons i = X.world.cons i ∧ X'.consMem i = X.consMem i) ∧
    (∀ i ∉ X.world.ctl.spCost, X'.world.costs i = X.world.costs i ∧ X'.costMem i = X.costMem i) ∧
    (X'.world.extCons = X.world.extCons ∧ X'.world.extCosts = X.world.extCosts ∧ X'.consClass = X.consClass ∧
      X'.costClass = X.costClass) ∧
    (∀ j C, X.consClass j = some C →
      ConstrClass.Updates C (X'.world.pss p) (X.world.ctl.spConstr.count j) (constrObj X j) (constrObj X' j)) ∧
    (∀ j C, X.costClass j = some C →
      CostClass.Updates C (X'.world.pss p) (X.world.ctl.spCost.count j) (costObj X j) (costObj X' j)) := by
  obtain ⟨x1, x2⟩ := refs_same ht
  obtain ⟨X1, p2, l, s, h1, hp2, hl, -, -, rfl⟩ := solveThrow_inv ht
  obtain ⟨p1, ps, l1, l2, cons, cm, costs, km, hp1, hps, -, -, hc, hk, rfl, F⟩ := updateSystem_inv h1
  rw [hp] at hp1; cases hp1
  have F := F.trans (LMPC.makeQPForm_fixed hl)
  have hsys := xhist_sys h hp hps
  obtain ⟨c1, c2⟩ := updateConstrs_keeps hc
  obtain ⟨k1, k2⟩ := updateCosts_keeps hk
  refine ⟨⟨F.control, F.trajectory, F.solveTime, F.solveAndBuildTime⟩,
    ⟨F.spConstr, F.spEqConstr, F.spIneqConstr, F.spBoundConstr, F.spCost⟩,
    ⟨F.isInit, F.ps, F.R, F.r, F.x0lb, F.x0ub⟩, c1, k1, fun r => ?_, c2, k2, ⟨x1, x2, rfl, rfl⟩, fun j C hC => ?_, fun j C hC => ?_⟩
  · dsimp only
    by_cases e : r = p
    · subst e; simp only [World.upd_same]; exact hsys
    · simp only [World.upd_ne _ _ e, and_self]
  · have := (updateConstrs_sim (cw := X.world.cons) (fun _ _ => rfl) hc).2.2 j C hC
    dsimp only [constrObj]
    rw [World.upd_same]; exact this
  · have := (updateCosts_sim (cw := X.world.costs) (fun _ _ => rfl) hk).2 j C hC
    dsimp only [costObj]
    rw [World.upd_same]; exact this

/-- **C115** (defined): whatever calls of `solve` were aborted before, and by whom, `solve()` is defined, whether the solver
returns or throws, and hands over a problem of consistent sizes. -/
theorem c115_defined (h : XHist d dmax X g n) (hconf : Conforming d X) (hret : Returning d X) (hint : RowsCount X)
    (ho : UOk d X g (.api (.solve env))) :
    (∃ X' b q, X.solve env = some (X', b, q) ∧ X.step dmax (.api (.solve env)) = .ok X' ∧ WellSized q ∧
      q.nrVar = numVars d X.world.ctl) ∧
    ∃ X' q, X.solveThrow env = some (X', q) ∧ WellSized q ∧ q.nrVar = numVars d X.world.ctl := by
  obtain ⟨a, b, H⟩ := xhist_auhist h
  obtain ⟨X', b', q, h1, -, h2, h3⟩ := c99_defined (X := X.clock a b) H hconf hret hint (clock_uok ho)
  rw [clock_solve] at h1
  refine ⟨⟨X', b', q, h1, by simp only [UWorld.step, h1]; rfl, h2, h3⟩, ?_⟩
  rw [solve_eq, Option.bind_eq_some_iff] at h1
  obtain ⟨⟨Y, q2⟩, e1, e2⟩ := h1
  refine ⟨Y, q2, e1, ?_⟩
  unfold World.finish at e2
  simp only [Option.bind_eq_some_iff, Option.map_eq_some_iff, Prod.mk.injEq] at e2
  obtain ⟨_, ⟨_, _, _, _, rfl⟩, _, _, rfl⟩ := e2
  exact ⟨h2, h3⟩

/-- **C115** (the problem handed over): the solver that throws was handed the problem it would have been handed had it
returned. -/
theorem c115_same_problem (ht : X.solveThrow env = some (X', q)) {Y : UWorld K S} {q2 : QP K} (hs : X.solve env = some (Y, b, q2)) :
    q2 = q := by
  rw [solve_eq, ht, Option.bind_some] at hs
  unfold World.finish at hs
  simp only [Option.map_eq_some_iff, Option.bind_eq_some_iff, Prod.mk.injEq] at hs
  obtain ⟨_, ⟨_, _, _, _, rfl⟩, _, _, rfl⟩ := hs
  rfl

/-- **C115** (the constraints): the problem of the next `solve` imposes the registered constraints and nothing else. -/
theorem c115_feasible (h : XHist d dmax X g n) (hconf : Conforming d X) (ho : UOk d X g (.api (.solve env)))
    (hi : X.world.ctl.isInit = false) (hb : X.world.ctl.spBoundConstr = [] → g.clean)
    (hh : ∀ i ∈ X.world.ctl.spConstr, X.consClass i = none → (X.world.cons i).userData.Honest)
    (hs : X.solve env = some (X', b, q)) (hp : X.world.ctl.ps = some p) (U : Nat → K) :
    Feasible q U ↔ AllHold d X X' p U ∧
      (X.world.ctl.spBoundConstr = [] → ∀ j < d.m * d.N, -dmax ≤ U j ∧ U j ≤ dmax) := by
  obtain ⟨a, b, H⟩ := xhist_auhist h
  exact c99_feasible (X := X.clock a b) H hconf (clock_uok ho) hi hb hh ((clock_solve env X).trans hs) hp U

/-- **C115** (the objective): and its objective is the total cost. -/
theorem c115_objective (h : XHist d dmax X g n) (hconf : Conforming d X) (ho : UOk d X g (.api (.solve env)))
    (hi : X.world.ctl.isInit = false)
    (hf : ∀ i ∈ X.world.ctl.spCost, X.costClass i = none → (X.world.costs i).userData.PerStepState d →
      g.fresh i ∧ X.world.ctl.spCost.count i = 1)
    (hs : X.solve env = some (X', b, q)) (hp : X.world.ctl.ps = some p) :
    ∃ k : K, ∀ U : Nat → K, objective q U = totalWith d X X' p U + k := by
  obtain ⟨a, b, H⟩ := xhist_auhist h
  exact c99_objective (X := X.clock a b) H hconf (clock_uok ho) hi hf ((clock_solve env X).trans hs) hp

/-- **C115** (end to end, `LMPC`): C91 holds of histories with calls of `solve` aborted by the solver and by user-defined
objects. -/
theorem c115_end_to_end {k : SolverKind} (h : XHist d dmax X g n) (hconf : Conforming d X)
    (ho : UOk d X g (.api (.solve env)))
    (hi : X.world.ctl.isInit = false) (hb : X.world.ctl.spBoundConstr = [] → g.clean)
    (hh : ∀ i ∈ X.world.ctl.spConstr, X.consClass i = none → (X.world.cons i).userData.Honest)
    (hf : ∀ i ∈ X.world.ctl.spCost, X.costClass i = none → (X.world.costs i).userData.PerStepState d →
      g.fresh i ∧ X.world.ctl.spCost.count i = 1)
    (hs : X.solve env = some (X', true, q)) (hp : X.world.ctl.ps = some p)
    (hn : q.nrEq + q.nrIneq + 2 * q.nrVar ≤ intMax) (hopt : BackEndOptimal dmax junk k q (env.answer q).2.e) :
    AllHold d X X' p X'.world.ctl.control.e ∧
    IsStacked d (traj d X.world p X'.world.ctl.control.e) X'.world.ctl.trajectory ∧
    ∀ V : Nat → K, AllHold d X X' p V → (∀ j < d.m * d.N, -dmax ≤ V j ∧ V j ≤ dmax) →
      (k = .osqp → ∀ i < q.Aineq.rows, -dmax ≤ rowValue q.Aineq V i) →
      totalWith d X X' p X'.world.ctl.control.e ≤ totalWith d X X' p V := by
  obtain ⟨a, b, H⟩ := xhist_auhist h
  exact c99_end_to_end (X := X.clock a b) H hconf (clock_uok ho) hi hb hh hf ((clock_solve env X).trans hs) hp hn hopt

/-- **C115** (end to end, `InitialStateLMPC`). -/
theorem c115_end_to_end_from {k : SolverKind} (h : XHist d dmax X g n) (hconf : Conforming d X)
    (ho : UOk d X g (.api (.solve env)))
    (hi : X.world.ctl.isInit = true) (hb : X.world.ctl.spBoundConstr = [] → g.clean)
    (hh : ∀ i ∈ X.world.ctl.spConstr, X.consClass i = none → (X.world.cons i).userData.Honest)
    (hf : ∀ i ∈ X.world.ctl.spCost, X.costClass i = none → (X.world.costs i).userData.PerStepState d →
      g.fresh i ∧ X.world.ctl.spCost.count i = 1)
    (hs : X.solve env = some (X', true, q)) (hp : X.world.ctl.ps = some p)
    (hn : q.nrEq + q.nrIneq + 2 * q.nrVar ≤ intMax) (hopt : BackEndOptimal dmax junk k q (env.answer q).2.e) :
    ∃ x : Vec K, X'.world.ctl.initialState (X'.world.pss p) = some x ∧ InitBounds d X.world.ctl x.e ∧
      IsStacked d (trajFrom d X.world p x.e X'.world.ctl.control.e) X'.world.ctl.trajectory ∧
      AllHoldFrom d X X' p x.e X'.world.ctl.control.e ∧
      ∀ V : Nat → K, AllHoldFrom d X X' p x.e V → (∀ j < d.m * d.N, -dmax ≤ V j ∧ V j ≤ dmax) →
        (k = .osqp → ∀ i < q.Aineq.rows, -dmax ≤ rowValue q.Aineq (joined d x.e V) i) →
        totalWithFrom d X X' p x.e X'.world.ctl.control.e ≤ totalWithFrom d X X' p x.e V := by
  obtain ⟨a, b, H⟩ := xhist_auhist h
  exact c99_end_to_end_from (X := X.clock a b) H hconf (clock_uok ho) hi hb hh hf ((clock_solve env X).trans hs) hp hn hopt

/-- The two accounts of a `solve` aborted by the solver agree, with and without the record of calls. -/
theorem c115_calls (env : SolveEnv K) (inProblem : Bool) (X : UWorld K S) :
    X.solveThrow env = (X.solveThrowCalls env inProblem).map fun r => r.2 := by
  unfold solveThrow solveThrowCalls World.solveTailThrow
  rw [← updateSystemCalls_erase]
  cases X.updateSystemCalls env.junk with
  | none => rfl
  | some r =>
    obtain ⟨t, X1⟩ := r
    simp only [Option.map_some, Option.bind_some, Option.bind_eq_bind, Option.bind_assoc, Option.map_bind, Function.comp_def,
      Option.pure_def]

/-- With no user-defined objects this is the aborted `solve` of C86. -/
theorem c115_library (hC : ∀ i, X.consClass i = none) (hK : ∀ i, X.costClass i = none) (env : SolveEnv K) :
    X.solveThrow env = (X.world.solveThrow env).map fun r => ({ X with world := r.1 }, r.2) := by
  have cons : ∀ (ps : PreviewSystem K) (L : List Nat) (c : Nat → Constr K),
      L.foldlM (updateConstr X.consClass ps) (c, X.consMem) = (L.foldlM (World.updateConstr ps) c).map fun r => (r, X.consMem) := by
    intro ps L
    induction L with
    | nil => intro c; rfl
    | cons a L ih =>
      intro c
      rw [List.foldlM_cons, List.foldlM_cons]
      have e : updateConstr X.consClass ps (c, X.consMem) a = (World.updateConstr ps c a).map fun r => (r, X.consMem) := by
        unfold updateConstr
        rw [hC a]
        cases World.updateConstr ps c a <;> rfl
      rw [e]
      cases World.updateConstr ps c a with
      | none => rfl
      | some c1 => exact ih c1
  have costs : ∀ (ps : PreviewSystem K) (L : List Nat) (c : Nat → Cost K),
      L.foldlM (updateCost X.costClass ps) (c, X.costMem) = (L.foldlM (World.updateCost ps) c).map fun r => (r, X.costMem) := by
    intro ps L
    induction L with
    | nil => intro c; rfl
    | cons a L ih =>
      intro c
      rw [List.foldlM_cons, List.foldlM_cons]
      have e : updateCost X.costClass ps (c, X.costMem) a = (World.updateCost ps c a).map fun r => (r, X.costMem) := by
        unfold updateCost
        rw [hK a]
        cases World.updateCost ps c a <;> rfl
      rw [e]
      cases World.updateCost ps c a with
      | none => rfl
      | some c1 => exact ih c1
  have hu : X.updateSystem env.junk = (X.world.updateSystem env.junk).map fun w => { X with world := w } := by
    rw [updateSystem_eq, World.updateSystem_eq]
    simp only [cons, costs, Option.map_bind, Option.bind_map, Function.comp_def, Option.map_some]
  unfold solveThrow World.solveThrow World.solveTailThrow
  rw [hu]
  cases X.world.updateSystem env.junk with
  | none => rfl
  | some w =>
    simp only [Option.map_some, Option.bind_some, Option.bind_eq_bind, Option.bind_assoc, Option.map_bind, Function.comp_def,
      Option.pure_def]

end UWorld
end Copra
