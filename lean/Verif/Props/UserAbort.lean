import Verif.Proofs.UserAbort
import Verif.Proofs.Declared
import Verif.Props.UserOptimum

/-! # Property C99: an exception from the `update` of a user-defined object -/

namespace Copra
open Spec

set_option linter.unusedSectionVars false
set_option linter.unusedSimpArgs false

section
variable {K S : Type} [Field K] [LinearOrder K] [IsStrictOrderedRing K]

namespace UWorld

variable {d : Dims} {dmax : K} {X X' : UWorld K S} {g : Ghost} {n : Nat × Nat} {env : SolveEnv K} {b : Bool} {q : QP K}
  {p : Nat} {junk : Junk K}

/-- The loop over the constraints. -/
theorem updateConstrs_keeps {cls : Nat → Option (ConstrClass K S)} {ps : PreviewSystem K} : ∀ {L : List Nat}
    {c c' : (Nat → Constr K) × (Nat → S)}, L.foldlM (updateConstr cls ps) c = some c' →
    (∀ i, cls i = none → (c'.1 i).userData = (c.1 i).userData) ∧ (∀ i ∉ L, c'.1 i = c.1 i ∧ c'.2 i = c.2 i) := by
  intro L
  induction L with
  | nil => intro c c' e; cases e; exact ⟨fun _ _ => rfl, fun _ _ => ⟨rfl, rfl⟩⟩
  | cons a L ih =>
    intro c c' e
    rw [List.foldlM_cons] at e
    simp only [Option.bind_eq_bind, Option.bind_eq_some_iff] at e
    obtain ⟨c1, e1, e2⟩ := e
    obtain ⟨h1, h2⟩ := ih e2
    have k : (∀ i, cls i = none → (c1.1 i).userData = (c.1 i).userData) ∧ (∀ i, i ≠ a → c1.1 i = c.1 i ∧ c1.2 i = c.2 i) := by
      unfold updateConstr at e1
      cases hC : cls a with
      | some C =>
        rw [hC] at e1
        simp only [Option.bind_eq_bind, Option.bind_eq_some_iff, Option.pure_def, Option.some.injEq] at e1
        obtain ⟨o, -, rfl⟩ := e1
        refine ⟨fun i hi => ?_, fun i hi => ⟨World.upd_ne _ _ hi, World.upd_ne _ _ hi⟩⟩
        dsimp only
        rw [World.upd_ne _ _ (by rintro rfl; rw [hC] at hi; cases hi)]
      | none =>
        rw [hC] at e1
        unfold World.updateConstr at e1
        simp only [Option.bind_eq_bind, Option.bind_eq_some_iff, Option.pure_def, Option.some.injEq] at e1
        obtain ⟨_, ⟨k, hk, rfl⟩, rfl⟩ := e1
        refine ⟨fun i hi => ?_, fun i hi => ⟨World.upd_ne _ _ hi, rfl⟩⟩
        by_cases ha : i = a
        · subst ha; simp only [World.upd_same]; exact Constr.update_userData hk
        · simp only [World.upd_ne _ _ ha]
    refine ⟨fun i hi => (h1 i hi).trans (k.1 i hi), fun i hi => ?_⟩
    simp only [List.mem_cons, not_or] at hi
    exact ⟨(h2 i hi.2).1.trans (k.2 i hi.1).1, (h2 i hi.2).2.trans (k.2 i hi.1).2⟩

/-- The loop over the costs. -/
theorem updateCosts_keeps {cls : Nat → Option (CostClass K S)} {ps : PreviewSystem K} : ∀ {L : List Nat}
    {c c' : (Nat → Cost K) × (Nat → S)}, L.foldlM (updateCost cls ps) c = some c' →
    (∀ i, cls i = none → (c'.1 i).userData = (c.1 i).userData) ∧ (∀ i ∉ L, c'.1 i = c.1 i ∧ c'.2 i = c.2 i) := by
  intro L
  induction L with
  | nil => intro c c' e; cases e; exact ⟨fun _ _ => rfl, fun _ _ => ⟨rfl, rfl⟩⟩
  | cons a L ih =>
    intro c c' e
    rw [List.foldlM_cons] at e
    simp only [Option.bind_eq_bind, Option.bind_eq_some_iff] at e
    obtain ⟨c1, e1, e2⟩ := e
    obtain ⟨h1, h2⟩ := ih e2
    have k : (∀ i, cls i = none → (c1.1 i).userData = (c.1 i).userData) ∧ (∀ i, i ≠ a → c1.1 i = c.1 i ∧ c1.2 i = c.2 i) := by
      unfold updateCost at e1
      cases hC : cls a with
      | some C =>
        rw [hC] at e1
        simp only [Option.bind_eq_bind, Option.bind_eq_some_iff, Option.pure_def, Option.some.injEq] at e1
        obtain ⟨o, -, rfl⟩ := e1
        refine ⟨fun i hi => ?_, fun i hi => ⟨World.upd_ne _ _ hi, World.upd_ne _ _ hi⟩⟩
        dsimp only
        rw [World.upd_ne _ _ (by rintro rfl; rw [hC] at hi; cases hi)]
      | none =>
        rw [hC] at e1
        unfold World.updateCost at e1
        simp only [Option.bind_eq_bind, Option.bind_eq_some_iff, Option.pure_def, Option.some.injEq] at e1
        obtain ⟨_, ⟨k, hk, rfl⟩, rfl⟩ := e1
        refine ⟨fun i hi => ?_, fun i hi => ⟨World.upd_ne _ _ hi, rfl⟩⟩
        by_cases ha : i = a
        · subst ha; simp only [World.upd_same]; exact World.userData_sameData (Cost.update_same hk).data
        · simp only [World.upd_ne _ _ ha]
    refine ⟨fun i hi => (h1 i hi).trans (k.1 i hi), fun i hi => ?_⟩
    simp only [List.mem_cons, not_or] at hi
    exact ⟨(h2 i hi.2).1.trans (k.2 i hi.1).1, (h2 i hi.2).2.trans (k.2 i hi.1).2⟩

/-! ## The claims -/

/-- **C99** (no new states): with calls of `solve` aborted by a user-defined `update` a program reaches no state that it
could not reach without, but for the problem under construction and the row counters; and these have no influence on a
`solve`. -/
theorem c99_no_new_states (h : AUHist d dmax X g n) :
    ∃ X1, UHist d dmax X1 g ∧ AlikeButProblem X X1 ∧ (X1.world.ctl.nrEqConstr, X1.world.ctl.nrIneqConstr) = n ∧
      ∀ env, X1.solve env = X.solve env := by
  obtain ⟨s, hn, H⟩ := auhist_uhist h
  exact ⟨X.patch s, H, alike_patch s X, hn, fun env => patch_solve env X⟩

/-- **C99** (what an aborted `solve` leaves untouched): everything a client can ask the controller, in particular
`control()` and `trajectory()`, its registered objects, the declared contents of the library's constraints and costs, the
systems, and every user-defined object that is not registered. -/
theorem c99_keeps {a : AbortAt K S} (h : AUHist d dmax X g n) (ha : X.solveUserThrow junk a = some X') :
    ButProblem X.world.ctl X'.world.ctl ∧
    (∀ i, X.consClass i = none → (X'.world.cons i).userData = (X.world.cons i).userData) ∧
    (∀ i, X.costClass i = none → (X'.world.costs i).userData = (X.world.costs i).userData) ∧
    (∀ p, (X'.world.pss p).A = (X.world.pss p).A ∧ (X'.world.pss p).B = (X.world.pss p).B ∧
      (X'.world.pss p).d = (X.world.pss p).d ∧ (X'.world.pss p).x0 = (X.world.pss p).x0) ∧
    (∀ i ∉ X.world.ctl.spConstr, X'.world.cons i = X.world.cons i ∧ X'.consMem i = X.consMem i) ∧
    (∀ i ∉ X.world.ctl.spCost, X'.world.costs i = X.world.costs i ∧ X'.costMem i = X.costMem i) ∧
    X'.world.extCons = X.world.extCons ∧ X'.world.extCosts = X.world.extCosts ∧ X'.consClass = X.consClass ∧
    X'.costClass = X.costClass := by
  obtain ⟨s, -, H⟩ := auhist_uhist h
  have begun : ∀ {w : World K} {ps : PreviewSystem K}, X.world.beginUpdate junk = some (w, ps) →
      ButProblem X.world.ctl w.ctl ∧ w.cons = X.world.cons ∧ w.costs = X.world.costs ∧
      w.extCons = X.world.extCons ∧ w.extCosts = X.world.extCosts ∧
      (∀ p, (w.pss p).A = (X.world.pss p).A ∧ (w.pss p).B = (X.world.pss p).B ∧
        (w.pss p).d = (X.world.pss p).d ∧ (w.pss p).x0 = (X.world.pss p).x0) := by
    intro w ps hb
    obtain ⟨p, hp, hps, hw, hl⟩ := beginUpdate_inv hb
    have hl := hl s
    have B : ButProblem X.world.ctl w.ctl := by
      have e : ∀ {α : Type} (f : LMPC K → α), f (w.ctl.patch s) = f (X.world.ctl.patch s) := fun f => congrArg f hl
      exact ⟨e LMPC.isInit, e LMPC.ps, e LMPC.sol, e LMPC.spCost, e LMPC.spConstr, e LMPC.spEqConstr, e LMPC.spIneqConstr,
        e LMPC.spBoundConstr, e fun l => l.Q.rows, e fun l => l.Q.cols, e fun l => l.c.rows, e LMPC.lb, e LMPC.ub, e LMPC.trajectory,
        e LMPC.control, e LMPC.solveTime, e LMPC.solveAndBuildTime, e LMPC.R, e LMPC.r, e LMPC.x0lb, e LMPC.x0ub⟩
    refine ⟨B, ?_, ?_, ?_, ?_, ?_⟩
    · rw [hw]
    · rw [hw]
    · rw [hw]
    · rw [hw]
    intro p'
    rw [hw]
    by_cases e : p' = p
    swap
    · simp only [World.upd_ne _ _ e, and_self]
    subst e
    simp only [World.upd_same]
    by_cases hu : (X.world.pss p').isUpdated = true
    · rw [if_pos hu] at hps; cases hps; exact ⟨rfl, rfl, rfl, rfl⟩
    · rw [if_neg hu] at hps
      obtain ⟨v, gv, P, -⟩ := projects H
      have hs := (P.hist.good.ctl p' (P.without.ctl.ps.trans hp)).1
      have G := (P.hist.good.sys p' hs).1
      rw [P.without.pss] at G
      obtain ⟨ps', e, -, -, -, r1, r2, r3, r4⟩ := Copra.updateSystem_ok (ps := X.world.pss p') G
      rw [hps] at e; cases e
      exact ⟨r1, r2, r3, r4⟩
  cases a with
  | constr k o =>
    simp only [solveUserThrow, Option.bind_eq_bind, Option.bind_eq_some_iff, Option.pure_def, Option.some.injEq] at ha
    obtain ⟨⟨w, ps⟩, hb, i, hi, C, hC, c, hc, rfl⟩ := ha
    obtain ⟨B, e1, e2, e3, e4, e5⟩ := begun hb
    obtain ⟨k1, k2⟩ := updateConstrs_keeps hc
    have hm : i ∈ X.world.ctl.spConstr := by rw [← B.spConstr]; exact List.mem_of_getElem? hi
    refine ⟨B, fun j hj => ?_, fun j _ => by rw [e2], e5, fun j hj => ?_, fun j _ => ⟨by rw [e2], rfl⟩, e3, e4, rfl, rfl⟩
    · simp only
      rw [World.upd_ne _ _ (by rintro rfl; rw [hC] at hj; cases hj), k1 j hj, e1]
    · have hne : j ≠ i := by rintro rfl; exact hj hm
      have hnl : j ∉ w.ctl.spConstr.take k := fun h => hj (by rw [← B.spConstr]; exact List.mem_of_mem_take h)
      simp only [World.upd_ne _ _ hne]
      rw [(k2 j hnl).1, (k2 j hnl).2, e1]
      exact ⟨rfl, rfl⟩
  | cost k o =>
    simp only [solveUserThrow, Option.bind_eq_bind, Option.bind_eq_some_iff, Option.pure_def, Option.some.injEq] at ha
    obtain ⟨⟨w, ps⟩, hb, c, hc, i, hi, C, hC, t, ht, rfl⟩ := ha
    obtain ⟨B, e1, e2, e3, e4, e5⟩ := begun hb
    obtain ⟨k1, k2⟩ := updateConstrs_keeps hc
    obtain ⟨m1, m2⟩ := updateCosts_keeps ht
    have hm : i ∈ X.world.ctl.spCost := by rw [← B.spCost]; exact List.mem_of_getElem? hi
    refine ⟨B, fun j hj => by simp only; rw [k1 j hj, e1], fun j hj => ?_, e5, fun j hj => ?_, fun j hj => ?_, e3, e4, rfl, rfl⟩
    · simp only
      rw [World.upd_ne _ _ (by rintro rfl; rw [hC] at hj; cases hj), m1 j hj, e2]
    · have hnl : j ∉ w.ctl.spConstr := by rw [B.spConstr]; exact hj
      simp only
      rw [(k2 j hnl).1, (k2 j hnl).2, e1]
      exact ⟨rfl, rfl⟩
    · have hne : j ≠ i := by rintro rfl; exact hj hm
      have hnl : j ∉ w.ctl.spCost.take k := fun h => hj (by rw [← B.spCost]; exact List.mem_of_mem_take h)
      simp only [World.upd_ne _ _ hne]
      rw [(m2 j hnl).1, (m2 j hnl).2, e2]
      exact ⟨rfl, rfl⟩

/-- **C99** (the objects of the authors): an aborted `solve` called `update` of the objects in front of the one that threw,
once for each time they are registered there, and of no other; what the throwing function left in its object is there. -/
theorem c99_updates {a : AbortAt K S} (ha : X.solveUserThrow junk a = some X') (hp : X.world.ctl.ps = some p) :
    (∀ k o, a = .constr k o → ∃ i, X.world.ctl.spConstr[k]? = some i ∧ constrObj X' i = o ∧
      (∀ j C, j ≠ i → X.consClass j = some C →
        ConstrClass.Updates C (X'.world.pss p) ((X.world.ctl.spConstr.take k).count j) (constrObj X j) (constrObj X' j)) ∧
      ∀ j, costObj X' j = costObj X j) ∧
    (∀ k o, a = .cost k o → ∃ i, X.world.ctl.spCost[k]? = some i ∧ costObj X' i = o ∧
      (∀ j C, X.consClass j = some C →
        ConstrClass.Updates C (X'.world.pss p) (X.world.ctl.spConstr.count j) (constrObj X j) (constrObj X' j)) ∧
      (∀ j C, j ≠ i → X.costClass j = some C →
        CostClass.Updates C (X'.world.pss p) ((X.world.ctl.spCost.take k).count j) (costObj X j) (costObj X' j))) := by
  have begun : ∀ {w : World K} {ps : PreviewSystem K}, X.world.beginUpdate junk = some (w, ps) →
      w.ctl.spConstr = X.world.ctl.spConstr ∧ w.ctl.spCost = X.world.ctl.spCost ∧ w.cons = X.world.cons ∧ w.costs = X.world.costs ∧
      w.pss p = ps := by
    intro w ps hb
    obtain ⟨p', hp', -, hw, hl⟩ := beginUpdate_inv hb
    rw [hp] at hp'; cases hp'
    have hl := hl w.ctl.scrap
    refine ⟨(congrArg LMPC.spConstr hl : ), (congrArg LMPC.spCost hl : ), ?_, ?_, ?_⟩
    · rw [hw]
    · rw [hw]
    · rw [hw]; exact World.upd_same ..
  constructor
  · rintro k o rfl
    simp only [solveUserThrow, Option.bind_eq_bind, Option.bind_eq_some_iff, Option.pure_def, Option.some.injEq] at ha
    obtain ⟨⟨w, ps⟩, hb, i, hi, C, hC, ⟨c, m⟩, hc, rfl⟩ := ha
    obtain ⟨e1, e2, e3, e4, e5⟩ := begun hb
    refine ⟨i, e1 ▸ hi, ?_, fun j D hj hD => ?_, fun j => ?_⟩
    · unfold constrObj; simp only [World.upd_same]; rfl
    · have := (updateConstrs_sim (cw := w.cons) (fun _ _ => rfl) hc).2.2 j D hD
      unfold constrObj
      simp only [World.upd_ne _ _ hj, e5]
      rw [← e1, ← e3]; exact this
    · unfold costObj; simp only [e4]
  · rintro k o rfl
    simp only [solveUserThrow, Option.bind_eq_bind, Option.bind_eq_some_iff, Option.pure_def, Option.some.injEq] at ha
    obtain ⟨⟨w, ps⟩, hb, ⟨c, cm⟩, hc, i, hi, C, hC, ⟨t, tm⟩, ht, rfl⟩ := ha
    obtain ⟨e1, e2, e3, e4, e5⟩ := begun hb
    refine ⟨i, e2 ▸ hi, ?_, fun j D hD => ?_, fun j D hj hD => ?_⟩
    · unfold costObj; simp only [World.upd_same]; rfl
    · have := (updateConstrs_sim (cw := w.cons) (fun _ _ => rfl) hc).2.2 j D hD
      unfold constrObj
      simp only [e5]
      rw [← e1, ← e3]; exact this
    · have := (updateCosts_sim (cw := w.costs) (fun _ _ => rfl) ht).2 j D hD
      unfold costObj
      simp only [World.upd_ne _ _ hj, e5]
      rw [← e2, ← e4]; exact this

/-- **C99** (defined): whatever calls of `solve` were aborted before, `solve()` is defined and hands over a problem of
consistent sizes. -/
theorem c99_defined (h : AUHist d dmax X g n) (hconf : Conforming d X) (hret : Returning d X) (hint : RowsCount X)
    (ho : UOk d X g (.api (.solve env))) :
    ∃ X' b q, X.solve env = some (X', b, q) ∧ X.step dmax (.api (.solve env)) = .ok X' ∧ WellSized q ∧
      q.nrVar = numVars d X.world.ctl := by
  obtain ⟨s, -, H⟩ := auhist_uhist h
  obtain ⟨X', b, q, h1, h2, h3⟩ := c91_solve_defined (X := X.patch s) H hconf hret hint (patch_uok ho)
  rw [patch_solve] at h1
  refine ⟨X', b, q, h1, ?_, h3⟩
  simp only [UWorld.step, h1]; rfl

/-- **C99** (the constraints): the problem of the next `solve` imposes the registered constraints and nothing else. -/
theorem c99_feasible (h : AUHist d dmax X g n) (hconf : Conforming d X) (ho : UOk d X g (.api (.solve env)))
    (hi : X.world.ctl.isInit = false) (hb : X.world.ctl.spBoundConstr = [] → g.clean)
    (hh : ∀ i ∈ X.world.ctl.spConstr, X.consClass i = none → (X.world.cons i).userData.Honest)
    (hs : X.solve env = some (X', b, q)) (hp : X.world.ctl.ps = some p) (U : Nat → K) :
    Feasible q U ↔ AllHold d X X' p U ∧
      (X.world.ctl.spBoundConstr = [] → ∀ j < d.m * d.N, -dmax ≤ U j ∧ U j ≤ dmax) := by
  obtain ⟨s, -, H⟩ := auhist_uhist h
  exact c91_feasible (X := X.patch s) H hconf (patch_uok ho) hi hb hh ((patch_solve env X).trans hs) hp U

/-- **C99** (the objective): and its objective is the total cost. -/
theorem c99_objective (h : AUHist d dmax X g n) (hconf : Conforming d X) (ho : UOk d X g (.api (.solve env)))
    (hi : X.world.ctl.isInit = false)
    (hf : ∀ i ∈ X.world.ctl.spCost, X.costClass i = none → (X.world.costs i).userData.PerStepState d →
      g.fresh i ∧ X.world.ctl.spCost.count i = 1)
    (hs : X.solve env = some (X', b, q)) (hp : X.world.ctl.ps = some p) :
    ∃ k : K, ∀ U : Nat → K, objective q U = totalWith d X X' p U + k := by
  obtain ⟨s, -, H⟩ := auhist_uhist h
  exact c91_objective (X := X.patch s) H hconf (patch_uok ho) hi hf ((patch_solve env X).trans hs) hp

/-- **C99** (end to end, `LMPC`): C91 holds of histories with calls of `solve` aborted by user-defined objects. -/
theorem c99_end_to_end {k : SolverKind} (h : AUHist d dmax X g n) (hconf : Conforming d X)
    (ho : UOk d X g (.api (.solve env)))
    (hi : X.world.ctl.isInit = false) (hb : X.world.ctl.spBoundConstr = [] → g.clean)
    (hh : ∀ i ∈ X.world.ctl.spConstr, X.consClass i = none → (X.world.cons i).userData.Honest)
    (hf : ∀ i ∈ X.world.ctl.spCost, X.costClass i = none → (X.world.costs i).userData.PerStepState d →
      g.fresh i ∧ X.world.ctl.spCost.count i = 1)
    (hs : X.solve env = some (X', true, q)) (hp : X.world.ctl.ps = some p)
    (hn : q.nrEq + q.nrIneq + 2 * q.nrVar ≤ intMax) (hopt : BackEndOptimal dmax junk k q (env.answer q).2.e) :
    AllHold d X X' p X'.world.ctl.control.e ∧
    IsStacked d (traj d X.world p X'.world.ctl.control.e) X'.world.ctl.trajectory ∧
    ∀ V : Nat → K, AllHold d X X' p V → (∀ j < d.m * d.N, -dmax ≤ V j ∧ V j ≤ dmax) →
      (k = .osqp → ∀ i < q.Aineq.rows, -dmax ≤ rowValue q.Aineq V i) →
      totalWith d X X' p X'.world.ctl.control.e ≤ totalWith d X X' p V := by
  obtain ⟨s, -, H⟩ := auhist_uhist h
  exact c91_end_to_end (X := X.patch s) H hconf (patch_uok ho) hi hb hh hf ((patch_solve env X).trans hs) hp hn hopt

/-- **C99** (end to end, `InitialStateLMPC`). -/
theorem c99_end_to_end_from {k : SolverKind} (h : AUHist d dmax X g n) (hconf : Conforming d X)
    (ho : UOk d X g (.api (.solve env)))
    (hi : X.world.ctl.isInit = true) (hb : X.world.ctl.spBoundConstr = [] → g.clean)
    (hh : ∀ i ∈ X.world.ctl.spConstr, X.consClass i = none → (X.world.cons i).userData.Honest)
    (hf : ∀ i ∈ X.world.ctl.spCost, X.costClass i = none → (X.world.costs i).userData.PerStepState d →
      g.fresh i ∧ X.world.ctl.spCost.count i = 1)
    (hs : X.solve env = some (X', true, q)) (hp : X.world.ctl.ps = some p)
    (hn : q.nrEq + q.nrIneq + 2 * q.nrVar ≤ intMax) (hopt : BackEndOptimal dmax junk k q (env.answer q).2.e) :
    ∃ x : Vec K, X'.world.ctl.initialState (X'.world.pss p) = some x ∧ InitBounds d X.world.ctl x.e ∧
      IsStacked d (trajFrom d X.world p x.e X'.world.ctl.control.e) X'.world.ctl.trajectory ∧
      AllHoldFrom d X X' p x.e X'.world.ctl.control.e ∧
      ∀ V : Nat → K, AllHoldFrom d X X' p x.e V → (∀ j < d.m * d.N, -dmax ≤ V j ∧ V j ≤ dmax) →
        (k = .osqp → ∀ i < q.Aineq.rows, -dmax ≤ rowValue q.Aineq (joined d x.e V) i) →
        totalWithFrom d X X' p x.e X'.world.ctl.control.e ≤ totalWithFrom d X X' p x.e V := by
  obtain ⟨s, -, H⟩ := auhist_uhist h
  exact c91_end_to_end_from (X := X.patch s) H hconf (patch_uok ho) hi hb hh hf ((patch_solve env X).trans hs) hp hn hopt

/-- The aborted `solve` of the model is the beginning of a `solve`: had the function returned, leaving the same contents,
the loop would have gone on from there. -/
theorem c99_prefix : X.updateSystem junk = (X.world.beginUpdate junk).bind fun r =>
    (r.1.ctl.spConstr.foldlM (updateConstr X.consClass r.2) (r.1.cons, X.consMem)).bind fun c =>
    (r.1.ctl.spCost.foldlM (updateCost X.costClass r.2) (r.1.costs, X.costMem)).bind fun t =>
    some { X with world := { r.1 with cons := c.1, costs := t.1 }, consMem := c.2, costMem := t.2 } := by
  rw [updateSystem_eq, beginUpdate_eq]
  simp only [Option.bind_assoc, Option.bind_some]

end UWorld
end
end Copra
