import Verif.Props.UserDefined
import Verif.Proofs.UserReturns
import Verif.Props.EndToEndExamples

/-! # Properties C91 (end to end) and C92: user-defined constraint and cost classes -/

namespace Copra
open Spec

set_option linter.unusedSectionVars false
set_option linter.unusedSimpArgs false

section
variable {K S : Type} [Field K] [LinearOrder K] [IsStrictOrderedRing K]

namespace UWorld

variable {d : Dims} {dmax : K} {X X' : UWorld K S} {g gw : Ghost} {w w' : World K} {env : SolveEnv K} {b : Bool} {q q' : QP K}
  {p : Nat}

theorem Both.wellSized (B : Both d p env X w X' w' b q q') : WellSized q ∧ q.nrVar = numVars d X.world.ctl := by
  cases hi : X.world.ctl.isInit
  · obtain ⟨a0, a1, a2, a3, a4, a5, a6, a7, a8, a9, a10, a11, a12, a13⟩ := B.plain hi
    have hv : q.nrVar = d.m * d.N := a0.trans a5
    refine ⟨⟨a3.trans hv.symm, a4.trans hv.symm, a0.symm, ?_, a8.cols.trans hv.symm, ?_, ?_, a9.cols.trans hv.symm, ?_,
      a10.trans hv.symm, a11.trans hv.symm⟩, ?_⟩
    · rw [a8.rows, a1]
    · rw [a8.brows, a1]
    · rw [a9.rows, a2]
    · rw [a9.brows, a2]
    · unfold numVars; rw [hi, hv]; rfl
  · have A := B.init hi
    have hv : q.nrVar = d.n + d.m * d.N := A.nrVar.trans A.cr
    refine ⟨⟨A.Qr.trans hv.symm, A.Qc.trans hv.symm, A.nrVar.symm, ?_, A.eq.cols.trans hv.symm, ?_, ?_,
      A.ineq.cols.trans hv.symm, ?_, A.lbr.trans hv.symm, A.ubr.trans hv.symm⟩, ?_⟩
    · rw [A.eq.rows, A.nrEq]
    · rw [A.eq.brows, A.nrEq]
    · rw [A.ineq.rows, A.nrIneq]
    · rw [A.ineq.brows, A.nrIneq]
    · unfold numVars; rw [hi, hv]; rfl

/-- C91, a solve is defined: with classes that conform and whose `update` returns, a solve of a program with user-defined
objects is defined, does not throw, and hands the solver a problem of consistent dimensions. -/
theorem c91_solve_defined (h : UHist d dmax X g) (hconf : Conforming d X) (hret : Returning d X) (hint : RowsCount X)
    (ho : UOk d X g (.api (.solve env))) :
    ∃ X' b q, X.solve env = some (X', b, q) ∧ X.step dmax (.api (.solve env)) = .ok X' ∧ WellSized q ∧
      q.nrVar = numVars d X.world.ctl := by
  obtain ⟨w, gw, P, _⟩ := projects h
  obtain ⟨X', b, q, hs⟩ := solve_returns P hconf hret hint ho.1
  obtain ⟨p, w', q', B⟩ := both P hconf ho.1 hs
  refine ⟨X', b, q, hs, ?_, B.wellSized⟩
  simp only [UWorld.step, hs]; rfl

/-- C91, end to end, `LMPC`: if the back end reports success with a minimiser of the problem its wrapper handed to it,
`control()` satisfies the registered constraints, library and user-defined, `trajectory()` is the simulation under it, and
no other admissible controls have a smaller total cost. -/
theorem c91_end_to_end {k : SolverKind} {junk : Junk K} (h : UHist d dmax X g) (hconf : Conforming d X)
    (ho : UOk d X g (.api (.solve env)))
    (hi : X.world.ctl.isInit = false) (hb : X.world.ctl.spBoundConstr = [] → g.clean)
    (hh : ∀ i ∈ X.world.ctl.spConstr, X.consClass i = none → (X.world.cons i).userData.Honest)
    (hf : ∀ i ∈ X.world.ctl.spCost, X.costClass i = none → (X.world.costs i).userData.PerStepState d →
      g.fresh i ∧ X.world.ctl.spCost.count i = 1)
    (hs : X.solve env = some (X', true, q)) (hp : X.world.ctl.ps = some p)
    (hn : q.nrEq + q.nrIneq + 2 * q.nrVar ≤ intMax) (hopt : BackEndOptimal dmax junk k q (env.answer q).2.e) :
    AllHold d X X' p X'.world.ctl.control.e ∧
    IsStacked d (traj d X.world p X'.world.ctl.control.e) X'.world.ctl.trajectory ∧
    ∀ V : Nat → K, AllHold d X X' p V → (∀ j < d.m * d.N, -dmax ≤ V j ∧ V j ≤ dmax) →
      (k = .osqp → ∀ i < q.Aineq.rows, -dmax ≤ rowValue q.Aineq V i) →
      totalWith d X X' p X'.world.ctl.control.e ≤ totalWith d X X' p V := by
  have F := c91_feasible h hconf ho hi hb hh hs hp
  obtain ⟨κ, O⟩ := c91_objective h hconf ho hi hf hs hp
  obtain ⟨w, gw, P, _⟩ := projects h
  obtain ⟨p', w', q', B⟩ := both P hconf ho.1 hs
  have := B.ps; rw [hp] at this; cases this
  obtain ⟨hx, hm⟩ := BackEndOptimal.spec B.wellSized.1 hn hopt
  have hc : X'.world.ctl.control = (env.answer q).2 := by
    rw [← B.without.ctl.control]
    have := World.c40_control_is_answer (P.without.ctl.isInit.trans hi) B.solve
    exact this
  rw [← hc] at hx hm
  refine ⟨((F _).1 hx).1, ?_, fun V hV hr hos => ?_⟩
  · have := ((World.c40_success P.hist (solve_ok_lib P B) B.solve (P.without.ctl.ps.trans hp)).2.1 (P.without.ctl.isInit.trans hi)).2
    rw [P.without.traj, B.without.ctl.control, B.without.ctl.trajectory] at this
    exact this
  · have := hm V ((F V).2 ⟨hV, fun _ => hr⟩) hos
    rw [O, O] at this
    linarith

/-- C91, end to end, `InitialStateLMPC`. -/
theorem c91_end_to_end_from {k : SolverKind} {junk : Junk K} (h : UHist d dmax X g) (hconf : Conforming d X)
    (ho : UOk d X g (.api (.solve env)))
    (hi : X.world.ctl.isInit = true) (hb : X.world.ctl.spBoundConstr = [] → g.clean)
    (hh : ∀ i ∈ X.world.ctl.spConstr, X.consClass i = none → (X.world.cons i).userData.Honest)
    (hf : ∀ i ∈ X.world.ctl.spCost, X.costClass i = none → (X.world.costs i).userData.PerStepState d →
      g.fresh i ∧ X.world.ctl.spCost.count i = 1)
    (hs : X.solve env = some (X', true, q)) (hp : X.world.ctl.ps = some p)
    (hn : q.nrEq + q.nrIneq + 2 * q.nrVar ≤ intMax) (hopt : BackEndOptimal dmax junk k q (env.answer q).2.e) :
    ∃ x : Vec K, X'.world.ctl.initialState (X'.world.pss p) = some x ∧ InitBounds d X.world.ctl x.e ∧
      IsStacked d (trajFrom d X.world p x.e X'.world.ctl.control.e) X'.world.ctl.trajectory ∧
      AllHoldFrom d X X' p x.e X'.world.ctl.control.e ∧
      ∀ V : Nat → K, AllHoldFrom d X X' p x.e V → (∀ j < d.m * d.N, -dmax ≤ V j ∧ V j ≤ dmax) →
        (k = .osqp → ∀ i < q.Aineq.rows, -dmax ≤ rowValue q.Aineq (joined d x.e V) i) →
        totalWithFrom d X X' p x.e X'.world.ctl.control.e ≤ totalWithFrom d X X' p x.e V := by
  have F := fun x U => c91_feasible_from h hconf ho hi hb hh hs hp x U
  have OB := fun x => c91_objective_from h hconf ho hi hf hs hp x
  obtain ⟨w, gw, P, _⟩ := projects h
  obtain ⟨p', w', q', B⟩ := both P hconf ho.1 hs
  have := B.ps; rw [hp] at this; cases this
  obtain ⟨hw, hnv⟩ := B.wellSized
  obtain ⟨hx, hm⟩ := BackEndOptimal.spec hw hn hopt
  have hiw := P.without.ctl.isInit.trans hi
  have hpw := P.without.ctl.ps.trans hp
  obtain ⟨x, h1, h2, h3, h4, -, -⟩ := World.c47_initial_state_partial P.hist (solve_ok_lib P B) hiw B.solve hpw
  have hc := ((World.c40_success P.hist (solve_ok_lib P B) B.solve hpw).2.2 hiw).1
  rw [B.without.ctl.control] at hc h4
  rw [P.without.trajFrom, B.without.ctl.trajectory] at h4
  obtain ⟨κ, O⟩ := OB x.e
  have nv : q.nrVar = d.n + d.m * d.N := by rw [hnv]; unfold numVars; rw [hi]; rfl
  have agree : ∀ j < q.nrVar, (env.answer q).2.e j = joined d x.e X'.world.ctl.control.e j := by
    intro j hj
    unfold joined
    split
    · next hlt => exact (h3 j hlt).symm
    · next hge =>
      rw [hc (j - d.n) (by omega)]
      show (env.answer q).2.e j = (env.answer q).2.e (d.n + (j - d.n))
      congr 1; omega
  obtain ⟨f1, f2, f3⟩ := (F _ _).1 ((Feasible.congr hw agree).1 hx)
  have hstate : X'.world.ctl.initialState (X'.world.pss p) = some x := by
    rw [← B.without.pss, ← h1]
    unfold LMPC.initialState
    rw [B.without.ctl.sol]
  refine ⟨x, hstate, f2, h4, f1, fun V hV hr hos => ?_⟩
  have := hm _ ((F x.e V).2 ⟨hV, f2, fun _ => hr⟩) hos
  rw [objective.congr hw agree, O, O] at this
  linarith

/-! ## C92 -/

/-- C92, the true part: an equality or inequality constraint of a user-defined class that `initializeConstraint` accepts
is registered (if `addConstraint` is defined: the row counters are `int`s), with the equalities or the inequalities.
What is missing: `c92_ignored`. -/
theorem c92_registered_partial (h : UHist d dmax X g) {i : Nat} {C : ConstrClass K S} {junk : Junk K}
    (hC : X.consClass i = some C) (hf : C.flag = .equality ∨ C.flag = .inequality)
    (hs : X.step dmax (.api (.addConstraint i junk)) = .ok X') :
    X'.world.ctl.spConstr = X.world.ctl.spConstr ++ [i] ∧
    X'.world.ctl.spEqConstr = X.world.ctl.spEqConstr ++ (if C.flag = .equality then [i] else []) ∧
    X'.world.ctl.spIneqConstr = X.world.ctl.spIneqConstr ++ (if C.flag = .inequality then [i] else []) ∧
    X'.world.ctl.spBoundConstr = X.world.ctl.spBoundConstr := by
  obtain ⟨w, gw, P, _⟩ := projects h
  obtain ⟨k1, k2⟩ := P.inv.ident i C hC
  simp only [UWorld.step, hC, UWorld.addConstraint] at hs
  split at hs
  · cases hs
  · rename_i p hp
    split at hs
    · rename_i X1 e1
      unfold onConstr at e1
      cases hin : C.init (X.world.pss p) ((X.world.cons i).inheritedRows, X.consMem i) with
      | ok o =>
        rw [hin] at e1
        simp only [Res.map] at e1
        cases e1
        have key : ∀ l, X.world.ctl.addConstraintByType i ((X.world.cons i).setRows o.1) = some l →
            l.spConstr = X.world.ctl.spConstr ++ [i] ∧
            l.spEqConstr = X.world.ctl.spEqConstr ++ (if C.flag = .equality then [i] else []) ∧
            l.spIneqConstr = X.world.ctl.spIneqConstr ++ (if C.flag = .inequality then [i] else []) ∧
            l.spBoundConstr = X.world.ctl.spBoundConstr := by
          intro l hl
          unfold LMPC.addConstraintByType Constr.constraintType at hl
          have kk : ((X.world.cons i).setRows o.1).kind = .trajectory := k1
          have ki : ((X.world.cons i).setRows o.1).isIneq = decide (C.flag = .inequality) := k2
          rw [kk, ki] at hl
          rcases hf with f | f <;> rw [f] at hl ⊢ <;>
            simp only [reduceCtorEq, decide_false, decide_true, Bool.false_eq_true, if_false, if_true, Option.bind_eq_bind,
              Option.bind_eq_some_iff, Option.pure_def, Option.some.injEq] at hl ⊢ <;>
            obtain ⟨n, _, rfl⟩ := hl <;> simp
        rcases hf with f | f <;> rw [f] at hs key ⊢ <;> simp only at hs <;> split at hs <;> rename_i hl
        · cases hs
          simp only [World.upd_same] at hl
          exact key _ hl
        · cases hs
        · cases hs
          simp only [World.upd_same] at hl
          exact key _ hl
        · cases hs
      | thrown e o => rw [hin] at e1; simp only [Res.map] at e1; cases e1
      | ub => rw [hin] at e1; simp only [Res.map] at e1; cases e1
    · cases hs
    · cases hs

/-- C92, the false part: a user-defined constraint of type `Constraint` ("any constraints") is dropped: `addConstraint` calls
its `initializeConstraint`, reports success and leaves the controller as it was. -/
theorem c92_ignored {i : Nat} {C : ConstrClass K S} {junk : Junk K} (hC : X.consClass i = some C) (hf : C.flag = .constraint)
    (hs : X.step dmax (.api (.addConstraint i junk)) = .ok X') : X'.world.ctl = X.world.ctl := by
  simp only [UWorld.step, hC, UWorld.addConstraint] at hs
  split at hs
  · cases hs
  · rename_i p hp
    split at hs
    · rename_i X1 e1
      unfold onConstr at e1
      cases hin : C.init (X.world.pss p) ((X.world.cons i).inheritedRows, X.consMem i) with
      | ok o =>
        rw [hin] at e1
        simp only [Res.map] at e1
        cases e1
        rw [hf] at hs
        cases hs
        rfl
      | thrown e o => rw [hin] at e1; simp only [Res.map] at e1; cases e1
      | ub => rw [hin] at e1; simp only [Res.map] at e1; cases e1
    · cases hs
    · cases hs

end UWorld
end
end Copra
