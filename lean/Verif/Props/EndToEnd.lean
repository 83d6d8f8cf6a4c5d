import Verif.Props.Solvers
import Verif.Props.System
import Verif.Props.Results
import Verif.Props.InitState2
import Verif.Props.ExWorld

/-! # From the third-party solver to the user: C59, C60

C33 starts from a solver that minimises the QP given to `SI_solve`.  Here the starting point is the third-party back
end, which minimises *its own* problem as filled in by the wrapper. -/

namespace Copra
open Spec

set_option linter.unusedSectionVars false
set_option maxRecDepth 100000

section
variable {K : Type} [Field K] [LinearOrder K] [IsStrictOrderedRing K]

/-- What a back end's minimiser is for the QP given to `SI_solve`: feasible, and no worse than any feasible point
(for OSQP: any feasible point whose inequality rows do not underflow `-DBL_MAX`). -/
theorem BackEndOptimal.spec {dmax : K} {junk : Junk K} {k : SolverKind} {q : QP K} {x : Nat → K} (hw : WellSized q)
    (hi : q.nrEq + q.nrIneq + 2 * q.nrVar ≤ intMax) (h : BackEndOptimal dmax junk k q x) :
    Feasible q x ∧ ∀ y, Feasible q y → (k = .osqp → ∀ i < q.Aineq.rows, -dmax ≤ rowValue q.Aineq y i) →
      objective q x ≤ objective q y := by
  cases k
  case quadProgDense =>
    obtain ⟨p, hp, hf, hm⟩ := h
    obtain ⟨p', hp', _, _, F, O⟩ := c41_quadProg junk hw (by omega)
    rw [hp] at hp'; cases hp'
    exact ⟨(F x).1 hf, fun y hy _ => by rw [← O, ← O]; exact hm y ((F y).2 hy)⟩
  case lssol =>
    obtain ⟨p, hp, hf, hm⟩ := h
    obtain ⟨p', hp', _, _, F, O⟩ := c42_lssol junk hw (by omega)
    rw [hp] at hp'; cases hp'
    exact ⟨(F x).1 hf, fun y hy _ => by rw [← O, ← O]; exact hm y ((F y).2 hy)⟩
  case osqp =>
    obtain ⟨p, hp, hf, hm⟩ := h
    obtain ⟨p', hp', _, _, F, O⟩ := c42_osqp dmax junk hw (by omega)
    rw [hp] at hp'; cases hp'
    exact ⟨((F x).1 hf).1, fun y hy hr => by rw [← O, ← O]; exact hm y ((F y).2 ⟨hy, hr rfl⟩)⟩
  case qld => exact ⟨h.1, fun y hy _ => h.2 y hy⟩
  case userDefined => exact ⟨h.1, fun y hy _ => h.2 y hy⟩
  case gurobi => exact ⟨h.1, fun y hy _ => h.2 y hy⟩

theorem Feasible.congr {q : QP K} {x y : Nat → K} (hw : WellSized q) (h : ∀ j < q.nrVar, x j = y j) :
    Feasible q x ↔ Feasible q y := by
  obtain ⟨_, _, _, _, h5, _, _, h8, _, h10, h11⟩ := hw
  have e1 : ∀ i, rowValue q.Aeq x i = rowValue q.Aeq y i := fun i =>
    Finset.sum_congr rfl fun c hc => by rw [h c (by rw [← h5]; exact Finset.mem_range.1 hc)]
  have e2 : ∀ i, rowValue q.Aineq x i = rowValue q.Aineq y i := fun i =>
    Finset.sum_congr rfl fun c hc => by rw [h c (by rw [← h8]; exact Finset.mem_range.1 hc)]
  unfold Feasible
  simp only [e1, e2]
  refine and_congr Iff.rfl (and_congr Iff.rfl (and_congr (forall₂_congr fun j hj => ?_) (forall₂_congr fun j hj => ?_)))
  · rw [h j (by omega)]
  · rw [h j (by omega)]

theorem objective.congr {q : QP K} {x y : Nat → K} (hw : WellSized q) (h : ∀ j < q.nrVar, x j = y j) :
    objective q x = objective q y := by
  have h3 := hw.2.2.1
  unfold objective quadValue
  have e := fun j (hj : j ∈ Finset.range q.c.rows) => h j (by rw [← h3]; exact Finset.mem_range.1 hj)
  congr 1
  · congr 1
    exact Finset.sum_congr rfl fun i hi => Finset.sum_congr rfl fun j hj => by rw [e i hi, e j hj]
  · exact Finset.sum_congr rfl fun i hi => by rw [e i hi]

namespace World
variable {d : Dims} {dmax : K} {E : World K → Op K → Prop} {w w' : World K} {g : Ghost} {env : SolveEnv K}

/-- **C59** (safety through the wrapper): in every history, whatever solver is selected, the wrapper prepares the back
end's problem without any out-of-range access. -/
theorem c59_wrapper_defined (h : Hist d dmax E w g) (ho : OpOk d w g (.solve env)) (junk : Junk K) (k : SolverKind) :
    ∃ w' b q, w.solve env = some (w', b, q) ∧
      (q.nrEq + q.nrIneq + 2 * q.nrVar ≤ intMax → WrapperDefined dmax junk k q) := by
  obtain ⟨w', b, q, hs, _, hw, _⟩ := c50_solve_defined h ho
  refine ⟨w', b, q, hs, fun hi => ?_⟩
  cases k
  case quadProgDense => obtain ⟨p, hp, hz, _⟩ := c41_quadProg junk hw (by omega); exact ⟨p, hp, hz⟩
  case lssol => obtain ⟨p, hp, hz, _⟩ := c42_lssol junk hw (by omega); exact ⟨p, hp, hz⟩
  case osqp => obtain ⟨p, hp, hz, _⟩ := c42_osqp dmax junk hw (by omega); exact ⟨p, hp, hz⟩
  case qld => exact hw
  case userDefined => exact hw
  case gurobi => exact hw

/-- **C59** (end to end): if the third-party back end of the controller's solver reports success with a minimiser of
the problem *its wrapper* handed to it, then `control()` satisfies every registered constraint under the simulated
dynamics, `trajectory()` is that simulation, and no other admissible control sequence has a smaller total cost. -/
theorem c59_end_to_end {q : QP K} {p : Nat} {k : SolverKind} {junk : Junk K} (h : Hist d dmax E w g)
    (hE : ∀ w op, E w op → NoBoundSpan w op)
    (ho : OpOk d w g (.solve env)) (hi : w.ctl.isInit = false) (hb : w.ctl.spBoundConstr = [] → g.clean)
    (hh : ∀ i ∈ w.ctl.spConstr, (w.cons i).userData.Honest) (hf : CostsFresh d w g)
    (hs : w.solve env = some (w', true, q)) (hp : w.ctl.ps = some p)
    (hn : q.nrEq + q.nrIneq + 2 * q.nrVar ≤ intMax)
    (hopt : BackEndOptimal dmax junk k q (env.answer q).2.e) :
    (∀ i ∈ w.ctl.spConstr, (w.cons i).userData.Holds d (Spec.traj d w p w'.ctl.control.e) w'.ctl.control.e) ∧
    IsStacked d (Spec.traj d w p w'.ctl.control.e) w'.ctl.trajectory ∧
    ∀ V : Nat → K, (∀ i ∈ w.ctl.spConstr, (w.cons i).userData.Holds d (Spec.traj d w p V) V) →
      (∀ j < d.m * d.N, -dmax ≤ V j ∧ V j ≤ dmax) →
      (k = .osqp → ∀ i < q.Aineq.rows, -dmax ≤ rowValue q.Aineq V i) →
      totalCost d w p w'.ctl.control.e ≤ totalCost d w p V := by
  obtain ⟨w'', b'', q'', hs'', _, hw, _⟩ := c50_solve_defined h ho
  rw [hs] at hs''
  obtain ⟨rfl, rfl, rfl⟩ : w' = w'' ∧ true = b'' ∧ q = q'' := by
    injection hs'' with e; injection e with e1 e2; injection e2 with e2 e3; exact ⟨e1, e2, e3⟩
  obtain ⟨hx, hm⟩ := BackEndOptimal.spec hw hn hopt
  have F := c30_feasible_set h hE ho hi hb hh hs hp
  obtain ⟨κ, O⟩ := c32_objective h ho hi hf hs hp
  have hc := c40_control_is_answer hi hs
  rw [← hc] at hx hm
  refine ⟨((F _).1 hx).1, ((c40_success h ho hs hp).2.1 hi).2, fun V hV hr ho => ?_⟩
  have := hm V ((F V).2 ⟨hV, fun _ => hr⟩) ho
  rw [O, O] at this
  linarith

/-- **C60**: an `InitialStateLMPC` whose back end reports success with a minimiser of the problem its wrapper handed
to it returns an initial state within the configured bounds, a trajectory that starts there, is simulated under
`control()` and satisfies every registered constraint, and controls that are optimal for that initial state: no other
controls admissible from it have a smaller total cost. -/
theorem c60_initial_state_end_to_end {q : QP K} {p : Nat} {k : SolverKind} {junk : Junk K} (h : Hist d dmax E w g)
    (hE : ∀ w op, E w op → NoBoundSpan w op)
    (ho : OpOk d w g (.solve env)) (hi : w.ctl.isInit = true) (hb : w.ctl.spBoundConstr = [] → g.clean)
    (hh : ∀ i ∈ w.ctl.spConstr, (w.cons i).userData.Honest) (hf : CostsFresh d w g)
    (hs : w.solve env = some (w', true, q)) (hp : w.ctl.ps = some p)
    (hn : q.nrEq + q.nrIneq + 2 * q.nrVar ≤ intMax)
    (hopt : BackEndOptimal dmax junk k q (env.answer q).2.e) :
    ∃ x : Vec K, w'.ctl.initialState (w'.pss p) = some x ∧ InitBounds d w.ctl x.e ∧
      IsStacked d (Spec.trajFrom d w p x.e w'.ctl.control.e) w'.ctl.trajectory ∧
      (∀ i ∈ w.ctl.spConstr, (w.cons i).userData.Holds d (Spec.trajFrom d w p x.e w'.ctl.control.e) w'.ctl.control.e) ∧
      ∀ V : Nat → K, (∀ i ∈ w.ctl.spConstr, (w.cons i).userData.Holds d (Spec.trajFrom d w p x.e V) V) →
        (∀ j < d.m * d.N, -dmax ≤ V j ∧ V j ≤ dmax) →
        (k = .osqp → ∀ i < q.Aineq.rows, -dmax ≤ rowValue q.Aineq (joined d x.e V) i) →
        totalCostFrom d w p x.e w'.ctl.control.e ≤ totalCostFrom d w p x.e V := by
  obtain ⟨w'', b'', q'', hs'', _, hw, hnv⟩ := c50_solve_defined h ho
  rw [hs] at hs''
  obtain ⟨rfl, rfl, rfl⟩ : w' = w'' ∧ true = b'' ∧ q = q'' := by
    injection hs'' with e; injection e with e1 e2; injection e2 with e2 e3; exact ⟨e1, e2, e3⟩
  obtain ⟨hx, hm⟩ := BackEndOptimal.spec hw hn hopt
  obtain ⟨x, h1, h2, h3, h4, _, h6⟩ := c47_initial_state_partial h ho hi hs hp
  have hc := ((c40_success h ho hs hp).2.2 hi).1
  have F := fun U => c44_joint_feasible h hE ho hi hb hh hs hp x.e U
  obtain ⟨κ, O⟩ := c58_objective_per_state h ho hi hf hs hp x.e
  have nv : q.nrVar = d.n + d.m * d.N := by rw [hnv]; unfold numVars; rw [hi]; rfl
  have agree : ∀ j < q.nrVar, (env.answer q).2.e j = joined d x.e w'.ctl.control.e j := by
    intro j hj
    unfold joined
    split
    · next hlt => exact (h3 j hlt).symm
    · next hge =>
      rw [hc (j - d.n) (by omega)]
      congr 1; omega
  have feas := (Feasible.congr hw agree).1 hx
  refine ⟨x, h1, h6 hx, h4, ((F _).1 feas).1, fun V hV hr hos => ?_⟩
  have := hm _ ((F V).2 ⟨hV, h6 hx, fun _ => hr⟩) hos
  rw [objective.congr hw agree, O, O] at this
  linarith

end World
end
end Copra
