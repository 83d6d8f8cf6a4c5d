import Verif.Props.Tighter
import Verif.Props.EndToEndExamples

/-! # C73: when `solve()` returns `true` -/

namespace Copra

namespace Spec
variable {K : Type} [Field K] [LinearOrder K]

/-- The problem that the wrapper of solver kind `k` hands to its back end when it is asked to solve `q` has a solution at
all. -/
def BackEndSolvable (dmax : K) (junk : Junk K) (k : SolverKind) (q : QP K) : Prop :=
  match k with
  | .quadProgDense => ∃ p, quadProg junk q = some p ∧ ∃ x, QuadProgProblem.Feasible p x
  | .lssol => ∃ p, lssol junk q = some p ∧ ∃ x, TwoSidedProblem.Feasible p x
  | .osqp => ∃ p, osqp dmax junk q = some p ∧ ∃ x, TwoSidedProblem.Feasible p x
  | .qld => ∃ x, Feasible (qld q) x
  | .userDefined => ∃ x, Feasible q x
  | .gurobi => ∃ x, Feasible (gurobi q) x

/-- A control sequence that satisfies every registered constraint under the simulated dynamics (and, when no control bound
is registered, is representable). -/
def Admissible (d : Dims) (dmax : K) (w : World K) (p : Nat) (V : Nat → K) : Prop :=
  (∀ i ∈ w.ctl.spConstr, (w.cons i).userData.Holds d (traj d w p V) V) ∧
  (w.ctl.spBoundConstr = [] → ∀ j < d.m * d.N, -dmax ≤ V j ∧ V j ≤ dmax)

/-- The same for a pair of an initial state and controls, with the initial state within the configured bounds. -/
def AdmissibleFrom (d : Dims) (dmax : K) (w : World K) (p : Nat) (x V : Nat → K) : Prop :=
  InitBounds d w.ctl x ∧ (∀ i ∈ w.ctl.spConstr, (w.cons i).userData.Holds d (trajFrom d w p x V) V) ∧
  (w.ctl.spBoundConstr = [] → ∀ j < d.m * d.N, -dmax ≤ V j ∧ V j ≤ dmax)

end Spec
open Spec

set_option linter.unusedSectionVars false
set_option maxRecDepth 100000

section
variable {K : Type} [Field K] [LinearOrder K] [IsStrictOrderedRing K]

theorem backEndSolvable_iff {dmax : K} {junk : Junk K} {k : SolverKind} {q : QP K} (hw : WellSized q)
    (hi : q.nrEq + q.nrIneq + 2 * q.nrVar ≤ intMax) :
    BackEndSolvable dmax junk k q ↔
      ∃ x, Feasible q x ∧ (k = .osqp → ∀ i < q.Aineq.rows, -dmax ≤ rowValue q.Aineq x i) := by
  cases k
  case quadProgDense =>
    obtain ⟨p, hp, _, _, F, _⟩ := c41_quadProg junk hw (by omega)
    constructor
    · rintro ⟨p', hp', x, hx⟩
      rw [hp] at hp'; cases hp'
      exact ⟨x, (F x).1 hx, fun h => by cases h⟩
    · rintro ⟨x, hx, _⟩; exact ⟨p, hp, x, (F x).2 hx⟩
  case lssol =>
    obtain ⟨p, hp, _, _, F, _⟩ := c42_lssol junk hw (by omega)
    constructor
    · rintro ⟨p', hp', x, hx⟩
      rw [hp] at hp'; cases hp'
      exact ⟨x, (F x).1 hx, fun h => by cases h⟩
    · rintro ⟨x, hx, _⟩; exact ⟨p, hp, x, (F x).2 hx⟩
  case osqp =>
    obtain ⟨p, hp, _, _, F, _⟩ := c42_osqp dmax junk hw (by omega)
    constructor
    · rintro ⟨p', hp', x, hx⟩
      rw [hp] at hp'; cases hp'
      exact ⟨x, ((F x).1 hx).1, fun _ => ((F x).1 hx).2⟩
    · rintro ⟨x, hx, hr⟩; exact ⟨p, hp, x, (F x).2 ⟨hx, hr rfl⟩⟩
  case qld => exact ⟨fun ⟨x, hx⟩ => ⟨x, hx, fun h => by cases h⟩, fun ⟨x, hx, _⟩ => ⟨x, hx⟩⟩
  case userDefined => exact ⟨fun ⟨x, hx⟩ => ⟨x, hx, fun h => by cases h⟩, fun ⟨x, hx, _⟩ => ⟨x, hx⟩⟩
  case gurobi => exact ⟨fun ⟨x, hx⟩ => ⟨x, hx, fun h => by cases h⟩, fun ⟨x, hx, _⟩ => ⟨x, hx⟩⟩

namespace World
variable {d : Dims} {dmax : K} {E : World K → Op K → Prop} {w w' : World K} {g : Ghost} {env : SolveEnv K}

/-- `solve()` returns what the solver reports. -/
theorem solve_reports {b : Bool} {q : QP K} (h : w.solve env = some (w', b, q)) : b = (env.answer q).1 := by
  obtain ⟨w1, p, l, s, l', h1, hp, hl, hs, rfl, hb, hl', rfl⟩ := solve_inv h
  exact hb

/-- **C73**: if the back end reports success exactly when the problem handed to it has a solution, then `solve()` returns
`true` exactly when some control sequence satisfies all the registered constraints. -/
theorem c73_success_iff {b : Bool} {q : QP K} {p : Nat} {k : SolverKind} {junk : Junk K} (h : Hist d dmax E w g)
    (hE : ∀ w op, E w op → NoBoundSpan w op) (ho : OpOk d w g (.solve env)) (hi : w.ctl.isInit = false)
    (hb : w.ctl.spBoundConstr = [] → g.clean) (hh : ∀ i ∈ w.ctl.spConstr, (w.cons i).userData.Honest)
    (hs : w.solve env = some (w', b, q)) (hp : w.ctl.ps = some p)
    (hn : q.nrEq + q.nrIneq + 2 * q.nrVar ≤ intMax)
    (complete : (env.answer q).1 = true ↔ BackEndSolvable dmax junk k q) :
    b = true ↔ ∃ V, Admissible d dmax w p V ∧ (k = .osqp → ∀ i < q.Aineq.rows, -dmax ≤ rowValue q.Aineq V i) := by
  obtain ⟨_, _, _, e, _, hw, _⟩ := c50_solve_defined h ho
  rw [hs] at e; cases e
  rw [solve_reports hs, complete, backEndSolvable_iff hw hn]
  exact exists_congr fun V => and_congr_left fun _ => c30_feasible_set h hE ho hi hb hh hs hp V

/-- **C73** for an `InitialStateLMPC`: exactly when some pair of an initial state within the configured bounds and
controls satisfies all the registered constraints. -/
theorem c73_success_iff_init {b : Bool} {q : QP K} {p : Nat} {k : SolverKind} {junk : Junk K} (h : Hist d dmax E w g)
    (hE : ∀ w op, E w op → NoBoundSpan w op) (ho : OpOk d w g (.solve env)) (hi : w.ctl.isInit = true)
    (hb : w.ctl.spBoundConstr = [] → g.clean) (hh : ∀ i ∈ w.ctl.spConstr, (w.cons i).userData.Honest)
    (hs : w.solve env = some (w', b, q)) (hp : w.ctl.ps = some p)
    (hn : q.nrEq + q.nrIneq + 2 * q.nrVar ≤ intMax)
    (complete : (env.answer q).1 = true ↔ BackEndSolvable dmax junk k q) :
    b = true ↔ ∃ x V, AdmissibleFrom d dmax w p x V ∧
      (k = .osqp → ∀ i < q.Aineq.rows, -dmax ≤ rowValue q.Aineq (joined d x V) i) := by
  obtain ⟨_, _, _, e, _, hw, hnv⟩ := c50_solve_defined h ho
  rw [hs] at e; cases e
  rw [solve_reports hs, complete, backEndSolvable_iff hw hn]
  have F := fun x U => c44_joint_feasible h hE ho hi hb hh hs hp x U
  have hc : q.Aineq.cols = q.nrVar := hw.2.2.2.2.2.2.2.1
  constructor
  · rintro ⟨y, hy, hr⟩
    have agree : ∀ j < q.nrVar, y j = joined d y (fun j => y (d.n + j)) j := by
      intro j _
      unfold joined
      split
      · rfl
      · congr 1; omega
    obtain ⟨a1, a2, a3⟩ := (F _ _).1 ((Feasible.congr hw agree).1 hy)
    refine ⟨y, fun j => y (d.n + j), ⟨a2, a1, a3⟩, fun hk i hi => ?_⟩
    have e : rowValue q.Aineq (joined d y fun j => y (d.n + j)) i = rowValue q.Aineq y i :=
      Finset.sum_congr rfl fun c hc' => by rw [agree c (by rw [← hc]; exact Finset.mem_range.1 hc')]
    rw [e]; exact hr hk i hi
  · rintro ⟨x, V, ⟨a2, a1, a3⟩, hr⟩
    exact ⟨joined d x V, (F x V).2 ⟨a1, a2, a3⟩, hr⟩

/-- **C73**, never a false alarm: with a sound back end, a `solve()` that returns `false` while the back end is complete
means that the constraints contradict each other; in particular a plan that the client can exhibit makes `solve()`
succeed. -/
theorem c73_exhibited {b : Bool} {q : QP K} {p : Nat} {k : SolverKind} {junk : Junk K} (h : Hist d dmax E w g)
    (hE : ∀ w op, E w op → NoBoundSpan w op) (ho : OpOk d w g (.solve env)) (hi : w.ctl.isInit = false)
    (hb : w.ctl.spBoundConstr = [] → g.clean) (hh : ∀ i ∈ w.ctl.spConstr, (w.cons i).userData.Honest)
    (hs : w.solve env = some (w', b, q)) (hp : w.ctl.ps = some p)
    (hn : q.nrEq + q.nrIneq + 2 * q.nrVar ≤ intMax)
    (complete : BackEndSolvable dmax junk k q → (env.answer q).1 = true) {V : Nat → K} (hV : Admissible d dmax w p V)
    (hr : k = .osqp → ∀ i < q.Aineq.rows, -dmax ≤ rowValue q.Aineq V i) : b = true := by
  obtain ⟨_, _, _, e, _, hw, _⟩ := c50_solve_defined h ho
  rw [hs] at e; cases e
  rw [solve_reports hs]
  exact complete ((backEndSolvable_iff hw hn).2 ⟨V, (c30_feasible_set h hE ho hi hb hh hs hp V).2 hV, hr⟩)

end World
end

namespace Ex
open World

/-- C73 applies to the double integrator with five constraints, with every back end; the zero controls are admissible. -/
example (k : SolverKind) (junk : Junk ℚ) :
    ∃ V, Admissible d 1000 w12 0 V ∧ (k = .osqp → ∀ i < q13.Aineq.rows, -1000 ≤ rowValue q13.Aineq V i) := by
  refine (c73_success_iff (k := k) (junk := junk) h12 (fun _ _ h => h.1) o13 plain12 (fun h => by rw [bound12] at h; cases h)
    honest12 s13 ps12 (by decide +kernel) ⟨fun _ => ?_, fun _ => solve_reports s13 ▸ rfl⟩).1 rfl
  exact (backEndSolvable_iff (by decide +kernel) (by decide +kernel)).2 ⟨fun _ => 0, by decide +kernel, fun _ => by decide +kernel⟩

/-- C73 applies to an initial-state controller. -/
example (k : SolverKind) (junk : Junk ℚ) :
    ∃ x V, AdmissibleFrom d 1000 j7 0 x V ∧
      (k = .osqp → ∀ i < rJ.2.2.Aineq.rows, -1000 ≤ rowValue rJ.2.2.Aineq (joined d x V) i) := by
  refine (c73_success_iff_init (k := k) (junk := junk) hj7 (fun _ _ h => h.1) oJ7 (by decide +kernel) (fun _ => trivial) honestJ7
    sJ (by decide +kernel : j7.ctl.ps = some 0) (by decide +kernel) ⟨fun _ => ?_, fun _ => solve_reports sJ ▸ rfl⟩).1 rfl
  exact (backEndSolvable_iff (by decide +kernel) (by decide +kernel)).2 ⟨fun _ => 0, by decide +kernel, fun _ => by decide +kernel⟩

/-! Contradicting constraints: the position may not exceed 5, but the system starts at 10. -/

def opFar : Op ℚ := .system 0 (mat 2 2 [[1, 1], [0, 1]]) (mat 2 1 [[0], [1]]) (vec [0, 0]) (vec [10, 0]) 2
def far1 := after 1000 w0 opFar
def far2 := after 1000 far1 opCtl
def far3 := after 1000 far2 (.addConstraint 0 jk)

theorem hfar3 : ∃ g : Ghost, Hist d 1000 Careful far3 g ∧ g.clean := by
  have a1 := hist_after (d := d) (dmax := 1000) (E := Careful) (op := opFar) (.start w0_init) ⟨rfl, rfl, rfl⟩
    ⟨trivial, trivial, trivial⟩ (by decide +kernel)
  have a2 := hist_after (op := opCtl) a1 (show HasSystem far1 0 by unfold HasSystem; decide +kernel)
    ⟨trivial, trivial, trivial⟩ (by decide +kernel)
  exact ⟨_, hist_after (op := .addConstraint 0 jk) a2 (fun _ => (by decide +kernel)) ⟨trivial, trivial, trivial⟩ (by decide +kernel),
    trivial⟩

def rFar : World ℚ × Bool × QP ℚ := (far3.solve (env (vec [0, 0]) false)).getD (far3, true, q13)

theorem sFar : far3.solve (env (vec [0, 0]) false) = some (rFar.1, false, rFar.2.2) := by
  have e : (far3.solve (env (vec [0, 0]) false)).isSome = true := by decide +kernel
  obtain ⟨r, hr⟩ := Option.isSome_iff_exists.1 e
  have h1 : rFar = r := by unfold rFar; rw [hr]; rfl
  have h2 : rFar.2.1 = false := by decide +kernel
  rw [hr, ← h2, h1]

/-- No control sequence keeps the constraint. -/
theorem far_none (V : Nat → ℚ) : ¬ Admissible d 1000 far3 0 V := by
  rintro ⟨h, _⟩
  have l : far3.ctl.spConstr = [0] := by decide +kernel
  have := h 0 (by rw [l]; exact List.mem_singleton.2 rfl)
  unfold Constr.userData at this
  rw [(by decide +kernel : (far3.cons 0).kind = .trajectory)] at this
  have c : (far3.cons 0).E.cols = d.n := by decide +kernel
  simp only [ConstrData.Holds, c, if_true] at this
  have := this 0 (by decide) 0 (by decide +kernel)
  have q : (far3.cons 0).isIneq = true := by decide +kernel
  have t : ∀ c, traj d far3 0 V 0 c = (far3.pss 0).x0.e c := fun _ => rfl
  simp only [t] at this
  revert this
  rw [q]
  show ¬ (Ext.fin _ ≤ _)
  decide +kernel

/-- C73 applies, with every back end that answers `false` here. -/
example (k : SolverKind) (junk : Junk ℚ) : false = true ↔ ∃ V, Admissible d 1000 far3 0 V ∧
    (k = .osqp → ∀ i < rFar.2.2.Aineq.rows, -1000 ≤ rowValue rFar.2.2.Aineq V i) := by
  obtain ⟨g, hF, c⟩ := hfar3
  have o : OpOk d far3 g (.solve (env (vec [0, 0]) false)) :=
    ⟨(by decide +kernel : far3.ctl.ps ≠ none), contract rfl
      (fun h => absurd (congrArg Option.isSome h) (by decide +kernel : far3.ctl.sol.isSome ≠ false)) (by decide +kernel)⟩
  have hh : ∀ i ∈ far3.ctl.spConstr, (far3.cons i).userData.Honest := by
    intro i hi
    rw [(by decide +kernel : far3.ctl.spConstr = [0])] at hi
    rw [List.mem_singleton.1 hi]; exact trivial
  refine c73_success_iff (k := k) (junk := junk) hF (fun _ _ h => h.1) o (by decide +kernel) (fun _ => c) hh sFar
    (by decide +kernel : far3.ctl.ps = some 0) (by decide +kernel) ⟨fun h => ?_, fun h => ?_⟩
  · rw [← solve_reports sFar] at h; cases h
  · obtain ⟨V, hV, _⟩ := (backEndSolvable_iff (by decide +kernel) (by decide +kernel)).1 h
    exact absurd ((c30_feasible_set hF (fun _ _ h => h.1) o (by decide +kernel) (fun _ => c) hh sFar (by decide +kernel) V).1 hV)
      (far_none V)

end Ex
end Copra
