import Verif.Model.Solvers
import Verif.Spec

/-! # Specification of the problems the back-end solvers solve

What each third-party solver documents that it minimises and over which set, independently of how the
wrappers of copra fill its arguments. -/

namespace Copra.Spec
variable {K : Type} [Field K]

/-- Objective of the problem handed to QuadProg. -/
def QuadProgProblem.objective (p : QuadProgProblem K) (x : Nat → K) : K := quadValue p.nrVar p.Q p.c x

/-- Objective of the problem handed to LSSOL or OSQP. -/
def TwoSidedProblem.objective (p : TwoSidedProblem K) (x : Nat → K) : K := quadValue p.nrVar p.Q p.c x

/-- The pieces handed to QuadProg have the sizes it was told to expect. -/
def QuadProgProblem.WellSized (p : QuadProgProblem K) : Prop :=
  p.Q.rows = p.nrVar ∧ p.Q.cols = p.nrVar ∧ p.c.rows = p.nrVar ∧
  p.Aeq.rows = p.nrEq ∧ p.Aeq.cols = p.nrVar ∧ p.beq.rows = p.nrEq ∧
  p.Aineq.rows = p.nrIneq ∧ p.Aineq.cols = p.nrVar ∧ p.bineq.rows = p.nrIneq

/-- The pieces handed to LSSOL or OSQP have the sizes they were told to expect. -/
def TwoSidedProblem.WellSized (p : TwoSidedProblem K) : Prop :=
  p.Q.rows = p.nrVar ∧ p.Q.cols = p.nrVar ∧ p.c.rows = p.nrVar ∧
  p.A.rows = p.nrConstr ∧ p.A.cols = p.nrVar ∧ p.bl.rows = p.nrConstr ∧ p.bu.rows = p.nrConstr ∧
  p.xl.rows = p.nrVar ∧ p.xu.rows = p.nrVar

variable [LinearOrder K]

/-- `Aeq x = beq`, `Aineq x <= bineq`. -/
def QuadProgProblem.Feasible (p : QuadProgProblem K) (x : Nat → K) : Prop :=
  (∀ i < p.nrEq, Ext.fin (rowValue p.Aeq x i) = p.beq.e i) ∧
  ∀ i < p.nrIneq, Ext.fin (rowValue p.Aineq x i) ≤ p.bineq.e i

/-- `bl <= A x <= bu`, `xl <= x <= xu`. -/
def TwoSidedProblem.Feasible (p : TwoSidedProblem K) (x : Nat → K) : Prop :=
  (∀ i < p.nrConstr, p.bl.e i ≤ Ext.fin (rowValue p.A x i) ∧ Ext.fin (rowValue p.A x i) ≤ p.bu.e i) ∧
  ∀ j < p.nrVar, p.xl.e j ≤ Ext.fin (x j) ∧ Ext.fin (x j) ≤ p.xu.e j

/-- `x` minimises the problem that the wrapper of solver kind `k` hands to its back end when it is asked to solve
`q` (`junk`: contents of the wrapper's uninitialised memory). -/
def BackEndOptimal (dmax : K) (junk : Junk K) (k : SolverKind) (q : QP K) (x : Nat → K) : Prop :=
  match k with
  | .quadProgDense => ∃ p, quadProg junk q = some p ∧ QuadProgProblem.Feasible p x ∧
      ∀ y, QuadProgProblem.Feasible p y → QuadProgProblem.objective p x ≤ QuadProgProblem.objective p y
  | .lssol => ∃ p, lssol junk q = some p ∧ TwoSidedProblem.Feasible p x ∧
      ∀ y, TwoSidedProblem.Feasible p y → TwoSidedProblem.objective p x ≤ TwoSidedProblem.objective p y
  | .osqp => ∃ p, osqp dmax junk q = some p ∧ TwoSidedProblem.Feasible p x ∧
      ∀ y, TwoSidedProblem.Feasible p y → TwoSidedProblem.objective p x ≤ TwoSidedProblem.objective p y
  | .qld => IsOptimal (qld q) x
  | .userDefined => IsOptimal q x
  | .gurobi => IsOptimal (gurobi q) x

/-- The wrapper of kind `k` prepares the problem for its back end without any out-of-range access or `int` overflow,
and announces sizes that fit. -/
def WrapperDefined (dmax : K) (junk : Junk K) (k : SolverKind) (q : QP K) : Prop :=
  match k with
  | .quadProgDense => ∃ p, quadProg junk q = some p ∧ QuadProgProblem.WellSized p
  | .lssol => ∃ p, lssol junk q = some p ∧ TwoSidedProblem.WellSized p
  | .osqp => ∃ p, osqp dmax junk q = some p ∧ TwoSidedProblem.WellSized p
  | .qld => WellSized (qld q)
  | .userDefined => WellSized q
  | .gurobi => WellSized (gurobi q)

/-- The solver a flag names; `DEFAULT` is documented to be `QuadProgDense` (include/solverUtils.h 35). -/
def namedSolver : SolverFlag → SolverKind
  | .DEFAULT => .quadProgDense
  | .QuadProgDense => .quadProgDense
  | .LSSOL => .lssol
  | .GUROBIDense => .gurobi
  | .QLD => .qld
  | .OSQP => .osqp

end Copra.Spec
