import Verif.SpecSolvers
import Verif.SpecTol

/-! # Specification of inexact back ends: tolerances on the problem a back end was actually handed -/

namespace Copra.Spec
variable {K : Type} [Field K] [LinearOrder K]

/-- `x` violates every equality and every inequality handed to QuadProg by at most `δ`. -/
def QuadProgProblem.FeasibleWithin (δ : K) (p : QuadProgProblem K) (x : Nat → K) : Prop :=
  (∀ i < p.nrEq, RelWithin δ false (rowValue p.Aeq x i) (p.beq.e i)) ∧
  ∀ i < p.nrIneq, RelWithin δ true (rowValue p.Aineq x i) (p.bineq.e i)

/-- `x` violates every two-sided row and every bound handed to LSSOL or OSQP by at most `δ`. -/
def TwoSidedProblem.FeasibleWithin (δ : K) (p : TwoSidedProblem K) (x : Nat → K) : Prop :=
  (∀ i < p.nrConstr, BoundWithin δ (p.bl.e i) (rowValue p.A x i) (p.bu.e i)) ∧
  ∀ j < p.nrVar, BoundWithin δ (p.xl.e j) (x j) (p.xu.e j)

/-- `x` violates the constraints that the wrapper of solver kind `k` hands to its back end by at most `δ`. -/
def BackEndResidual (dmax : K) (junk : Junk K) (k : SolverKind) (δ : K) (q : QP K) (x : Nat → K) : Prop :=
  match k with
  | .quadProgDense => ∃ p, quadProg junk q = some p ∧ QuadProgProblem.FeasibleWithin δ p x
  | .lssol => ∃ p, lssol junk q = some p ∧ TwoSidedProblem.FeasibleWithin δ p x
  | .osqp => ∃ p, osqp dmax junk q = some p ∧ TwoSidedProblem.FeasibleWithin δ p x
  | .qld => FeasibleWithin δ (qld q) x
  | .userDefined => FeasibleWithin δ q x
  | .gurobi => FeasibleWithin δ (gurobi q) x

/-- `x` is, in the problem that the wrapper of solver kind `k` hands to its back end, within `δ` of satisfying the
constraints and costs at most `ε` more than any point that satisfies them exactly. -/
def BackEndNear (dmax : K) (junk : Junk K) (k : SolverKind) (δ ε : K) (q : QP K) (x : Nat → K) : Prop :=
  BackEndResidual dmax junk k δ q x ∧
  match k with
  | .quadProgDense => ∃ p, quadProg junk q = some p ∧ ∀ y, QuadProgProblem.Feasible p y →
      QuadProgProblem.objective p x ≤ QuadProgProblem.objective p y + ε
  | .lssol => ∃ p, lssol junk q = some p ∧ ∀ y, TwoSidedProblem.Feasible p y →
      TwoSidedProblem.objective p x ≤ TwoSidedProblem.objective p y + ε
  | .osqp => ∃ p, osqp dmax junk q = some p ∧ ∀ y, TwoSidedProblem.Feasible p y →
      TwoSidedProblem.objective p x ≤ TwoSidedProblem.objective p y + ε
  | .qld => ∀ y, Feasible (qld q) y → objective (qld q) x ≤ objective (qld q) y + ε
  | .userDefined => ∀ y, Feasible q y → objective q x ≤ objective q y + ε
  | .gurobi => ∀ y, Feasible (gurobi q) y → objective (gurobi q) x ≤ objective (gurobi q) y + ε

end Copra.Spec
