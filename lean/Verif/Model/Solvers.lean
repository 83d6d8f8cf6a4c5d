import Verif.Model.LMPC

/-! # Model of the solver wrappers and factories

`src/QuadProgSolver.cpp`, `src/LSSOLSolver.cpp`, `src/OSQPSolver.cpp`, `src/QLDSolver.cpp`,
`src/SolverInterface.cpp`, `src/solverUtils.cpp`.  The third-party solvers themselves
(eigen-quadprog, eigen-lssol, eigen-osqp, eigen-qld) are not modelled: only the problem each wrapper
hands to them.  `GUROBISolver.cpp` does not compile (undeclared `tol`, missing returns) and is modelled
only as a factory result. -/

namespace Copra
variable {K : Type} [Field K]

/-! ## Problems handed to the back ends -/

/-- Arguments of `QuadProgDense::problem` and `QuadProgDense::solve`: minimise `1/2 x'Qx + c'x`
subject to `Aeq x = beq`, `Aineq x <= bineq`. Built at src/QuadProgSolver.cpp 45-72. -/
structure QuadProgProblem (K : Type) where
  nrVar : Nat
  nrEq : Nat
  nrIneq : Nat
  Q : Mat K
  c : Vec K
  Aeq : Mat K
  beq : Vec (Ext K)
  Aineq : Mat K
  bineq : Vec (Ext K)

/-- Arguments of `LSSOL_QP::solve` and `OSQP::solve`: minimise `1/2 x'Qx + c'x` subject to
`bl <= A x <= bu`, `xl <= x <= xu`. Built at src/LSSOLSolver.cpp 70-100 and src/OSQPSolver.cpp 81-102. -/
structure TwoSidedProblem (K : Type) where
  nrVar : Nat
  nrConstr : Nat
  Q : Mat K
  c : Vec K
  A : Mat K
  bl : Vec (Ext K)
  bu : Vec (Ext K)
  xl : Vec (Ext K)
  xu : Vec (Ext K)

/-- `-XL` for a vector of possibly infinite entries. src/QuadProgSolver.cpp 54-72. -/
def Vec.negExt (v : Vec (Ext K)) : Vec (Ext K) := ⟨v.rows, fun i => (v.e i).neg⟩

/-- `QuadProgDenseSolver::SI_problem` and `SI_solve`, src/QuadProgSolver.cpp 45-72.
`junk` is the contents of the uninitialised `ineqMat` and `ineqVec`. -/
def quadProg (junk : Junk K) (q : QP K) : Option (QuadProgProblem K) := do
  let nIneq ← chkInt (q.nrIneq + 2 * q.nrVar)
  let nrLines := q.lb.rows
  let aLines := q.Aineq.rows
  let I : Mat K := Mat.identity nrLines nrLines
  let M := Mat.resize (aLines + 2 * nrLines) q.Aineq.cols (junk.m 0)
  let v := Vec.resize (aLines + 2 * nrLines) (junk.x 0)
  let M ← M.setBlock? 0 0 aLines M.cols q.Aineq
  let M ← M.setBlock? aLines 0 nrLines nrLines I
  let M ← M.setBlock? (aLines + nrLines) 0 nrLines nrLines I.neg
  let v ← v.setSegment? 0 aLines q.bineq
  let v ← v.setSegment? aLines nrLines q.ub
  let v ← v.setSegment? (v.rows - nrLines) nrLines q.lb.negExt
  return { nrVar := q.nrVar, nrEq := q.nrEq, nrIneq := nIneq, Q := q.Q, c := q.c, Aeq := q.Aeq,
           beq := q.beq, Aineq := M, bineq := v }

/-- `LSSOLSolver::SI_problem` and `SI_solve`, src/LSSOLSolver.cpp 70-100. -/
def lssol (junk : Junk K) (q : QP K) : Option (TwoSidedProblem K) := do
  let n ← chkInt (q.nrEq + q.nrIneq)
  let A := Mat.resize n q.nrVar (junk.m 0)
  let bl := Vec.resize n (junk.x 0)
  let bu := Vec.resize n (junk.x 1)
  let nrVar := q.Aeq.cols
  let nrEq := q.Aeq.rows
  let nrIneq := q.Aineq.rows
  let A ← A.setBlock? 0 0 nrEq nrVar q.Aeq
  let A ← A.setBlock? nrEq 0 nrIneq nrVar q.Aineq
  let bl ← bl.setSegment? 0 nrEq q.beq
  let o ← LMPC.cornerOff bl.rows nrIneq
  let bl ← bl.setSegment? o nrIneq (Vec.const nrIneq .ninf)
  let bu ← bu.setSegment? 0 nrEq q.beq
  let bu ← bu.setSegment? o nrIneq q.bineq
  return { nrVar := q.nrVar, nrConstr := n, Q := q.Q, c := q.c, A := A, bl := bl, bu := bu,
           xl := q.lb, xu := q.ub }

/-- `OSQPSolver::SI_problem` and `SI_solve`, src/OSQPSolver.cpp 81-102. -/
def osqp (dmax : K) (junk : Junk K) (q : QP K) : Option (TwoSidedProblem K) := do
  let n ← chkInt (q.nrEq + q.nrIneq)
  let nE := q.Aeq.rows
  let nI := q.Aineq.rows
  let A := Mat.resize (nE + nI) q.Aeq.cols (junk.m 0)
  let A ← A.setBlock? 0 0 nE A.cols q.Aeq
  let A ← A.setBlock? (A.rows - nI) 0 nI A.cols q.Aineq
  let bl := Vec.resize (nE + nI) (junk.x 0)
  let bu := Vec.resize (nE + nI) (junk.x 1)
  let bl ← bl.setSegment? 0 nE q.beq
  let bl ← bl.setSegment? (bl.rows - nI) nI (Vec.const nI (.fin (-dmax)))
  let bu ← bu.setSegment? 0 nE q.beq
  let bu ← bu.setSegment? (bu.rows - nI) nI q.bineq
  return { nrVar := q.nrVar, nrConstr := n, Q := q.Q, c := q.c, A := A, bl := bl, bu := bu,
           xl := q.lb, xu := q.ub }

/-- `QLDSolver::SI_problem` and `SI_solve`, src/QLDSolver.cpp 74-85: everything is passed through. -/
def qld (q : QP K) : QP K := q

/-- `GUROBISolver::SI_problem` and `SI_solve`, src/GUROBISolver.cpp 79-90: everything is passed through.  (The file does
not compile at this commit because of `SI_maxIter`; these two functions are modelled as written.) -/
def gurobi (q : QP K) : QP K := q

/-! ## Factories -/

/-- Which optional solvers were found at configuration time (`EIGEN_*_FOUND`).
Uses: include/solverUtils.h 36-47, src/solverUtils.cpp. -/
structure BuildConfig where
  lssol : Bool
  gurobi : Bool
  qld : Bool
  osqp : Bool

/-- `enum class SolverFlag`, include/solverUtils.h 34-50. -/
inductive SolverFlag where
  | DEFAULT
  | LSSOL
  | GUROBIDense
  | QLD
  | OSQP
  | QuadProgDense
  deriving DecidableEq, Repr

/-- A flag exists only if its `#ifdef` is active, include/solverUtils.h 36-47. -/
def SolverFlag.available (cfg : BuildConfig) : SolverFlag → Bool
  | .LSSOL => cfg.lssol
  | .GUROBIDense => cfg.gurobi
  | .QLD => cfg.qld
  | .OSQP => cfg.osqp
  | .DEFAULT => true
  | .QuadProgDense => true

/-- `solverFactory`, src/solverUtils.cpp 9-34: the `case`s present in the build, then `default`. -/
def solverFactory (cfg : BuildConfig) (flag : SolverFlag) : SolverKind :=
  if cfg.lssol = true ∧ flag = .LSSOL then .lssol
  else if cfg.gurobi = true ∧ flag = .GUROBIDense then .gurobi
  else if cfg.qld = true ∧ flag = .QLD then .qld
  else if cfg.osqp = true ∧ flag = .OSQP then .osqp
  else .quadProgDense

/-- `pythonSolverFactory`, src/solverUtils.cpp 36-59. -/
def pythonSolverFactory (cfg : BuildConfig) (flag : SolverFlag) : SolverKind :=
  if cfg.lssol = true ∧ flag = .LSSOL then .lssol
  else if cfg.gurobi = true ∧ flag = .GUROBIDense then .gurobi
  else if cfg.qld = true ∧ flag = .QLD then .qld
  else if cfg.osqp = true ∧ flag = .OSQP then .osqp
  else .quadProgDense

/-! ## Settings -/

/-- The settings of a wrapper and of its back end that the interface can touch: `eps` is `eps_` of
`QLDSolver`; the others live in the back-end object, whose accessors are assumed to store and return
the value.  `Eigen::OSQP::absConvergenceTol` has its own slot.
Members set at src/LSSOLSolver.cpp 24-63, OSQPSolver.cpp 46-74, QLDSolver.cpp 64-67. -/
structure Settings (K : Type) where
  optMaxIter : Int
  feasMaxIter : Int
  feasTol : K
  absConvTol : K
  warm : Bool
  eps : K

/-- `SI_maxIter(int)`: SolverInterface.cpp 26-29 (ignored), LSSOLSolver.cpp 29-33,
OSQPSolver.cpp 51-54. -/
def setMaxIter (k : SolverKind) (s : Settings K) (n : Int) : Settings K :=
  match k with
  | .lssol => { s with optMaxIter := n, feasMaxIter := n }
  | .osqp => { s with optMaxIter := n }
  | _ => s

/-- `SI_maxIter()`: SolverInterface.cpp 20-24 (-1), LSSOLSolver.cpp 24-27, OSQPSolver.cpp 46-49. -/
def getMaxIter (k : SolverKind) (s : Settings K) : Int :=
  match k with
  | .lssol => s.optMaxIter
  | .osqp => s.optMaxIter
  | _ => -1

/-- `SI_feasibilityTolerance(double)`: SolverInterface.cpp 42-45 (ignored), LSSOLSolver.cpp 50-53,
QLDSolver.cpp 64-67, OSQPSolver.cpp 71-74. -/
def setFeasTol (k : SolverKind) (s : Settings K) (t : K) : Settings K :=
  match k with
  | .lssol => { s with feasTol := t }
  | .qld => { s with eps := t }
  | .osqp => { s with absConvTol := t }
  | _ => s

/-- `SI_feasibilityTolerance()`: SolverInterface.cpp 36-40 (-1), LSSOLSolver.cpp 45-48; not
overridden by `QLDSolver` and `OSQPSolver` (include/QLDSolver.h 33-41, include/OSQPSolver.h 45-59). -/
def getFeasTol (k : SolverKind) (s : Settings K) : K :=
  match k with
  | .lssol => s.feasTol
  | _ => -1

/-- `SI_warmStart(bool)`: SolverInterface.cpp 53-56 (ignored), LSSOLSolver.cpp 60-63,
OSQPSolver.cpp 61-64. -/
def setWarm (k : SolverKind) (s : Settings K) (b : Bool) : Settings K :=
  match k with
  | .lssol => { s with warm := b }
  | .osqp => { s with warm := b }
  | _ => s

/-- `SI_warmStart()`: SolverInterface.cpp 47-51 (false), LSSOLSolver.cpp 55-58,
OSQPSolver.cpp 56-59. -/
def getWarm (k : SolverKind) (s : Settings K) : Bool :=
  match k with
  | .lssol => s.warm
  | .osqp => s.warm
  | _ => false

/-- The tolerance that `SI_solve` hands to the QLD back end, src/QLDSolver.cpp 84. -/
def qldSolveTol (s : Settings K) : K := s.eps

/-- Whether the class overrides the setter, i.e. the setting "can be set".
src/LSSOLSolver.cpp 50-53, QLDSolver.cpp 64-67, OSQPSolver.cpp 71-74. -/
def supportsFeasTol : SolverKind → Bool
  | .lssol => true
  | .qld => true
  | .osqp => true
  | _ => false

/-- Whether the class overrides `SI_maxIter(int)`. src/LSSOLSolver.cpp 29-33, OSQPSolver.cpp 51-54. -/
def supportsMaxIter : SolverKind → Bool
  | .lssol => true
  | .osqp => true
  | _ => false

/-- Whether the class overrides `SI_warmStart(bool)`. src/LSSOLSolver.cpp 60-63, OSQPSolver.cpp 61-64. -/
def supportsWarm : SolverKind → Bool
  | .lssol => true
  | .osqp => true
  | _ => false

end Copra
