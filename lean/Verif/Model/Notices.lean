import Verif.Model.Solvers

/-! # Model of what the solver wrappers print on `stdout`

The notices of `src/SolverInterface.cpp` for settings a wrapper does not override, the print level, and
`SI_inform` of the QuadProg and QLD wrappers.  `LSSOLSolver::SI_inform` and `OSQPSolver::SI_inform` call the back end
(src/LSSOLSolver.cpp 35-38, src/OSQPSolver.cpp 36-39) and are not modelled; neither is `GUROBISolver`, which does not
compile. -/

namespace Copra
variable {K : Type}

/-- The virtual member functions of `SolverInterface` about settings, include/SolverInterface.h 31-46. -/
inductive SettingCall (K : Type) where
  | getMaxIter
  | setMaxIter (n : Int)
  | setPrintLevel (pl : Int)
  | getFeasTol
  | setFeasTol (t : K)
  | getWarm
  | setWarm (b : Bool)

/-- The bodies of `SolverInterface`, src/SolverInterface.cpp 20-56: the text printed. -/
def baseNotice : SettingCall K → List Char
  | .getMaxIter => "No maxIter() function for this qp\n".toList
  | .setMaxIter _ => "No maxIter(int) function for this qp\n".toList
  | .setPrintLevel _ => "No printLevel(int) function for this qp\n".toList
  | .getFeasTol => "No feasibilityTolerance() function for this qp\n".toList
  | .setFeasTol _ => "No feasibilityTolerance(double) function for this qp\n".toList
  | .getWarm => "No warmStart() function for this qp\n".toList
  | .setWarm _ => "No warmStart(bool) function for this qp\n".toList

/-- Which of these functions each wrapper overrides: include/LSSOLSolver.h 43-51 (all), include/OSQPSolver.h 48-54
(all but `SI_feasibilityTolerance()`), include/QLDSolver.h 36-37 (`SI_printLevel`, `SI_feasibilityTolerance(double)`),
include/QuadProgSolver.h 28-30 (none). -/
def overrides (k : SolverKind) (c : SettingCall K) : Bool :=
  match k with
  | .lssol => true
  | .osqp =>
    match c with
    | .getFeasTol => false
    | _ => true
  | .qld =>
    match c with
    | .setPrintLevel _ => true
    | .setFeasTol _ => true
    | _ => false
  | _ => false

/-- What a settings call prints: the overriding functions (src/LSSOLSolver.cpp 24-63, src/OSQPSolver.cpp 46-74,
src/QLDSolver.cpp 59-67) print nothing. -/
def settingOut (k : SolverKind) (c : SettingCall K) : List Char :=
  if overrides k c then [] else baseNotice c

/-- The back end's print level (`LSSOL_QP::printLevel`) and verbosity (`QLD::verbose`, `OSQP::verbose`); the back
end's accessors are assumed to store the value.
Uses: src/LSSOLSolver.cpp 40-43, QLDSolver.cpp 59-62, OSQPSolver.cpp 66-69. -/
structure Verbosity where
  level : Int
  verbose : Bool

/-- `SI_printLevel(int)`: src/SolverInterface.cpp 31-34 (ignored), LSSOLSolver.cpp 40-43, QLDSolver.cpp 59-62,
OSQPSolver.cpp 66-69. -/
def setPrintLevel (k : SolverKind) (v : Verbosity) (pl : Int) : Verbosity :=
  match k with
  | .lssol => { v with level := pl }
  | .qld => { v with verbose := decide (pl ≠ 0) }
  | .osqp => { v with verbose := decide (pl ≠ 0) }
  | _ => v

/-- `QuadProgDenseSolver::SI_inform`, src/QuadProgSolver.cpp 24-38, for the back end's `fail()` code. -/
def quadProgInform (fail : Int) : List Char :=
  if fail = 0 then "No problems\n".toList
  else if fail = 1 then "The minimization problem has no solution\n".toList
  else if fail = 2 then "Problems with the decomposition of Q (Is it symmetric?)\n".toList
  else []

/-- `QLDSolver::SI_inform`, src/QLDSolver.cpp 24-57, for the back end's `fail()` code. -/
def qldInform (fail : Int) : List Char :=
  if fail = 0 then "The optimality conditions are satisfied.\n".toList
  else if fail = 1 then "The algorithm has been stopped after too many MAXIT iterations (40*(N+M)).\n".toList
  else if fail = 2 then "Termination accuracy insufficient to satisfy convergence criterion.\n".toList
  else if fail = 3 then "Internal inconsistency of QL, division by zero.\n".toList
  else if fail = 4 then ("Numerical instability prevents successful termination. " ++
    "Use tolerance specified in WAR(1) for a restart.\n").toList
  else if fail = 5 then "Length of a working array is too short.\n".toList
  else ("Constraints are inconsistent and IFAIL=100+ICON, " ++
    "where ICON denotes a constraint causing the conflict.\n").toList

end Copra
