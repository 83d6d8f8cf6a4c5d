import Verif.Model.LMPC

/-! # Model of the names of costs and constraints and of the warnings of debug builds

`Constraint::name()`, `CostFunction::name()` and the output of `CONSTRAINT_DELETION_WARN`
(include/debugUtils.h 14-20) on `stderr` during `LMPC::solve`. -/

namespace Copra

/-- `Constraint::name()`: include/constraints.h 70 and the constructors (include/constraints.h 127-132, 163-168,
203-209, 242-245, 286-289; src/constraints.cpp 16-32).  `name_` is set once and never assigned again, so it is a
function of the class and of `isIneq_`.  Note the qualifier of `MixedConstraint` (line 204). -/
def Constr.name {K : Type} (c : Constr K) : List Char :=
  let suffix := if c.isIneq then " inequality constraint".toList else " equality constraint".toList
  match c.kind with
  | .trajectory => "Trajectory".toList ++ suffix
  | .control => "Control".toList ++ suffix
  | .mixed => "Control".toList ++ suffix
  | .trajBound => "Trajectory bound".toList ++ " inequality constraint".toList
  | .ctrlBound => "Control bound constraint".toList

/-- `CostFunction::name()`: include/costFunctions.h 79 and the constructors (include/costFunctions.h 112-113,
142-143, 171-172, 202-203). -/
def Cost.name {K : Type} (c : Cost K) : List Char :=
  match c.kind with
  | .trajectory => "TrajectoryCost".toList
  | .target => "TargetCost".toList
  | .control => "ControlCost".toList
  | .mixed => "MixedCost".toList

/-- `CONSTRAINT_DELETION_WARN`, include/debugUtils.h 14-20, as called in src/LMPC.cpp 293-294: what is written to
`stderr`.  `debug` is `true` when `NDEBUG` is not defined. -/
def deletionWarn (debug warn : Bool) (name : List Char) : List Char :=
  if debug && warn then
    "A '".toList ++ name ++ "' has been destroyed.\nIt has been removed from the controller\n".toList
  else []

namespace LMPC
variable {K : Type} [Zero K] [One K] [Add K] [Sub K] [Neg K] [Mul K] [Arith K]

/-- What the lambda `check` (src/LMPC.cpp 290-300) writes to `stderr` while it walks through a vector; the walk
is that of `LMPC.checkList`. -/
def checkListOut (debug warn : Bool) (name : Nat → List Char) (limit : Nat) (other : Nat → Nat) :
    List Nat → List Nat → List Char
  | _, [] => []
  | kept, i :: rest =>
    if other i + (kept ++ i :: rest).count i ≤ limit then
      deletionWarn debug warn (name i) ++ checkListOut debug warn name limit other kept rest
    else checkListOut debug warn name limit other (kept ++ [i]) rest

/-- What `checkDeleteCostsAndConstraints` (src/LMPC.cpp 288-307) writes to `stderr`: the calls of `check`, with
their `useWarn` arguments, on the successive states of the registries. -/
def checkDeleteOut (debug : Bool) (cname kname : Nat → List Char) (extCons extCosts : Nat → Nat) (l : LMPC K) :
    List Char :=
  let o1 := checkListOut debug true cname 2 (fun i => extCons i + l.spEqConstr.count i
    + l.spIneqConstr.count i + l.spBoundConstr.count i) [] l.spConstr
  let l := { l with spConstr := checkList 2 (fun i => extCons i + l.spEqConstr.count i
    + l.spIneqConstr.count i + l.spBoundConstr.count i) [] l.spConstr }
  let o2 := checkListOut debug false cname 2 (fun i => extCons i + l.spConstr.count i
    + l.spIneqConstr.count i + l.spBoundConstr.count i) [] l.spEqConstr
  let l := { l with spEqConstr := checkList 2 (fun i => extCons i + l.spConstr.count i
    + l.spIneqConstr.count i + l.spBoundConstr.count i) [] l.spEqConstr }
  let o3 := checkListOut debug false cname 2 (fun i => extCons i + l.spConstr.count i
    + l.spEqConstr.count i + l.spBoundConstr.count i) [] l.spIneqConstr
  let l := { l with spIneqConstr := checkList 2 (fun i => extCons i + l.spConstr.count i
    + l.spEqConstr.count i + l.spBoundConstr.count i) [] l.spIneqConstr }
  let o4 := checkListOut debug false cname 2 (fun i => extCons i + l.spConstr.count i
    + l.spEqConstr.count i + l.spIneqConstr.count i) [] l.spBoundConstr
  let o5 := checkListOut debug true kname 1 extCosts [] l.spCost
  o1 ++ o2 ++ o3 ++ o4 ++ o5

end LMPC

namespace World
variable {K : Type} [Zero K] [One K] [Add K] [Sub K] [Neg K] [Mul K] [Arith K]

/-- What the library itself (not the back end) writes to `stderr` during `LMPC::solve`, src/LMPC.cpp 79-101: the
output of `checkDeleteCostsAndConstraints` (line 94) on the state `solve` has reached by then.  `none` when the
call is undefined before that point. -/
def solveStderr (debug : Bool) (env : SolveEnv K) (w : World K) : Option (List Char) := do
  let w ← w.updateSystem env.junk
  let p ← w.ctl.ps
  let ps := w.pss p
  let l ← w.ctl.makeQPForm env.inverse w.cons w.costs ps
  let s ← l.sol
  let (_, result) := env.answer l.qp
  let l := { l with sol := some { s with result := result }, solveTime := some (env.t2 - env.t1) }
  return l.checkDeleteOut debug (fun i => (w.cons i).name) (fun i => (w.costs i).name) w.extCons w.extCosts

end World
end Copra
