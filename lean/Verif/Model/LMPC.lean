import Verif.Model.Constraints
import Verif.Model.Costs

/-! # Model of `src/LMPC.cpp`, `src/InitialStateLMPC.cpp` and of a client of the library

`World` is the state of a program that owns preview systems, costs and constraints through
`shared_ptr`s (addressed by number) and one controller.  `step` executes one public API call. -/

namespace Copra

/-- The concrete `SolverInterface` implementations.
include/QuadProgSolver.h, LSSOLSolver.h, GUROBISolver.h, QLDSolver.h, OSQPSolver.h; a class of the user for `useSolver`, src/LMPC.cpp 67-70. -/
inductive SolverKind where
  | quadProgDense
  | lssol
  | gurobi
  | qld
  | osqp
  | userDefined
  deriving DecidableEq, Repr

/-- A solver object as seen by the controller: its class and what `SI_result()` returns.
Before any solve the result is modelled as the empty vector. include/SolverInterface.h. -/
structure Solver (K : Type) where
  kind : SolverKind
  result : Vec K

/-- The arguments of `SI_problem` and `SI_solve` (src/LMPC.cpp 88, 91). -/
structure QP (K : Type) where
  nrVar : Nat
  nrEq : Nat
  nrIneq : Nat
  Q : Mat K
  c : Vec K
  Aeq : Mat K
  beq : Vec (Ext K)
  Aineq : Mat K
  bineq : Vec (Ext K)
  lb : Vec (Ext K)
  ub : Vec (Ext K)

/-- `class LMPC` (include/LMPC.h 173-190) together with the members of `InitialStateLMPC`
(include/InitialStateLMPC.h 38-41); `isInit` tells which class the object has.  Shared pointers are
numbers; `none` is the null pointer.  The two durations are indeterminate (`none`) until assigned. -/
structure LMPC (K : Type) where
  isInit : Bool
  ps : Option Nat
  sol : Option (Solver K)
  spCost : List Nat
  nrEqConstr : Nat
  nrIneqConstr : Nat
  spConstr : List Nat
  spEqConstr : List Nat
  spIneqConstr : List Nat
  spBoundConstr : List Nat
  Q : Mat K
  c : Vec K
  Aineq : Mat K
  bineq : Vec (Ext K)
  Aeq : Mat K
  beq : Vec (Ext K)
  lb : Vec (Ext K)
  ub : Vec (Ext K)
  trajectory : Vec K
  control : Vec K
  solveTime : Option Int
  solveAndBuildTime : Option Int
  R : Mat K
  r : Vec K
  x0lb : Vec (Ext K)
  x0ub : Vec (Ext K)

/-- A program state: the heap of preview systems, constraints and costs, the number of `shared_ptr`s
to each constraint/cost held outside the controller, and the controller.
Objects reached through the `shared_ptr`s of include/LMPC.h 166-169, 173-175. -/
structure World (K : Type) where
  pss : Nat → PreviewSystem K
  cons : Nat → Constr K
  costs : Nat → Cost K
  extCons : Nat → Nat
  extCosts : Nat → Nat
  ctl : LMPC K

/-- What the environment contributes to one `solve()`: uninitialised memory, Eigen's
`Matrix::inverse()`, the QP solver and the four clock readings (src/LMPC.cpp 82, 90, 92, 99). -/
structure SolveEnv (K : Type) where
  junk : Junk K
  inverse : Mat K → Mat K
  answer : QP K → Bool × Vec K
  t0 : Int
  t1 : Int
  t2 : Int
  t3 : Int

namespace LMPC
variable {K : Type} [Zero K] [One K] [Add K] [Sub K] [Neg K] [Mul K] [Arith K]

/-- `LMPC(sFlag)` / `InitialStateLMPC(sFlag)`, src/LMPC.cpp 15-19, 50-54,
src/InitialStateLMPC.cpp 15-18. -/
def construct (isInit : Bool) (s : Solver K) : LMPC K where
  isInit := isInit
  ps := none
  sol := some s
  spCost := []
  nrEqConstr := 0
  nrIneqConstr := 0
  spConstr := []
  spEqConstr := []
  spIneqConstr := []
  spBoundConstr := []
  Q := Mat.empty
  c := Vec.zero 0
  Aineq := Mat.empty
  bineq := Vec.nil
  Aeq := Mat.empty
  beq := Vec.nil
  lb := Vec.nil
  ub := Vec.nil
  trajectory := Vec.zero 0
  control := Vec.zero 0
  solveTime := none
  solveAndBuildTime := none
  R := Mat.empty
  r := Vec.zero 0
  x0lb := Vec.nil
  x0ub := Vec.nil

/-- Number of columns of the QP: `fullUDim` (src/LMPC.cpp 203-222) or `xDim + fullUDim`
(src/InitialStateLMPC.cpp 54, 65-73), an `int`. -/
def optSize (l : LMPC K) (ps : PreviewSystem K) : Option Nat :=
  if l.isInit then chkInt (ps.xDim + ps.fullUDim) else some ps.fullUDim

/-- `clearConstraintMatrices`, src/LMPC.cpp 199-209 and src/InitialStateLMPC.cpp 52-61.
`dmax` is `std::numeric_limits<double>::max()`. -/
def clearConstraintMatrices (dmax : K) (l : LMPC K) (ps : PreviewSystem K) : Option (LMPC K) := do
  let n ← l.optSize ps
  return { l with
    Aineq := Mat.zero 0 n
    Aeq := Mat.zero 0 n
    bineq := Vec.nil
    beq := Vec.nil
    lb := Vec.const n (.fin (-dmax))
    ub := Vec.const n (.fin dmax) }

/-- `updateQPMatrixSize`, src/LMPC.cpp 211-215 and src/InitialStateLMPC.cpp 63-67. -/
def updateQPMatrixSize (junk : Junk K) (l : LMPC K) (ps : PreviewSystem K) : Option (LMPC K) := do
  let n ← l.optSize ps
  return { l with Q := Mat.resize n n (junk.m 0), c := Vec.resize n (junk.v 0) }

/-- `initializeController`, src/LMPC.cpp 72-77 (`ps` is the contents of preview system `p`). -/
def initializeController (dmax : K) (junk : Junk K) (l : LMPC K) (p : Nat) (ps : PreviewSystem K) :
    Option (LMPC K) := do
  let l ← { l with ps := some p }.clearConstraintMatrices dmax ps
  l.updateQPMatrixSize junk ps

/-- `updateConstraintMatrixSize`, src/LMPC.cpp 217-223 and src/InitialStateLMPC.cpp 69-75. -/
def updateConstraintMatrixSize (junk : Junk K) (l : LMPC K) (ps : PreviewSystem K) :
    Option (LMPC K) := do
  let n ← l.optSize ps
  return { l with
    Aeq := Mat.resize l.nrEqConstr n (junk.m 0)
    beq := Vec.resize l.nrEqConstr (junk.x 0)
    Aineq := Mat.resize l.nrIneqConstr n (junk.m 1)
    bineq := Vec.resize l.nrIneqConstr (junk.x 1) }

/-- `countConstr` of `Constraints::updateNr`, src/LMPC.cpp 26-30 (an `int` sum). -/
def countConstr (cons : Nat → Constr K) (l : List Nat) : Option Nat :=
  l.foldlM (fun n i => chkInt (n + (cons i).nrConstr)) 0

/-- `Constraints::updateNr`, src/LMPC.cpp 21-34. -/
def updateNr (cons : Nat → Constr K) (l : LMPC K) : Option (LMPC K) := do
  let ne ← countConstr cons l.spEqConstr
  let ni ← countConstr cons l.spIneqConstr
  return { l with nrEqConstr := ne, nrIneqConstr := ni }

/-- `addConstraintByType`, src/LMPC.cpp 173-197. -/
def addConstraintByType (l : LMPC K) (i : Nat) (c : Constr K) : Option (LMPC K) :=
  match c.constraintType with
  | .equality => do
    let n ← chkInt (l.nrEqConstr + c.nrConstr)
    return { l with
      nrEqConstr := n
      spEqConstr := l.spEqConstr ++ [i]
      spConstr := l.spConstr ++ [i] }
  | .inequality => do
    let n ← chkInt (l.nrIneqConstr + c.nrConstr)
    return { l with
      nrIneqConstr := n
      spIneqConstr := l.spIneqConstr ++ [i]
      spConstr := l.spConstr ++ [i] }
  | .bound => some { l with
      spBoundConstr := l.spBoundConstr ++ [i]
      spConstr := l.spConstr ++ [i] }

/-- `v.erase(std::find(v.begin(), v.end(), x))` when it is not known that `x` occurs:
erasing `end()` is undefined. src/LMPC.cpp 157, 160, 163. -/
def eraseFind? (l : List Nat) (i : Nat) : Option (List Nat) :=
  if i ∈ l then some (l.erase i) else none

/-- `removeConstraint`, src/LMPC.cpp 149-167. -/
def removeConstraint (l : LMPC K) (i : Nat) (c : Constr K) : Option (LMPC K) :=
  if i ∈ l.spConstr then
    let l := { l with spConstr := l.spConstr.erase i }
    match c.constraintType with
    | .equality => do
      let s ← eraseFind? l.spEqConstr i
      return { l with spEqConstr := s }
    | .inequality => do
      let s ← eraseFind? l.spIneqConstr i
      return { l with spIneqConstr := s }
    | .bound => do
      let s ← eraseFind? l.spBoundConstr i
      return { l with spBoundConstr := s }
  else some l

/-- `removeCost`, src/LMPC.cpp 141-147. -/
def removeCost (l : LMPC K) (i : Nat) : LMPC K := { l with spCost := l.spCost.erase i }

/-- `clearCosts`, src/LMPC.cpp 130-133. -/
def clearCosts (l : LMPC K) : LMPC K := { l with spCost := [] }

/-- `Constraints::clear`, src/LMPC.cpp 36-44. -/
def clearRegistry (l : LMPC K) : LMPC K :=
  { l with
    nrEqConstr := 0
    nrIneqConstr := 0
    spConstr := []
    spEqConstr := []
    spIneqConstr := []
    spBoundConstr := [] }

/-! ## makeQPForm -/

/-- One iteration of the cost loop of `LMPC::makeQPForm`, src/LMPC.cpp 252-255. -/
def addCostTerms (costs : Nat → Cost K) (l : LMPC K) (i : Nat) : Option (LMPC K) := do
  let Q ← l.Q.add? (costs i).Q
  let c ← l.c.add? (costs i).c
  return { l with Q := Q, c := c }

/-- One iteration of the constraint loops of `LMPC::makeQPForm`, src/LMPC.cpp 259-271, on
(`nrLines`, matrix, vector). -/
def putRows (cons : Nat → Constr K) (ps : PreviewSystem K) (s : Nat × Mat K × Vec (Ext K)) (i : Nat) :
    Option (Nat × Mat K × Vec (Ext K)) := do
  let (nr, A, b) := s
  let c := cons i
  let A ← A.setBlock? nr 0 c.nrConstr ps.fullUDim c.A
  let b ← b.setSegment? nr c.nrConstr c.b
  return (nr + c.nrConstr, A, b)

/-- One iteration of the constraint loops of `InitialStateLMPC::makeQPForm`,
src/InitialStateLMPC.cpp 88-102. -/
def putRowsInit (cons : Nat → Constr K) (ps : PreviewSystem K) (s : Nat × Mat K × Vec (Ext K))
    (i : Nat) : Option (Nat × Mat K × Vec (Ext K)) := do
  let (nr, A, b) := s
  let c := cons i
  let A ← A.setBlock? nr 0 c.nrConstr ps.xDim c.Y
  let A ← A.setBlock? nr ps.xDim c.nrConstr ps.fullUDim c.A
  let b ← b.setSegment? nr c.nrConstr c.z
  return (nr + c.nrConstr, A, b)

/-- One iteration of the bound loops, src/LMPC.cpp 275-279, src/InitialStateLMPC.cpp 106-110, on
(`nrLines`, lb, ub). -/
def putBounds (cons : Nat → Constr K) (s : Nat × Vec (Ext K) × Vec (Ext K)) (i : Nat) :
    Option (Nat × Vec (Ext K) × Vec (Ext K)) := do
  let (nr, lb, ub) := s
  let c := cons i
  let lb ← lb.setSegment? nr c.nrConstr c.lb
  let ub ← ub.setSegment? nr c.nrConstr c.ub
  return (nr + c.nrConstr, lb, ub)

/-- `LMPC::makeQPForm`, src/LMPC.cpp 250-280. -/
def makeQPFormBase (cons : Nat → Constr K) (costs : Nat → Cost K) (ps : PreviewSystem K)
    (l : LMPC K) : Option (LMPC K) := do
  let l ← l.spCost.foldlM (addCostTerms costs) l
  let (_, Aeq, beq) ← l.spEqConstr.foldlM (putRows cons ps) (0, l.Aeq, l.beq)
  let (_, Aineq, bineq) ← l.spIneqConstr.foldlM (putRows cons ps) (0, l.Aineq, l.bineq)
  let (_, lb, ub) ← l.spBoundConstr.foldlM (putBounds cons) (0, l.lb, l.ub)
  return { l with Aeq := Aeq, beq := beq, Aineq := Aineq, bineq := bineq, lb := lb, ub := ub }

/-- Row/column offset of `bottomRightCorner(n, n)` etc. in a dimension of size `d`.
src/InitialStateLMPC.cpp 81-83, 114-117, 126. -/
def cornerOff (d n : Nat) : Option Nat := if n ≤ d then some (d - n) else none

/-- One iteration of the cost loop of `InitialStateLMPC::makeQPForm`,
src/InitialStateLMPC.cpp 80-84. -/
def addCostTermsInit (costs : Nat → Cost K) (ps : PreviewSystem K) (l : LMPC K) (i : Nat) :
    Option (LMPC K) := do
  let ro ← cornerOff l.Q.rows ps.fullUDim
  let co ← cornerOff l.Q.cols ps.fullUDim
  let Q ← l.Q.addBlock? ro co ps.fullUDim ps.fullUDim (costs i).Q
  let Q ← Q.addBlock? 0 co ps.xDim ps.fullUDim (costs i).E
  let vo ← cornerOff l.c.rows ps.fullUDim
  let c ← l.c.addSegment? vo ps.fullUDim (costs i).f
  return { l with Q := Q, c := c }

/-- The block `// Update last part of Q` of `InitialStateLMPC::makeQPForm`,
src/InitialStateLMPC.cpp 112-118.  `E` and `Q` are proxies into `Q_`; the two assignments write to the
left blocks, which are disjoint from both.  `Matrix::inverse()` asserts that its argument is square. -/
def finishQ (inverse : Mat K → Mat K) (ps : PreviewSystem K) (l : LMPC K) : Option (LMPC K) := do
  let ro ← cornerOff l.Q.rows ps.fullUDim
  let co ← cornerOff l.Q.cols ps.fullUDim
  let E ← l.Q.block? 0 co ps.xDim ps.fullUDim
  let Q ← l.Q.block? ro co ps.fullUDim ps.fullUDim
  let Q1 ← l.Q.setBlock? ro 0 ps.fullUDim ps.xDim E.transpose
  let EQi ← E.mul? (inverse Q)
  let EQiE ← EQi.mul? E.transpose
  let TL ← l.R.add? EQiE
  let Q2 ← Q1.setBlock? 0 0 ps.xDim ps.xDim TL
  return { l with Q := Q2 }

/-- `InitialStateLMPC::makeQPForm`, src/InitialStateLMPC.cpp 77-122. -/
def makeQPFormInit (inverse : Mat K → Mat K) (cons : Nat → Constr K) (costs : Nat → Cost K)
    (ps : PreviewSystem K) (l : LMPC K) : Option (LMPC K) := do
  let l ← l.spCost.foldlM (addCostTermsInit costs ps) l
  let (_, Aeq, beq) ← l.spEqConstr.foldlM (putRowsInit cons ps) (0, l.Aeq, l.beq)
  let (_, Aineq, bineq) ← l.spIneqConstr.foldlM (putRowsInit cons ps) (0, l.Aineq, l.bineq)
  let (_, lb, ub) ← l.spBoundConstr.foldlM (putBounds cons) (ps.xDim, l.lb, l.ub)
  let l ← finishQ inverse ps l
  let c ← l.c.setSegment? 0 ps.xDim l.r
  let lb ← lb.setSegment? 0 ps.xDim l.x0lb
  let ub ← ub.setSegment? 0 ps.xDim l.x0ub
  return { l with Aeq := Aeq, beq := beq, Aineq := Aineq, bineq := bineq, lb := lb, ub := ub, c := c }

/-- Virtual call `makeQPForm()`. include/LMPC.h 144: src/LMPC.cpp 250-280 or src/InitialStateLMPC.cpp 77-122. -/
def makeQPForm (inverse : Mat K → Mat K) (cons : Nat → Constr K) (costs : Nat → Cost K)
    (ps : PreviewSystem K) (l : LMPC K) : Option (LMPC K) :=
  if l.isInit then makeQPFormInit inverse cons costs ps l else makeQPFormBase cons costs ps l

/-- `InitialStateLMPC::initialState()`, src/InitialStateLMPC.cpp 30-33. -/
def initialState (l : LMPC K) (ps : PreviewSystem K) : Option (Vec K) := do
  let s ← l.sol
  s.result.segment? 0 ps.xDim

/-- `Phi * x0 + Psi * U + xi`, src/LMPC.cpp 285 and src/InitialStateLMPC.cpp 127. -/
def predict (ps : PreviewSystem K) (x0 U : Vec K) : Option (Vec K) := do
  let a ← ps.Phi.mulVec? x0
  let b ← ps.Psi.mulVec? U
  let ab ← a.add? b
  ab.add? ps.xi

/-- `updateResults`, src/LMPC.cpp 282-286 and src/InitialStateLMPC.cpp 124-128. -/
def updateResults (ps : PreviewSystem K) (l : LMPC K) : Option (LMPC K) := do
  let s ← l.sol
  if l.isInit then
    let o ← cornerOff s.result.rows ps.fullUDim
    let u ← s.result.segment? o ps.fullUDim
    let x0 ← l.initialState ps
    let t ← predict ps x0 u
    return { l with control := u, trajectory := t }
  else
    let t ← predict ps ps.x0 s.result
    return { l with control := s.result, trajectory := t }

/-- The problem handed to the solver, src/LMPC.cpp 88 and 91. -/
def qp (l : LMPC K) : QP K where
  nrVar := l.c.rows
  nrEq := l.nrEqConstr
  nrIneq := l.nrIneqConstr
  Q := l.Q
  c := l.c
  Aeq := l.Aeq
  beq := l.beq
  Aineq := l.Aineq
  bineq := l.bineq
  lb := l.lb
  ub := l.ub

/-! ## checkDeleteCostsAndConstraints -/

/-- The lambda `check`, src/LMPC.cpp 290-300: walk through a vector of `shared_ptr`s and erase those
whose `use_count()` is at most `limit`.  `kept ++ rest` is the current contents of the vector;
`other i` is the number of references to `i` outside this vector.  (The warning printed in debug
builds is modelled in Model/Warnings.lean.) -/
def checkList (limit : Nat) (other : Nat → Nat) : List Nat → List Nat → List Nat
  | kept, [] => kept
  | kept, i :: rest =>
    if other i + (kept ++ i :: rest).count i ≤ limit then checkList limit other kept rest
    else checkList limit other (kept ++ [i]) rest

/-- `checkDeleteCostsAndConstraints`, src/LMPC.cpp 288-307. -/
def checkDelete (extCons extCosts : Nat → Nat) (l : LMPC K) : LMPC K :=
  let l := { l with spConstr := checkList 2 (fun i => extCons i + l.spEqConstr.count i
    + l.spIneqConstr.count i + l.spBoundConstr.count i) [] l.spConstr }
  let l := { l with spEqConstr := checkList 2 (fun i => extCons i + l.spConstr.count i
    + l.spIneqConstr.count i + l.spBoundConstr.count i) [] l.spEqConstr }
  let l := { l with spIneqConstr := checkList 2 (fun i => extCons i + l.spConstr.count i
    + l.spEqConstr.count i + l.spBoundConstr.count i) [] l.spIneqConstr }
  let l := { l with spBoundConstr := checkList 2 (fun i => extCons i + l.spConstr.count i
    + l.spEqConstr.count i + l.spIneqConstr.count i) [] l.spBoundConstr }
  { l with spCost := checkList 1 extCosts [] l.spCost }

end LMPC

namespace World
variable {K : Type} [Zero K] [One K] [Add K] [Sub K] [Neg K] [Mul K] [Arith K]

/-- Replace the value stored at one address. (No counterpart in the code: a C++ object is changed in place.) -/
def upd {α : Type} (h : Nat → α) (i : Nat) (a : α) : Nat → α := fun j => if j = i then a else h j

/-- One iteration of the constraint loop of `LMPC::updateSystem`, src/LMPC.cpp 240-242. -/
def updateConstr (ps : PreviewSystem K) (cons : Nat → Constr K) (i : Nat) : Option (Nat → Constr K) := do
  let c ← (cons i).update ps
  return upd cons i c

/-- One iteration of the cost loop of `LMPC::updateSystem`, src/LMPC.cpp 245-247. -/
def updateCost (ps : PreviewSystem K) (costs : Nat → Cost K) (i : Nat) : Option (Nat → Cost K) := do
  let c ← (costs i).update ps
  return upd costs i c

/-- `LMPC::updateSystem`, src/LMPC.cpp 225-248 (not overridden by `InitialStateLMPC`).
`Q_ *= 1e-6` is multiplication by `Arith.micro` (exactly 1/1000000 for a field). -/
def updateSystem (junk : Junk K) (w : World K) : Option (World K) := do
  let p ← w.ctl.ps
  let l := { w.ctl with
    Q := (Mat.identity w.ctl.Q.rows w.ctl.Q.cols).scale Arith.micro
    c := Vec.zero w.ctl.c.rows }
  let ps ← if (w.pss p).isUpdated then some (w.pss p) else (w.pss p).updateSystem
  let l ← l.updateNr w.cons
  let l ← l.updateConstraintMatrixSize junk ps
  let cons ← l.spConstr.foldlM (updateConstr ps) w.cons
  let costs ← l.spCost.foldlM (updateCost ps) w.costs
  return { w with pss := upd w.pss p ps, cons := cons, costs := costs, ctl := l }

/-- `LMPC::solve`, src/LMPC.cpp 79-101.  Returns the new state, the returned `bool` and (ghost) the
problem that was handed to the solver. -/
def solve (env : SolveEnv K) (w : World K) : Option (World K × Bool × QP K) := do
  let w ← w.updateSystem env.junk
  let p ← w.ctl.ps
  let ps := w.pss p
  let l ← w.ctl.makeQPForm env.inverse w.cons w.costs ps
  let s ← l.sol
  let qp := l.qp
  let (success, result) := env.answer qp
  let l := { l with sol := some { s with result := result }, solveTime := some (env.t2 - env.t1) }
  let l := l.checkDelete w.extCons w.extCosts
  let l ← if success then l.updateResults ps else some l
  let l := { l with solveAndBuildTime := some (env.t3 - env.t0) }
  return ({ w with ctl := l }, success, qp)

end World

/-- The public API calls a client can make.
Public members declared at include/PreviewSystem.h 22-68, constraints.h 42-307, costFunctions.h 22-219, LMPC.h 43-101, InitialStateLMPC.h. -/
inductive Op (K : Type) where
  /-- `ps->system(A, B, d, x0, N)` -/
  | system (p : Nat) (A B : Mat K) (d x0 : Vec K) (N : Int)
  /-- `ps->xInit(x)` -/
  | xInit (p : Nat) (x : Vec K)
  /-- assignment of `ps->A`, `ps->B`, `ps->d` and `ps->isUpdated = false` -/
  | setDynamics (p : Nat) (A B : Mat K) (d : Vec K)
  /-- `ps->updateSystem()` -/
  | updatePs (p : Nat)
  /-- `constr->autoSpan()` -/
  | spanConstr (i : Nat) (junk : Junk K)
  /-- `constr->initializeConstraint(ps)` by the client or by another controller -/
  | initConstr (i p : Nat) (junk : Junk K)
  /-- `constr->update(ps)` by the client or by another controller -/
  | updateConstr (i p : Nat)
  /-- `cost->autoSpan()` -/
  | spanCost (i : Nat) (junk : Junk K)
  /-- `cost->weights(w)` -/
  | weights (i : Nat) (w : Vec K)
  /-- `cost->weight(w)` -/
  | weight (i : Nat) (w : K)
  /-- `cost->initializeCost(ps)` by the client or by another controller -/
  | initCost (i p : Nat) (junk : Junk K)
  /-- `cost->update(ps)` by the client or by another controller -/
  | updateCost (i p : Nat)
  /-- copy / destroy `shared_ptr`s to a constraint or to a cost outside the controller -/
  | refsConstr (i n : Nat)
  | refsCost (i n : Nat)
  /-- construct the controller: `LMPC(flag)` or `InitialStateLMPC(flag)` -/
  | construct (isInit : Bool) (s : Solver K)
  /-- construct the controller: `LMPC(ps, flag)` or `InitialStateLMPC(ps, flag)` -/
  | constructPs (isInit : Bool) (s : Solver K) (p : Nat) (junk : Junk K)
  /-- `useSolver(std::move(s))` and `selectQPSolver(flag)` -/
  | useSolver (s : Option (Solver K))
  | initializeController (p : Nat) (junk : Junk K)
  | addCost (i : Nat) (junk : Junk K)
  | addConstraint (i : Nat) (junk : Junk K)
  | removeCost (i : Nat)
  | removeConstraint (i : Nat)
  | clearCosts
  | clearConstraints
  | resetInitialStateCost (R : Mat K) (r : Vec K)
  | resetInitialStateBounds (l u : Vec (Ext K))
  | solve (env : SolveEnv K)

namespace World
variable {K : Type} [Zero K] [One K] [Add K] [Sub K] [Neg K] [Mul K] [Arith K]

/-- Member initialisers of `InitialStateLMPC(ps, flag)`, src/InitialStateLMPC.cpp 20-25 (nothing for
`LMPC`). -/
def seedInit (l : LMPC K) (ps : PreviewSystem K) : LMPC K :=
  if l.isInit then
    { l with
      R := Mat.zero ps.xDim ps.xDim
      r := Vec.zero ps.xDim
      x0lb := ps.x0.toExt
      x0ub := ps.x0.toExt }
  else l

/-- `addCost`, src/LMPC.cpp 118-122. -/
def addCost (junk : Junk K) (w : World K) (i : Nat) : Res (World K) :=
  match w.ctl.ps with
  | none => .ub
  | some p =>
    match (w.costs i).initializeCost junk (w.pss p) with
    | .ok c => .ok { w with
        costs := upd w.costs i c
        ctl := { w.ctl with spCost := w.ctl.spCost ++ [i] } }
    | .thrown e c => .thrown e { w with costs := upd w.costs i c }
    | .ub => .ub

/-- `addConstraint`, src/LMPC.cpp 124-128. -/
def addConstraint (junk : Junk K) (w : World K) (i : Nat) : Res (World K) :=
  match w.ctl.ps with
  | none => .ub
  | some p =>
    match (w.cons i).initializeConstraint junk (w.pss p) with
    | .ok c =>
      match w.ctl.addConstraintByType i c with
      | some l => .ok { w with cons := upd w.cons i c, ctl := l }
      | none => .ub
    | .thrown e c => .thrown e { w with cons := upd w.cons i c }
    | .ub => .ub

/-- `clearConstraints`, src/LMPC.cpp 135-139 (`ps_` is dereferenced by `clearConstraintMatrices`). -/
def clearConstraints (dmax : K) (w : World K) : Option (World K) := do
  let p ← w.ctl.ps
  let l ← w.ctl.clearRegistry.clearConstraintMatrices dmax (w.pss p)
  return { w with ctl := l }

/-- Execute one API call.
The code of each call is cited at the definition it is given to: src/PreviewSystem.cpp, constraints.cpp, costFunctions.cpp, LMPC.cpp 50-168, InitialStateLMPC.cpp 15-46. -/
def step (dmax : K) (w : World K) : Op K → Res (World K)
  | .system p A B d x0 N => ((w.pss p).system A B d x0 N).map fun s => { w with pss := upd w.pss p s }
  | .xInit p x => .ok { w with pss := upd w.pss p ((w.pss p).setXInit x) }
  | .setDynamics p A B d => .ok { w with pss := upd w.pss p ((w.pss p).setDynamics A B d) }
  | .updatePs p =>
    (Res.ofOption (w.pss p).updateSystem).map fun s => { w with pss := upd w.pss p s }
  | .spanConstr i junk => ((w.cons i).autoSpan junk).map fun c => { w with cons := upd w.cons i c }
  | .initConstr i p junk =>
    ((w.cons i).initializeConstraint junk (w.pss p)).map fun c => { w with cons := upd w.cons i c }
  | .updateConstr i p =>
    (Res.ofOption ((w.cons i).update (w.pss p))).map fun c => { w with cons := upd w.cons i c }
  | .spanCost i junk => ((w.costs i).autoSpan junk).map fun c => { w with costs := upd w.costs i c }
  | .weights i v => ((w.costs i).setWeights v).map fun c => { w with costs := upd w.costs i c }
  | .weight i v => .ok { w with costs := upd w.costs i ((w.costs i).setWeight v) }
  | .initCost i p junk =>
    ((w.costs i).initializeCost junk (w.pss p)).map fun c => { w with costs := upd w.costs i c }
  | .updateCost i p =>
    (Res.ofOption ((w.costs i).update (w.pss p))).map fun c => { w with costs := upd w.costs i c }
  | .refsConstr i n => .ok { w with extCons := upd w.extCons i n }
  | .refsCost i n => .ok { w with extCosts := upd w.extCosts i n }
  | .construct isInit s => .ok { w with ctl := LMPC.construct isInit s }
  | .constructPs isInit s p junk =>
    (Res.ofOption ((seedInit (LMPC.construct isInit s) (w.pss p)).initializeController dmax junk p
      (w.pss p))).map fun l => { w with ctl := l }
  | .useSolver s => .ok { w with ctl := { w.ctl with sol := s } }
  | .initializeController p junk =>
    (Res.ofOption (w.ctl.initializeController dmax junk p (w.pss p))).map fun l => { w with ctl := l }
  | .addCost i junk => w.addCost junk i
  | .addConstraint i junk => w.addConstraint junk i
  | .removeCost i => .ok { w with ctl := w.ctl.removeCost i }
  | .removeConstraint i =>
    (Res.ofOption (w.ctl.removeConstraint i (w.cons i))).map fun l => { w with ctl := l }
  | .clearCosts => .ok { w with ctl := w.ctl.clearCosts }
  | .clearConstraints => Res.ofOption (w.clearConstraints dmax)
  | .resetInitialStateCost R r => .ok { w with ctl := { w.ctl with R := R, r := r } }
  | .resetInitialStateBounds lo up => .ok { w with ctl := { w.ctl with x0lb := lo, x0ub := up } }
  | .solve env => Res.ofOption ((w.solve env).map fun r => r.1)

/-- Execute a history of API calls; exceptions are caught by the client, undefined behaviour ends
the history. (A client program, not code of the library.) -/
def run (dmax : K) (w : World K) : List (Op K) → Option (World K)
  | [] => some w
  | op :: ops =>
    match w.step dmax op with
    | .ok w' => run dmax w' ops
    | .thrown _ w' => run dmax w' ops
    | .ub => none

/-- A freshly constructed constraint object: the result of one of the five constructors.
Constructors of include/constraints.h 114-307. -/
def FreshConstr (c : Constr K) : Prop :=
  (∃ E f b, c = Constr.mkTrajectory E f b) ∨ (∃ G f b, c = Constr.mkControl G f b) ∨
  (∃ E G f b, c = Constr.mkMixed E G f b) ∨ (∃ l u, c = Constr.mkTrajBound l u) ∨
  (∃ l u, c = Constr.mkCtrlBound l u)

/-- A freshly constructed cost object. Constructors of include/costFunctions.h 111-118, 141-148, 170-177, 201-209. -/
def FreshCost (c : Cost K) : Prop :=
  (∃ M p, c = Cost.mkTrajectory M p) ∨ (∃ M p, c = Cost.mkTarget M p) ∨
  (∃ N p, c = Cost.mkControl N p) ∨ (∃ M N p, c = Cost.mkMixed M N p)

/-- A program start: preview systems are default constructed (`PreviewSystem()`; the constructor with
arguments is this followed by `system`), every constraint and cost object the program will ever use is
freshly constructed from arbitrary data, the controller is a default constructed one (any other
controller is created by the `construct` operations).
Constructors of include/PreviewSystem.h, constraints.h, costFunctions.h; src/LMPC.cpp 50-54. -/
def Init (w : World K) : Prop :=
  (∀ p, w.pss p = PreviewSystem.default) ∧ (∀ i, FreshConstr (w.cons i)) ∧
  (∀ i, FreshCost (w.costs i)) ∧ (∃ b s, w.ctl = LMPC.construct b s)

/-- States reachable from a program start by any history of API calls. (Client programs, not code of the library.) -/
def Reachable (dmax : K) (w : World K) : Prop := ∃ w0 ops, Init w0 ∧ w0.run dmax ops = some w

end World
end Copra
