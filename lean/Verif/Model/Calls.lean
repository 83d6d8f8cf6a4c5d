import Verif.Model.UserAbort

/-! # The calls `solve()` makes into code that a client may have written

Constraints and costs may be objects of a client's own classes (`update`), and the solver may be a client's own
(`useSolver`; `SI_problem`, `SI_solve`, `SI_result`).  The definitions here repeat those of Model/UserDefined.lean and
Model/UserAbort.lean, and write down each of these virtual calls when it is made. -/

namespace Copra

/-- The arguments of `SI_solve`, include/SolverInterface.h 76-80. -/
structure SolveArgs (K : Type) where
  Q : Mat K
  c : Vec K
  Aeq : Mat K
  beq : Vec (Ext K)
  Aineq : Mat K
  bineq : Vec (Ext K)
  lb : Vec (Ext K)
  ub : Vec (Ext K)

/-- A virtual call made by `solve()`.  `updateConstr`, `updateCost`: object and argument (include/constraints.h 66,
include/costFunctions.h 47); `solve`: the arguments and what it returned, `none` if it threw (include/SolverInterface.h
47-80). -/
inductive Call (K : Type) where
  | updateConstr (i : Nat) (ps : PreviewSystem K)
  | updateCost (i : Nat) (ps : PreviewSystem K)
  | problem (nrVar nrEq nrIneq : Nat)
  | solve (a : SolveArgs K) (returned : Option Bool)
  | result

namespace LMPC
variable {K : Type}

/-- The arguments at src/LMPC.cpp 91. -/
def solveArgs (l : LMPC K) : SolveArgs K := ⟨l.Q, l.c, l.Aeq, l.beq, l.Aineq, l.bineq, l.lb, l.ub⟩

/-- `SI_result()` is called once by `LMPC::updateResults` (src/LMPC.cpp 284) and twice by that of `InitialStateLMPC`
(src/InitialStateLMPC.cpp 126, and 127 through 43). -/
def resultCalls (l : LMPC K) : List (Call K) := if l.isInit then [.result, .result] else [.result]

end LMPC

namespace World
variable {K : Type} [Zero K] [One K] [Add K] [Sub K] [Neg K] [Mul K] [Arith K]

/-- `LMPC::solve` after `updateSystem()`, src/LMPC.cpp 85-100, with its calls. -/
def solveTailCalls (env : SolveEnv K) (w : World K) : Option (List (Call K) × World K × Bool × QP K) := do
  let p ← w.ctl.ps
  let ps := w.pss p
  let l ← w.ctl.makeQPForm env.inverse w.cons w.costs ps
  let s ← l.sol
  let t := [Call.problem l.c.rows l.nrEqConstr l.nrIneqConstr]
  let qp := l.qp
  let (success, result) := env.answer qp
  let t := t ++ [Call.solve l.solveArgs (some success)]
  let l := { l with sol := some { s with result := result }, solveTime := some (env.t2 - env.t1) }
  let l := l.checkDelete w.extCons w.extCosts
  let (t, l) ← if success then (l.updateResults ps).map fun l' => (t ++ l.resultCalls, l') else some (t, l)
  let l := { l with solveAndBuildTime := some (env.t3 - env.t0) }
  return (t, { w with ctl := l }, success, qp)

end World

namespace UWorld
variable {K S : Type} [Zero K] [One K] [Add K] [Sub K] [Neg K] [Mul K] [Arith K]

/-- One iteration of the constraint loop, src/LMPC.cpp 240-242, with its call. -/
def updateConstrCall (cls : Nat → Option (ConstrClass K S)) (ps : PreviewSystem K)
    (s : List (Call K) × (Nat → Constr K) × (Nat → S)) (i : Nat) : Option (List (Call K) × (Nat → Constr K) × (Nat → S)) := do
  let t := s.1 ++ [Call.updateConstr i ps]
  let r ← updateConstr cls ps s.2 i
  return (t, r)

/-- One iteration of the cost loop, src/LMPC.cpp 245-247, with its call. -/
def updateCostCall (cls : Nat → Option (CostClass K S)) (ps : PreviewSystem K)
    (s : List (Call K) × (Nat → Cost K) × (Nat → S)) (i : Nat) : Option (List (Call K) × (Nat → Cost K) × (Nat → S)) := do
  let t := s.1 ++ [Call.updateCost i ps]
  let r ← updateCost cls ps s.2 i
  return (t, r)

/-- `LMPC::updateSystem`, src/LMPC.cpp 225-248, with its calls. -/
def updateSystemCalls (junk : Junk K) (X : UWorld K S) : Option (List (Call K) × UWorld K S) := do
  let (w, ps) ← X.world.beginUpdate junk
  let (t, cons, consMem) ← w.ctl.spConstr.foldlM (updateConstrCall X.consClass ps) ([], w.cons, X.consMem)
  let (t, costs, costMem) ← w.ctl.spCost.foldlM (updateCostCall X.costClass ps) (t, w.costs, X.costMem)
  return (t, { X with
    world := { w with cons := cons, costs := costs }
    consMem := consMem
    costMem := costMem })

/-- `LMPC::solve`, src/LMPC.cpp 79-101, with its calls. -/
def solveCalls (env : SolveEnv K) (X : UWorld K S) : Option (List (Call K) × UWorld K S × Bool × QP K) := do
  let (t, X) ← X.updateSystemCalls env.junk
  let (t', w, b, q) ← X.world.solveTailCalls env
  return (t ++ t', { X with world := w }, b, q)

/-- `LMPC::solve` when the `update` of a user-defined object throws (src/LMPC.cpp 240-242 or 245-247), with its calls; the
last one is the one that threw. -/
def solveUserThrowCalls (junk : Junk K) (X : UWorld K S) : AbortAt K S → Option (List (Call K) × UWorld K S)
  | .constr k o => do
    let (w, ps) ← X.world.beginUpdate junk
    let i ← w.ctl.spConstr[k]?
    let _ ← X.consClass i
    let (t, cons, mem) ← (w.ctl.spConstr.take k).foldlM (updateConstrCall X.consClass ps) ([], w.cons, X.consMem)
    return (t ++ [Call.updateConstr i ps], { X with
      world := { w with cons := World.upd cons i ((cons i).setRows o.1) }
      consMem := World.upd mem i o.2 })
  | .cost k o => do
    let (w, ps) ← X.world.beginUpdate junk
    let (t, cons, consMem) ← w.ctl.spConstr.foldlM (updateConstrCall X.consClass ps) ([], w.cons, X.consMem)
    let i ← w.ctl.spCost[k]?
    let _ ← X.costClass i
    let (t, costs, mem) ← (w.ctl.spCost.take k).foldlM (updateCostCall X.costClass ps) (t, w.costs, X.costMem)
    return (t ++ [Call.updateCost i ps], { X with
      world := { w with cons := cons, costs := World.upd costs i ((costs i).setTerms o.1) }
      consMem := consMem
      costMem := World.upd mem i o.2 })

/-- `LMPC::solve` when `sol_->SI_problem` (src/LMPC.cpp 88; `inProblem`) or `sol_->SI_solve` (91) throws, with its calls;
the last one is the one that threw.  `result` is what `SI_result()` returns from then on. -/
def solveThrowCalls (env : SolveEnv K) (inProblem : Bool) (X : UWorld K S) : Option (List (Call K) × UWorld K S × QP K) := do
  let (t, X) ← X.updateSystemCalls env.junk
  let p ← X.world.ctl.ps
  let l ← X.world.ctl.makeQPForm env.inverse X.world.cons X.world.costs (X.world.pss p)
  let s ← l.sol
  let t := t ++ [Call.problem l.c.rows l.nrEqConstr l.nrIneqConstr]
  let t := if inProblem then t else t ++ [Call.solve l.solveArgs none]
  let qp := l.qp
  return (t, { X with
    world := { X.world with ctl := { l with sol := some { s with result := (env.answer qp).2 } } } }, qp)

end UWorld
end Copra
