import Verif.Model.UserAbort
import Verif.SpecUser

/-! # Specification vocabulary: histories in which the `update` of a user-defined object may throw (C99) -/

namespace Copra.Spec
variable {K S : Type} [Field K]

/-- What the client remembers after such an exception: the costs of the library in front of the user-defined cost that
threw were updated. -/
def abortGhost (g : Ghost) (X : UWorld K S) : AbortAt K S → Ghost
  | .constr _ _ => g
  | .cost k _ =>
    { g with fresh := fun j => g.fresh j ∧ j ∉ (X.world.ctl.spCost.take k).filter fun i => (X.costClass i).isNone }

/-- The controller's counters of equality and of inequality rows, were the aborted calls of `solve` not counted: `n` before
and the value of this function after a call from `X` to `X'`. -/
def countRows (n : Nat × Nat) (X X' : UWorld K S) : UOp K S → Nat × Nat
  | .api (.addConstraint _ _) =>
    (n.1 + (X'.world.ctl.nrEqConstr - X.world.ctl.nrEqConstr), n.2 + (X'.world.ctl.nrIneqConstr - X.world.ctl.nrIneqConstr))
  | .api (.construct _ _) | .api (.constructPs _ _ _ _) | .api .clearConstraints | .api (.solve _) =>
    (X'.world.ctl.nrEqConstr, X'.world.ctl.nrIneqConstr)
  | _ => n

/-- `addConstraint` keeps these counters within an `int`. -/
def RowsFit (n : Nat × Nat) : UOp K S → Prop
  | .api (.addConstraint _ _) => n.1 ≤ intMax ∧ n.2 ≤ intMax
  | _ => True

/-- Histories as in `SpecUser.UHist`, in which moreover any `solve()` may be aborted by an exception from the `update`
of a user-defined object, which the client catches. -/
inductive AUHist (d : Dims) (dmax : K) : UWorld K S → Ghost → Nat × Nat → Prop
  | start {X} : X.Init → AUHist d dmax X Ghost.start (0, 0)
  | ok {X X' g n op} : AUHist d dmax X g n → UOk d X g op → X.step dmax op = .ok X' → RowsFit (countRows n X X' op) op →
      AUHist d dmax X' (unext g X True op) (countRows n X X' op)
  | thrown {X X' g n op e} : AUHist d dmax X g n → UOk d X g op → X.step dmax op = .thrown e X' →
      AUHist d dmax X' (unext g X False op) n
  | aborted {X X' g n junk a} : AUHist d dmax X g n → X.solveUserThrow junk a = some X' →
      AUHist d dmax X' (abortGhost g X a) n

/-- The two controllers are the same but for the matrices of the problem under construction, which every `solve` builds
anew (`Q_` and `c_` have the same sizes), and the row counters, which every `solve` computes anew. -/
structure ButProblem (l l' : LMPC K) : Prop where
  isInit : l'.isInit = l.isInit
  ps : l'.ps = l.ps
  sol : l'.sol = l.sol
  spCost : l'.spCost = l.spCost
  spConstr : l'.spConstr = l.spConstr
  spEqConstr : l'.spEqConstr = l.spEqConstr
  spIneqConstr : l'.spIneqConstr = l.spIneqConstr
  spBoundConstr : l'.spBoundConstr = l.spBoundConstr
  Qr : l'.Q.rows = l.Q.rows
  Qc : l'.Q.cols = l.Q.cols
  cr : l'.c.rows = l.c.rows
  lb : l'.lb = l.lb
  ub : l'.ub = l.ub
  trajectory : l'.trajectory = l.trajectory
  control : l'.control = l.control
  solveTime : l'.solveTime = l.solveTime
  solveAndBuildTime : l'.solveAndBuildTime = l.solveAndBuildTime
  R : l'.R = l.R
  r : l'.r = l.r
  x0lb : l'.x0lb = l.x0lb
  x0ub : l'.x0ub = l.x0ub

/-- The two program states are the same but for that. -/
structure AlikeButProblem (X X' : UWorld K S) : Prop where
  pss : X'.world.pss = X.world.pss
  cons : X'.world.cons = X.world.cons
  costs : X'.world.costs = X.world.costs
  extCons : X'.world.extCons = X.world.extCons
  extCosts : X'.world.extCosts = X.world.extCosts
  consClass : X'.consClass = X.consClass
  costClass : X'.costClass = X.costClass
  consMem : X'.consMem = X.consMem
  costMem : X'.costMem = X.costMem
  ctl : ButProblem X.world.ctl X'.world.ctl

end Copra.Spec
