import Verif.Spec

/-! # Specification vocabulary: histories of API calls with fixed dimensions

The class of client programs the system-level properties quantify over.  A `Hist` is any sequence of
public API calls, of any length, whose preview systems all have the dimensions `d`, whose initial
states have the right size, which never registers two control bounds at the same time, and which calls
`update` directly only on objects that some controller accepted before.  Exceptions are caught by the
client. -/

namespace Copra.Spec
variable {K : Type}

section
variable [Zero K] [One K] [Add K] [Sub K] [Neg K] [Mul K] [Arith K]

/-- What the client remembers about a history. -/
structure Ghost where
  /-- constraints accepted by a controller at some point -/
  constr : Nat → Prop
  /-- costs accepted by a controller at some point -/
  cost : Nat → Prop
  /-- costs accepted and not updated (by a solve) since -/
  fresh : Nat → Prop
  /-- no solve took place with a control bound registered since the bounds were last reset -/
  clean : Prop

namespace Ghost

/-- At program start. -/
def start : Ghost := ⟨fun _ => False, fun _ => False, fun _ => False, True⟩

/-- Book-keeping for one API call in state `w`; `ok` tells that no exception was thrown. -/
def next (g : Ghost) (w : World K) (ok : Prop) : Op K → Ghost
  | .addConstraint i _ | .initConstr i _ _ => { g with constr := fun j => g.constr j ∨ (ok ∧ j = i) }
  | .addCost i _ | .initCost i _ _ =>
    { g with cost := fun j => g.cost j ∨ (ok ∧ j = i), fresh := fun j => g.fresh j ∨ (ok ∧ j = i) }
  | .updateCost i _ => { g with fresh := fun j => g.fresh j ∧ j ≠ i }
  | .construct _ _ | .constructPs _ _ _ _ | .initializeController _ _ | .clearConstraints =>
    { g with clean := True }
  | .solve _ =>
    { g with
      fresh := fun j => g.fresh j ∧ j ∉ w.ctl.spCost
      clean := g.clean ∧ w.ctl.spBoundConstr = [] }
  | _ => g

end Ghost

/-- Number of decision variables of the controller's QP. -/
def numVars (d : Dims) (l : LMPC K) : Nat := if l.isInit then d.n + d.m * d.N else d.m * d.N

/-- What the environment must provide for a solve: a solver that returns as many numbers as it was asked
for when it reports success, Eigen's size-preserving `inverse()`, and, for an initial-state controller,
initial-state cost and bounds of the right size. -/
structure SolveContract (d : Dims) (env : SolveEnv K) (l : LMPC K) : Prop where
  sol : l.sol ≠ none
  answer : ∀ q : QP K, q.nrVar = numVars d l → (env.answer q).1 = true → (env.answer q).2.rows = q.nrVar
  init : l.isInit = true → l.R.rows = d.n ∧ l.R.cols = d.n ∧ l.r.rows = d.n ∧
    l.x0lb.rows = d.n ∧ l.x0ub.rows = d.n ∧
    ∀ M : Mat K, M.rows = d.m * d.N → M.cols = d.m * d.N →
      (env.inverse M).rows = d.m * d.N ∧ (env.inverse M).cols = d.m * d.N

/-- Preview system `p` has been given a system. -/
def HasSystem (w : World K) (p : Nat) : Prop := 0 < (w.pss p).nrUStep

/-- The call keeps to the rules above. -/
def OpOk (d : Dims) (w : World K) (g : Ghost) : Op K → Prop
  | .system _ A B _ _ N => A.cols = d.n ∧ B.cols = d.m ∧ N = d.N
  | .xInit _ x => x.rows = d.n
  | .setDynamics _ A B v => (A.rows = d.n ∧ A.cols = d.n) ∧ (B.rows = d.n ∧ B.cols = d.m) ∧ v.rows = d.n
  | .updatePs p => HasSystem w p
  | .initConstr _ p _ | .initCost _ p _ => HasSystem w p
  | .updateConstr i p => g.constr i ∧ HasSystem w p ∧ (w.pss p).isUpdated = true
  | .updateCost i p => g.cost i ∧ HasSystem w p
  | .constructPs _ _ p _ | .initializeController p _ => HasSystem w p
  | .addConstraint i _ => (w.cons i).kind = .ctrlBound → w.ctl.spBoundConstr = []
  | .solve env => w.ctl.ps ≠ none ∧ SolveContract d env w.ctl
  | _ => True

/-- Histories.  `E` is an extra condition on every call (used to restrict to nonnegative weights). -/
inductive Hist (d : Dims) (dmax : K) (E : World K → Op K → Prop) : World K → Ghost → Prop
  | start {w} : World.Init w → Hist d dmax E w Ghost.start
  | ok {w w' g op} : Hist d dmax E w g → OpOk d w g op → E w op → w.step dmax op = .ok w' →
      Hist d dmax E w' (g.next w True op)
  | thrown {w w' g op e} : Hist d dmax E w g → OpOk d w g op → E w op → w.step dmax op = .thrown e w' →
      Hist d dmax E w' (g.next w False op)

/-- The state and ghost `w' g'` are reached from `w g` by further calls, each allowed by `E`. -/
inductive Later (d : Dims) (dmax : K) (E : World K → Op K → Prop) (w : World K) (g : Ghost) : World K → Ghost → Prop
  | refl : Later d dmax E w g w g
  | ok {w1 w2 g1 op} : Later d dmax E w g w1 g1 → OpOk d w1 g1 op → E w1 op → w1.step dmax op = .ok w2 →
      Later d dmax E w g w2 (g1.next w1 True op)
  | thrown {w1 w2 g1 op e} : Later d dmax E w g w1 g1 → OpOk d w1 g1 op → E w1 op → w1.step dmax op = .thrown e w2 →
      Later d dmax E w g w2 (g1.next w1 False op)

/-- The call neither makes a new controller, nor initialises it again, nor clears its constraints, nor solves
with a control bound registered. -/
def NoReset (w : World K) : Op K → Prop
  | .construct _ _ | .constructPs _ _ _ _ | .initializeController _ _ | .clearConstraints => False
  | .solve _ => w.ctl.spBoundConstr = []
  | _ => True

/-- The client never calls `autoSpan` on a trajectory bound whose two vectors have different lengths
(see C11 for what that call breaks). -/
def NoBoundSpan (w : World K) : Op K → Prop
  | .spanConstr i _ => (w.cons i).kind = .trajBound → (w.cons i).lower.rows = (w.cons i).upper.rows
  | _ => True

/-- The client only sets nonnegative weights. -/
def NonnegWeights [LinearOrder K] (_ : World K) : Op K → Prop
  | .weights _ v => ∀ j < v.rows, 0 ≤ v.e j
  | .weight _ x => 0 ≤ x
  | _ => True

/-- The client never calls `removeConstraint` and keeps a `shared_ptr` to every constraint that is
registered when it calls `solve` (so that no solve drops one). -/
def NoRemoval (w : World K) : Op K → Prop
  | .removeConstraint _ => False
  | .solve _ => ∀ i ∈ w.ctl.spConstr, 0 < w.extCons i
  | _ => True

/-- Number of QP rows of the constraints in a list. -/
def rowCount (w : World K) (L : List Nat) : Nat := (L.map fun i => (w.cons i).nrConstr).sum

/-- Any call is allowed. -/
def AnyOp (_ : World K) (_ : Op K) : Prop := True

/-- Costs on the trajectory given by per-step matrices (see C27 for what repeated solves do to them). -/
def CostData.PerStepState (d : Dims) : CostData K → Prop
  | .trajectory M _ _ => M.cols = d.n
  | .mixed M N _ _ => M.cols = d.n ∧ N.cols = d.m
  | _ => False

/-- Constraints whose rows are allocated when the constraint is added and only filled in by a solve: those given
per step, and all trajectory bounds. -/
def ConstrData.SizedOnAdd (d : Dims) : ConstrData K → Prop
  | .trajectory _ E _ => E.cols = d.n
  | .control _ G _ => G.cols = d.m
  | .mixed _ E G _ => E.cols = d.n ∧ G.cols = d.m
  | .trajBound _ _ => True
  | .ctrlBound _ _ => False

/-- Costs whose Hessian is allocated when the cost is added and only filled in by a solve: those given per step. -/
def CostData.SizedOnAdd (d : Dims) : CostData K → Prop
  | .trajectory M _ _ => M.cols = d.n
  | .target _ _ _ => False
  | .control N _ _ => N.cols = d.m
  | .mixed M N _ _ => M.cols = d.n ∧ N.cols = d.m

/-- The call mentions only preview systems in `P`, constraints in `C` and costs in `Q`. -/
def Only (P C Q : Nat → Prop) : Op K → Prop
  | .system p _ _ _ _ _ | .xInit p _ | .setDynamics p _ _ _ | .updatePs p => P p
  | .spanConstr i _ | .refsConstr i _ | .addConstraint i _ | .removeConstraint i => C i
  | .initConstr i p _ | .updateConstr i p => C i ∧ P p
  | .spanCost i _ | .weights i _ | .weight i _ | .refsCost i _ | .addCost i _ | .removeCost i => Q i
  | .initCost i p _ | .updateCost i p => Q i ∧ P p
  | .constructPs _ _ p _ | .initializeController p _ => P p
  | .construct _ _ | .useSolver _ | .clearCosts | .clearConstraints | .resetInitialStateCost _ _
  | .resetInitialStateBounds _ _ | .solve _ => True

/-- Constraints given per step. -/
def ConstrData.PerStep (d : Dims) : ConstrData K → Prop
  | .trajectory _ E _ => E.cols = d.n
  | .control _ G _ => G.cols = d.m
  | .mixed _ E G _ => E.cols = d.n ∧ G.cols = d.m
  | .trajBound l _ => l.rows = d.n
  | .ctrlBound l _ => l.rows = d.m

/-- Costs given per step, and target costs. -/
def CostData.PerStep (d : Dims) : CostData K → Prop
  | .target _ _ _ => True
  | D => D.SizedOnAdd d

/-- The controls in the decision vector `y` of a controller. -/
def controls (d : Dims) (l : LMPC K) (y : Nat → K) (j : Nat) : K := y ((if l.isInit then d.n else 0) + j)

end

section
variable [Field K]

/-- The trajectory predicted by preview system `p` from its own initial state. -/
def traj (d : Dims) (w : World K) (p : Nat) (U : Nat → K) : Nat → Nat → K :=
  sim d (w.pss p).A (w.pss p).B (w.pss p).d (w.pss p).x0.e U

/-- The trajectory predicted by preview system `p` from the initial state `x`. -/
def trajFrom (d : Dims) (w : World K) (p : Nat) (x U : Nat → K) : Nat → Nat → K :=
  sim d (w.pss p).A (w.pss p).B (w.pss p).d x U

/-- The decision vector of an initial-state controller: the initial state followed by the controls. -/
def joined (d : Dims) (x U : Nat → K) (j : Nat) : K := if j < d.n then x j else U (j - d.n)

/-- The initial-state bounds of an `InitialStateLMPC`, as set by its constructor or `resetInitialStateBounds`. -/
def InitBounds [LinearOrder K] (d : Dims) (l : LMPC K) (x : Nat → K) : Prop :=
  ∀ j < d.n, l.x0lb.e j ≤ Ext.fin (x j) ∧ Ext.fin (x j) ≤ l.x0ub.e j

/-- Half the sum of the declared costs of the trajectory from the initial state `x`, plus `0.5e-6 |U|^2`. -/
def totalCostFrom (d : Dims) (w : World K) (p : Nat) (x U : Nat → K) : K :=
  1 / 2 * (w.ctl.spCost.map fun i => (w.costs i).userData.value d (trajFrom d w p x U) U).sum
    + 1 / 2 * (1 / 1000000) * ∑ j ∈ Finset.range (d.m * d.N), U j ^ 2

/-- `1/2 x'Rx + r'x`: the cost set by `resetInitialStateCost`. -/
def initialCost (d : Dims) (l : LMPC K) (x : Nat → K) : K := quadValue d.n l.R l.r x

/-- `Matrix::inverse()` of a positive definite matrix of the size of the stacked controls is its inverse. -/
def TrueInverse [LinearOrder K] (d : Dims) (env : SolveEnv K) : Prop :=
  ∀ M : Mat K, M.rows = d.m * d.N → M.cols = d.m * d.N → PD (d.m * d.N) M →
    ∀ a < d.m * d.N, ∀ b < d.m * d.N,
      ∑ k ∈ Finset.range (d.m * d.N), M.e a k * (env.inverse M).e k b = if a = b then 1 else 0

/-- Two declared constraints with the same contents. -/
def ConstrData.Eqv : ConstrData K → ConstrData K → Prop
  | .trajectory q E f, .trajectory q' E' f' => q = q' ∧ MatEq E E' ∧ VecEq f f'
  | .control q G f, .control q' G' f' => q = q' ∧ MatEq G G' ∧ VecEq f f'
  | .mixed q E G f, .mixed q' E' G' f' => q = q' ∧ MatEq E E' ∧ MatEq G G' ∧ VecEq f f'
  | .trajBound l u, .trajBound l' u' => VecEq l l' ∧ VecEq u u'
  | .ctrlBound l u, .ctrlBound l' u' => VecEq l l' ∧ VecEq u u'
  | _, _ => False

/-- Two declared costs with the same contents. -/
def CostData.Eqv : CostData K → CostData K → Prop
  | .trajectory M p w, .trajectory M' p' w' => MatEq M M' ∧ VecEq p p' ∧ VecEq w w'
  | .target M p w, .target M' p' w' => MatEq M M' ∧ VecEq p p' ∧ VecEq w w'
  | .control N p w, .control N' p' w' => MatEq N N' ∧ VecEq p p' ∧ VecEq w w'
  | .mixed M N p w, .mixed M' N' p' w' => MatEq M M' ∧ MatEq N N' ∧ VecEq p p' ∧ VecEq w w'
  | _, _ => False

/-- The same system, the same initial state, and the same constraints and costs in the same order. -/
structure SameDeclared (w1 : World K) (p1 : Nat) (w2 : World K) (p2 : Nat) : Prop where
  A : (w1.pss p1).A = (w2.pss p2).A
  B : (w1.pss p1).B = (w2.pss p2).B
  bias : (w1.pss p1).d = (w2.pss p2).d
  x0 : VecEq (w1.pss p1).x0 (w2.pss p2).x0
  cons : List.Forall₂ (fun i j => (w1.cons i).userData.Eqv (w2.cons j).userData) w1.ctl.spConstr w2.ctl.spConstr
  costs : List.Forall₂ (fun i j => (w1.costs i).userData.Eqv (w2.costs j).userData) w1.ctl.spCost w2.ctl.spCost

/-- The same system, the same initial state, and the same constraints and costs in any order. -/
structure SamePermuted (w1 : World K) (p1 : Nat) (w2 : World K) (p2 : Nat) : Prop where
  A : (w1.pss p1).A = (w2.pss p2).A
  B : (w1.pss p1).B = (w2.pss p2).B
  bias : (w1.pss p1).d = (w2.pss p2).d
  x0 : VecEq (w1.pss p1).x0 (w2.pss p2).x0
  cons : ∃ L, L.Perm w2.ctl.spConstr ∧
    List.Forall₂ (fun i j => (w1.cons i).userData.Eqv (w2.cons j).userData) w1.ctl.spConstr L
  costs : ∃ L, L.Perm w2.ctl.spCost ∧
    List.Forall₂ (fun i j => (w1.costs i).userData.Eqv (w2.costs j).userData) w1.ctl.spCost L

/-- The problems have the same quadratic objective, the same feasible points and the same minimisers. -/
structure SameProblem [LinearOrder K] (q1 q2 : QP K) : Prop where
  nrVar : q1.nrVar = q2.nrVar
  Q : MatEq q1.Q q2.Q
  c : VecEq q1.c q2.c
  objective : ∀ x, Spec.objective q1 x = Spec.objective q2 x
  feasible : ∀ x, Feasible q1 x ↔ Feasible q2 x
  optimal : ∀ x, IsOptimal q1 x ↔ IsOptimal q2 x

end

section
variable [Zero K] [One K] [Add K] [Sub K] [Neg K] [Mul K] [Arith K]

/-- Call `solve()` once per environment; the problems handed to the solver, in order. -/
def solveSeq (w : World K) : List (SolveEnv K) → Option (World K × List (QP K))
  | [] => some (w, [])
  | e :: es => do
    let (w', _, q) ← w.solve e
    let (w'', qs) ← solveSeq w' es
    return (w'', q :: qs)

/-- Every registered constraint and cost is also held by somebody outside the controller. -/
def Held (w : World K) : Prop :=
  (∀ i ∈ w.ctl.spConstr, 0 < w.extCons i) ∧ ∀ i ∈ w.ctl.spCost, 0 < w.extCosts i

/-- `Matrix::inverse()` reads nothing but the entries of its argument, and is the same function in both
environments. -/
def SameInverse (d : Dims) (e e' : SolveEnv K) : Prop :=
  ∀ M M' : Mat K, M.rows = d.m * d.N → M.cols = d.m * d.N → MatEq M M' → MatEq (e.inverse M) (e'.inverse M')

/-- The same initial-state cost and bounds. -/
structure SameInitData (d : Dims) (l l' : LMPC K) : Prop where
  R : ∀ a < d.n, ∀ b < d.n, l.R.e a b = l'.R.e a b
  r : ∀ a < d.n, l.r.e a = l'.r.e a
  x0lb : ∀ a < d.n, l.x0lb.e a = l'.x0lb.e a
  x0ub : ∀ a < d.n, l.x0ub.e a = l'.x0ub.e a

end

end Copra.Spec
