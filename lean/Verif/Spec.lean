import Verif.Eigen
import Verif.Model.LMPC

/-! # Specification vocabulary

What the English properties talk about, written without reference to how copra computes anything:
simulation of the linear system, the meaning of each kind of constraint, the value of each kind of
cost, feasibility and objective of a QP. -/

namespace Copra.Spec
variable {K : Type}

/-- Dimensions of a preview problem: state, control, number of steps. -/
structure Dims where
  n : Nat
  m : Nat
  N : Nat
  deriving DecidableEq

/-- Component `c` of the control applied at step `k` in a stacked control vector. -/
def ctrl (d : Dims) (U : Nat → K) (k c : Nat) : K := U (k * d.m + c)

/-- Simulation of `x_{k+1} = A x_k + B u_k + w` from `x0` under the stacked controls `U`:
`sim .. k r` is component `r` of `x_k`. -/
def sim [Field K] (d : Dims) (A B : Mat K) (w : Vec K) (x0 : Nat → K) (U : Nat → K) : Nat → Nat → K
  | 0, r => x0 r
  | k + 1, r =>
    (∑ c ∈ Finset.range d.n, A.e r c * sim d A B w x0 U k c)
      + (∑ c ∈ Finset.range d.m, B.e r c * ctrl d U k c) + w.e r

/-- `v` is the stacked vector of the states `X 0, ..., X N`. -/
def IsStacked (d : Dims) (X : Nat → Nat → K) (v : Vec K) : Prop :=
  v.rows = (d.N + 1) * d.n ∧ ∀ k r, k ≤ d.N → r < d.n → v.e (k * d.n + r) = X k r

/-- One scalar constraint: `a <= b` or `a = b`, where `b` may be infinite. -/
def Rel [Field K] [LinearOrder K] (isIneq : Bool) (a : K) (b : Ext K) : Prop :=
  if isIneq then Ext.fin a ≤ b else Ext.fin a = b

/-- What the user declared with one of the five constraint constructors. -/
inductive ConstrData (K : Type) where
  | trajectory (isIneq : Bool) (E : Mat K) (f : Vec (Ext K))
  | control (isIneq : Bool) (G : Mat K) (f : Vec (Ext K))
  | mixed (isIneq : Bool) (E G : Mat K) (f : Vec (Ext K))
  | trajBound (lower upper : Vec (Ext K))
  | ctrlBound (lower upper : Vec (Ext K))

section
variable [Field K] [LinearOrder K]

/-- Per-step trajectory constraint: `E x_k (<=|=) f` for every `k = 0..N`. -/
def TrajectoryStep (d : Dims) (X : Nat → Nat → K) (isIneq : Bool) (E : Mat K) (f : Vec (Ext K)) :
    Prop :=
  ∀ k ≤ d.N, ∀ r < E.rows, Rel isIneq (∑ c ∈ Finset.range d.n, E.e r c * X k c) (f.e r)

/-- Full-size trajectory constraint: `E X (<=|=) f` with `X` the stacked trajectory. -/
def TrajectoryFull (d : Dims) (X : Nat → Nat → K) (isIneq : Bool) (E : Mat K) (f : Vec (Ext K)) :
    Prop :=
  ∀ r < E.rows, Rel isIneq
    (∑ k ∈ Finset.range (d.N + 1), ∑ c ∈ Finset.range d.n, E.e r (k * d.n + c) * X k c) (f.e r)

/-- Per-step control constraint: `G u_k (<=|=) f` for every `k = 0..N-1`. -/
def ControlStep (d : Dims) (U : Nat → K) (isIneq : Bool) (G : Mat K) (f : Vec (Ext K)) : Prop :=
  ∀ k < d.N, ∀ r < G.rows, Rel isIneq (∑ c ∈ Finset.range d.m, G.e r c * ctrl d U k c) (f.e r)

/-- Full-size control constraint: `G U (<=|=) f`. -/
def ControlFull (d : Dims) (U : Nat → K) (isIneq : Bool) (G : Mat K) (f : Vec (Ext K)) : Prop :=
  ∀ r < G.rows, Rel isIneq
    (∑ k ∈ Finset.range d.N, ∑ c ∈ Finset.range d.m, G.e r (k * d.m + c) * ctrl d U k c) (f.e r)

/-- Per-step mixed constraint: `E x_k + G u_k (<=|=) f` for every `k = 0..N-1`. -/
def MixedStep (d : Dims) (X : Nat → Nat → K) (U : Nat → K) (isIneq : Bool) (E G : Mat K)
    (f : Vec (Ext K)) : Prop :=
  ∀ k < d.N, ∀ r < E.rows, Rel isIneq
    ((∑ c ∈ Finset.range d.n, E.e r c * X k c) + ∑ c ∈ Finset.range d.m, G.e r c * ctrl d U k c)
    (f.e r)

/-- Full-size mixed constraint: `E X + G U (<=|=) f`. -/
def MixedFull (d : Dims) (X : Nat → Nat → K) (U : Nat → K) (isIneq : Bool) (E G : Mat K)
    (f : Vec (Ext K)) : Prop :=
  ∀ r < E.rows, Rel isIneq
    ((∑ k ∈ Finset.range (d.N + 1), ∑ c ∈ Finset.range d.n, E.e r (k * d.n + c) * X k c)
      + ∑ k ∈ Finset.range d.N, ∑ c ∈ Finset.range d.m, G.e r (k * d.m + c) * ctrl d U k c) (f.e r)

/-- Per-step trajectory bound: `lower <= x_k <= upper` for every `k = 0..N`. -/
def TrajBoundStep (d : Dims) (X : Nat → Nat → K) (lower upper : Vec (Ext K)) : Prop :=
  ∀ k ≤ d.N, ∀ r < d.n, lower.e r ≤ Ext.fin (X k r) ∧ Ext.fin (X k r) ≤ upper.e r

/-- Full-size trajectory bound. -/
def TrajBoundFull (d : Dims) (X : Nat → Nat → K) (lower upper : Vec (Ext K)) : Prop :=
  ∀ k ≤ d.N, ∀ r < d.n,
    lower.e (k * d.n + r) ≤ Ext.fin (X k r) ∧ Ext.fin (X k r) ≤ upper.e (k * d.n + r)

/-- Per-step control bound: `lower <= u_k <= upper` for every `k = 0..N-1`. -/
def CtrlBoundStep (d : Dims) (U : Nat → K) (lower upper : Vec (Ext K)) : Prop :=
  ∀ k < d.N, ∀ c < d.m, lower.e c ≤ Ext.fin (ctrl d U k c) ∧ Ext.fin (ctrl d U k c) ≤ upper.e c

/-- Full-size control bound. -/
def CtrlBoundFull (d : Dims) (U : Nat → K) (lower upper : Vec (Ext K)) : Prop :=
  ∀ k < d.N, ∀ c < d.m, lower.e (k * d.m + c) ≤ Ext.fin (ctrl d U k c) ∧
    Ext.fin (ctrl d U k c) ≤ upper.e (k * d.m + c)

/-- A declared constraint holds for a trajectory and a control sequence.  Data whose width is that of
one step is per-step data, otherwise it is full-size data. -/
def ConstrData.Holds (d : Dims) (X : Nat → Nat → K) (U : Nat → K) : ConstrData K → Prop
  | .trajectory q E f => if E.cols = d.n then TrajectoryStep d X q E f else TrajectoryFull d X q E f
  | .control q G f => if G.cols = d.m then ControlStep d U q G f else ControlFull d U q G f
  | .mixed q E G f =>
    if E.cols = d.n ∧ G.cols = d.m then MixedStep d X U q E G f else MixedFull d X U q E G f
  | .trajBound l u => if l.rows = d.n then TrajBoundStep d X l u else TrajBoundFull d X l u
  | .ctrlBound l u => if l.rows = d.m then CtrlBoundStep d U l u else CtrlBoundFull d U l u

end

/-- What the user declared with one of the four cost constructors (and `weights`). -/
inductive CostData (K : Type) where
  | trajectory (M : Mat K) (p w : Vec K)
  | target (M : Mat K) (p w : Vec K)
  | control (N : Mat K) (p w : Vec K)
  | mixed (M N : Mat K) (p w : Vec K)

section
variable [Field K]

/-- `sum_r w_r (y_r - p_r)^2` over the first `rows` components. -/
def wsq (rows : Nat) (w p : Vec K) (y : Nat → K) : K :=
  ∑ r ∈ Finset.range rows, w.e r * (y r - p.e r) ^ 2

/-- Value of a declared cost on a trajectory and a control sequence, as in the class documentation of
include/costFunctions.h: weighted squared distance to the target, summed over the horizon. -/
def CostData.value (d : Dims) (X : Nat → Nat → K) (U : Nat → K) : CostData K → K
  | .trajectory M p w =>
    if M.cols = d.n then
      ∑ k ∈ Finset.range (d.N + 1),
        wsq M.rows w p fun r => ∑ c ∈ Finset.range d.n, M.e r c * X k c
    else
      wsq M.rows w p fun r =>
        ∑ k ∈ Finset.range (d.N + 1), ∑ c ∈ Finset.range d.n, M.e r (k * d.n + c) * X k c
  | .target M p w => wsq M.rows w p fun r => ∑ c ∈ Finset.range d.n, M.e r c * X d.N c
  | .control N p w =>
    if N.cols = d.m then
      ∑ k ∈ Finset.range d.N,
        wsq N.rows w p fun r => ∑ c ∈ Finset.range d.m, N.e r c * ctrl d U k c
    else
      wsq N.rows w p fun r =>
        ∑ k ∈ Finset.range d.N, ∑ c ∈ Finset.range d.m, N.e r (k * d.m + c) * ctrl d U k c
  | .mixed M N p w =>
    if M.cols = d.n ∧ N.cols = d.m then
      ∑ k ∈ Finset.range d.N, wsq M.rows w p fun r =>
        (∑ c ∈ Finset.range d.n, M.e r c * X k c) + ∑ c ∈ Finset.range d.m, N.e r c * ctrl d U k c
    else
      wsq M.rows w p fun r =>
        (∑ k ∈ Finset.range (d.N + 1), ∑ c ∈ Finset.range d.n, M.e r (k * d.n + c) * X k c)
          + ∑ k ∈ Finset.range d.N, ∑ c ∈ Finset.range d.m, N.e r (k * d.m + c) * ctrl d U k c

end

/-! ## Quadratic programs -/

section
variable [Field K]

/-- `1/2 x'Qx + c'x` over the first `n` components. -/
def quadValue (n : Nat) (Q : Mat K) (c : Vec K) (x : Nat → K) : K :=
  1 / 2 * (∑ i ∈ Finset.range n, ∑ j ∈ Finset.range n, x i * Q.e i j * x j)
    + ∑ i ∈ Finset.range n, c.e i * x i

/-- The objective documented in include/SolverInterface.h 54-66. -/
def objective (q : QP K) (x : Nat → K) : K := quadValue q.c.rows q.Q q.c x

/-- Row `i` of `A x`. -/
def rowValue (A : Mat K) (x : Nat → K) (i : Nat) : K := ∑ j ∈ Finset.range A.cols, A.e i j * x j

variable [LinearOrder K]

/-- The constraints documented in include/SolverInterface.h 54-66. -/
def Feasible (q : QP K) (x : Nat → K) : Prop :=
  (∀ i < q.Aeq.rows, Ext.fin (rowValue q.Aeq x i) = q.beq.e i) ∧
  (∀ i < q.Aineq.rows, Ext.fin (rowValue q.Aineq x i) ≤ q.bineq.e i) ∧
  (∀ j < q.lb.rows, q.lb.e j ≤ Ext.fin (x j)) ∧ (∀ j < q.ub.rows, Ext.fin (x j) ≤ q.ub.e j)

/-- `x` is a minimiser of the QP. -/
def IsOptimal (q : QP K) (x : Nat → K) : Prop :=
  Feasible q x ∧ ∀ y, Feasible q y → objective q x ≤ objective q y

end

/-- Dimensions of the pieces of a QP agree with each other and with the sizes announced by
`SI_problem`. -/
def WellSized (q : QP K) : Prop :=
  q.Q.rows = q.nrVar ∧ q.Q.cols = q.nrVar ∧ q.c.rows = q.nrVar ∧
  q.Aeq.rows = q.nrEq ∧ q.Aeq.cols = q.nrVar ∧ q.beq.rows = q.nrEq ∧
  q.Aineq.rows = q.nrIneq ∧ q.Aineq.cols = q.nrVar ∧ q.bineq.rows = q.nrIneq ∧
  q.lb.rows = q.nrVar ∧ q.ub.rows = q.nrVar

/-- Equality of the in-range contents of two matrices / vectors / problems. -/
def MatEq (A B : Mat K) : Prop :=
  A.rows = B.rows ∧ A.cols = B.cols ∧ ∀ i < A.rows, ∀ j < A.cols, A.e i j = B.e i j

/-- Equality of the in-range contents of two vectors. -/
def VecEq {α : Type} (u v : Vec α) : Prop := u.rows = v.rows ∧ ∀ i < u.rows, u.e i = v.e i

/-- Equality of everything a solver can see of two problems. -/
def QPEq (p q : QP K) : Prop :=
  p.nrVar = q.nrVar ∧ p.nrEq = q.nrEq ∧ p.nrIneq = q.nrIneq ∧ MatEq p.Q q.Q ∧ VecEq p.c q.c ∧
  MatEq p.Aeq q.Aeq ∧ VecEq p.beq q.beq ∧ MatEq p.Aineq q.Aineq ∧ VecEq p.bineq q.bineq ∧
  VecEq p.lb q.lb ∧ VecEq p.ub q.ub

/-- `Q` restricted to its first `n` rows and columns is symmetric. -/
def Symmetric (n : Nat) (Q : Mat K) : Prop := ∀ i < n, ∀ j < n, Q.e i j = Q.e j i

/-- Positive semidefinite. -/
def PSD [Field K] [LinearOrder K] (n : Nat) (Q : Mat K) : Prop :=
  Symmetric n Q ∧ ∀ x : Nat → K, 0 ≤ ∑ i ∈ Finset.range n, ∑ j ∈ Finset.range n, x i * Q.e i j * x j

/-- Positive definite. -/
def PD [Field K] [LinearOrder K] (n : Nat) (Q : Mat K) : Prop :=
  Symmetric n Q ∧ ∀ x : Nat → K, (∃ i < n, x i ≠ 0) →
    0 < ∑ i ∈ Finset.range n, ∑ j ∈ Finset.range n, x i * Q.e i j * x j

end Copra.Spec

namespace Copra.Constr
open Spec
variable {K : Type} [Field K]

/-! ## Constraint objects: declared data, accepted shapes -/

/-- The constraint as declared by the user.  The full-size data of control and control bound
constraints has been moved to the members handed to the QP when the constraint was accepted. -/
def userData (c : Constr K) : ConstrData K :=
  match c.kind with
  | .trajectory => .trajectory c.isIneq c.E c.f
  | .control => if c.fullSizeEntry then .control c.isIneq c.A c.b else .control c.isIneq c.G c.f
  | .mixed => .mixed c.isIneq c.E c.G c.f
  | .trajBound => .trajBound c.lower c.upper
  | .ctrlBound => if c.fullSizeEntry then .ctrlBound c.lb c.ub else .ctrlBound c.lower c.upper

/-- The data of the constraint has equal row counts and fits the per-step or the full-horizon dimensions. -/
def Fits (d : Dims) (c : Constr K) : Prop :=
  match c.kind with
  | .trajectory => c.E.rows = c.f.rows ∧ (c.E.cols = d.n ∨ c.E.cols = d.n * (d.N + 1))
  | .control => c.G.rows = c.f.rows ∧ (c.G.cols = d.m ∨ c.G.cols = d.m * d.N)
  | .mixed => c.E.rows = c.f.rows ∧ c.G.rows = c.f.rows ∧
    ((c.E.cols = d.n ∧ c.G.cols = d.m) ∨ (c.E.cols = d.n * (d.N + 1) ∧ c.G.cols = d.m * d.N))
  | .trajBound => c.lower.rows = c.upper.rows ∧ (c.lower.rows = d.n ∨ c.lower.rows = d.n * (d.N + 1))
  | .ctrlBound => c.lower.rows = c.upper.rows ∧ (c.lower.rows = d.m ∨ c.lower.rows = d.m * d.N)

/-- The constraint classes that may be initialised only once. -/
def Once (c : Constr K) : Prop := c.kind = .control ∨ c.kind = .ctrlBound

/-- Number of rows (or bounds) an accepted constraint contributes. -/
def rowsNeeded (d : Dims) (c : Constr K) : Nat :=
  match c.kind with
  | .trajectory => if c.E.cols = d.n then c.E.rows * (d.N + 1) else c.E.rows
  | .control => if c.G.cols = d.m then c.G.rows * d.N else c.G.rows
  | .mixed => if c.E.cols = d.n ∧ c.G.cols = d.m then c.E.rows * d.N else c.E.rows
  | .trajBound =>
    (c.lowerLines.length + c.upperLines.length) * if c.lower.rows = d.n then d.N + 1 else 1
  | .ctrlBound => d.m * d.N

end Copra.Constr

namespace Copra.Cost
open Spec
variable {K : Type} [Field K]

/-! ## Cost objects: declared data, accepted shapes -/

/-- The cost as declared by the user. -/
def userData (c : Cost K) : CostData K :=
  match c.kind with
  | .trajectory => .trajectory c.M c.p c.weights
  | .target => .target c.M c.p c.weights
  | .control => .control c.N c.p c.weights
  | .mixed => .mixed c.M c.N c.p c.weights

/-- The data of the cost has equal row counts and fits the per-step or the full-horizon dimensions. -/
def Fits (d : Dims) (c : Cost K) : Prop :=
  match c.kind with
  | .trajectory => c.M.rows = c.p.rows ∧ (c.M.cols = d.n ∨ c.M.cols = d.n * (d.N + 1))
  | .target => c.M.rows = c.p.rows ∧ c.M.cols = d.n
  | .control => c.N.rows = c.p.rows ∧ (c.N.cols = d.m ∨ c.N.cols = d.m * d.N)
  | .mixed => c.M.rows = c.p.rows ∧ c.N.rows = c.p.rows ∧
    ((c.M.cols = d.n ∧ c.N.cols = d.m) ∨ (c.M.cols = d.n * (d.N + 1) ∧ c.N.cols = d.m * d.N))

end Copra.Cost
