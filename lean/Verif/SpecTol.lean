import Verif.Spec

/-! # Specification of approximate satisfaction: constraints and problems within a tolerance -/

namespace Copra.Spec
variable {K : Type} [Field K] [LinearOrder K]

/-- `a <= b` or `a = b`, up to `δ`. -/
def RelWithin (δ : K) (isIneq : Bool) (a : K) (b : Ext K) : Prop :=
  if isIneq then Ext.fin (a - δ) ≤ b else ∃ t, b = Ext.fin t ∧ |a - t| ≤ δ

/-- `l <= a <= u`, up to `δ`. -/
def BoundWithin (δ : K) (l : Ext K) (a : K) (u : Ext K) : Prop := l ≤ Ext.fin (a + δ) ∧ Ext.fin (a - δ) ≤ u

/-- Every scalar (in)equality a declared constraint stands for is in the relation `R`, every scalar bound in `B`. -/
def ConstrData.Each (d : Dims) (R : Bool → K → Ext K → Prop) (B : Ext K → K → Ext K → Prop) (X : Nat → Nat → K)
    (U : Nat → K) : ConstrData K → Prop
  | .trajectory q E f =>
    if E.cols = d.n then ∀ k ≤ d.N, ∀ r < E.rows, R q (∑ c ∈ Finset.range d.n, E.e r c * X k c) (f.e r)
    else ∀ r < E.rows, R q (∑ k ∈ Finset.range (d.N + 1), ∑ c ∈ Finset.range d.n, E.e r (k * d.n + c) * X k c) (f.e r)
  | .control q G f =>
    if G.cols = d.m then ∀ k < d.N, ∀ r < G.rows, R q (∑ c ∈ Finset.range d.m, G.e r c * ctrl d U k c) (f.e r)
    else ∀ r < G.rows, R q (∑ k ∈ Finset.range d.N, ∑ c ∈ Finset.range d.m, G.e r (k * d.m + c) * ctrl d U k c) (f.e r)
  | .mixed q E G f =>
    if E.cols = d.n ∧ G.cols = d.m then ∀ k < d.N, ∀ r < E.rows,
      R q ((∑ c ∈ Finset.range d.n, E.e r c * X k c) + ∑ c ∈ Finset.range d.m, G.e r c * ctrl d U k c) (f.e r)
    else ∀ r < E.rows, R q ((∑ k ∈ Finset.range (d.N + 1), ∑ c ∈ Finset.range d.n, E.e r (k * d.n + c) * X k c)
      + ∑ k ∈ Finset.range d.N, ∑ c ∈ Finset.range d.m, G.e r (k * d.m + c) * ctrl d U k c) (f.e r)
  | .trajBound l u =>
    if l.rows = d.n then ∀ k ≤ d.N, ∀ r < d.n, B (l.e r) (X k r) (u.e r)
    else ∀ k ≤ d.N, ∀ r < d.n, B (l.e (k * d.n + r)) (X k r) (u.e (k * d.n + r))
  | .ctrlBound l u =>
    if l.rows = d.m then ∀ k < d.N, ∀ c < d.m, B (l.e c) (ctrl d U k c) (u.e c)
    else ∀ k < d.N, ∀ c < d.m, B (l.e (k * d.m + c)) (ctrl d U k c) (u.e (k * d.m + c))

/-- A declared constraint is violated by at most `δ` in every scalar (in)equality. -/
def ConstrData.HoldsWithin (d : Dims) (δ : K) (X : Nat → Nat → K) (U : Nat → K) (D : ConstrData K) : Prop :=
  D.Each d (RelWithin δ) (BoundWithin δ) X U

/-- A point violates every constraint of a problem by at most `δ`. -/
def FeasibleWithin (δ : K) (q : QP K) (x : Nat → K) : Prop :=
  (∀ i < q.Aeq.rows, ∃ t, q.beq.e i = Ext.fin t ∧ |rowValue q.Aeq x i - t| ≤ δ) ∧
  (∀ i < q.Aineq.rows, Ext.fin (rowValue q.Aineq x i - δ) ≤ q.bineq.e i) ∧
  (∀ j < q.lb.rows, q.lb.e j ≤ Ext.fin (x j + δ)) ∧ (∀ j < q.ub.rows, Ext.fin (x j - δ) ≤ q.ub.e j)

/-- A point is within `δ` of satisfying the constraints and within `ε` of the best value over the feasible set. -/
def NearOptimal (δ ε : K) (q : QP K) (x : Nat → K) : Prop :=
  FeasibleWithin δ q x ∧ ∀ y, Feasible q y → objective q x ≤ objective q y + ε

end Copra.Spec
