import Verif.SpecScale

/-! # Specification vocabulary: other limits in the same constraints (C110)

The limits of a constraint are the right-hand side `f` of a trajectory, control or mixed constraint and the two bounds of
a bound constraint. -/

namespace Copra.Spec
variable {K : Type}

/-- The limits `f1` may be replaced by `f2`: for an inequality they do not decrease, for an equality they stay. -/
def RhsLooser [LE K] (isIneq : Bool) (rows : Nat) (f1 f2 : Vec (Ext K)) : Prop :=
  ∀ r < rows, if isIneq then f1.e r ≤ f2.e r else f1.e r = f2.e r

/-- The second constraint is the first one with looser limits. -/
def ConstrData.Looser [LE K] (d : Dims) : ConstrData K → ConstrData K → Prop
  | .trajectory q1 E1 f1, .trajectory q2 E2 f2 => q2 = q1 ∧ E2 = E1 ∧ RhsLooser q1 E1.rows f1 f2
  | .control q1 G1 f1, .control q2 G2 f2 => q2 = q1 ∧ G2 = G1 ∧ RhsLooser q1 G1.rows f1 f2
  | .mixed q1 E1 G1 f1, .mixed q2 E2 G2 f2 => q2 = q1 ∧ E2 = E1 ∧ G2 = G1 ∧ RhsLooser q1 E1.rows f1 f2
  | .trajBound l1 u1, .trajBound l2 u2 =>
    l2.rows = l1.rows ∧ (∀ r < boundEntries (d.N + 1) d.n l1.rows, l2.e r ≤ l1.e r ∧ u1.e r ≤ u2.e r)
  | .ctrlBound l1 u1, .ctrlBound l2 u2 =>
    l2.rows = l1.rows ∧ (∀ r < boundEntries d.N d.m l1.rows, l2.e r ≤ l1.e r ∧ u1.e r ≤ u2.e r)
  | _, _ => False

/-- The weighted average of two limits; an infinite limit on one side makes the average infinite. -/
def mixExt [Ring K] (a : K) : Ext K → Ext K → Ext K
  | .fin x, .fin y => .fin (a * x + (1 - a) * y)
  | .pinf, _ => .pinf
  | _, .pinf => .pinf
  | .ninf, _ => .ninf
  | _, .ninf => .ninf

/-- The first `r` limits are the averages. -/
def Averaged [Ring K] (a : K) (r : Nat) (f1 f2 f3 : Vec (Ext K)) : Prop := ∀ i < r, f3.e i = mixExt a (f1.e i) (f2.e i)

/-- The third constraint is like the first two, with the average of their limits. -/
def ConstrData.Between [Ring K] (d : Dims) (a : K) : ConstrData K → ConstrData K → ConstrData K → Prop
  | .trajectory q1 E1 f1, .trajectory q2 E2 f2, .trajectory q3 E3 f3 =>
    q1 = q3 ∧ q2 = q3 ∧ E1 = E3 ∧ E2 = E3 ∧ Averaged a E3.rows f1 f2 f3
  | .control q1 G1 f1, .control q2 G2 f2, .control q3 G3 f3 =>
    q1 = q3 ∧ q2 = q3 ∧ G1 = G3 ∧ G2 = G3 ∧ Averaged a G3.rows f1 f2 f3
  | .mixed q1 E1 G1 f1, .mixed q2 E2 G2 f2, .mixed q3 E3 G3 f3 =>
    q1 = q3 ∧ q2 = q3 ∧ E1 = E3 ∧ E2 = E3 ∧ G1 = G3 ∧ G2 = G3 ∧ Averaged a E3.rows f1 f2 f3
  | .trajBound l1 u1, .trajBound l2 u2, .trajBound l3 u3 =>
    l1.rows = l3.rows ∧ l2.rows = l3.rows ∧ Averaged a (boundEntries (d.N + 1) d.n l3.rows) l1 l2 l3 ∧
      Averaged a (boundEntries (d.N + 1) d.n l3.rows) u1 u2 u3
  | .ctrlBound l1 u1, .ctrlBound l2 u2, .ctrlBound l3 u3 =>
    l1.rows = l3.rows ∧ l2.rows = l3.rows ∧ Averaged a (boundEntries d.N d.m l3.rows) l1 l2 l3 ∧
      Averaged a (boundEntries d.N d.m l3.rows) u1 u2 u3
  | _, _, _ => False

/-- The declared limits on the controls as such: a registered control bound. -/
def HasCtrlBound (w : World K) : Prop := ∃ i ∈ w.ctl.spConstr, ∃ l u, (w.cons i).userData = .ctrlBound l u

/-- The second program declares the same system, initial state and costs as the first one, in any order, and each of its
constraints is one of the first program with looser limits. -/
structure Loosened [LE K] (d : Dims) (w1 : World K) (p1 : Nat) (w2 : World K) (p2 : Nat) : Prop where
  A : (w1.pss p1).A = (w2.pss p2).A
  B : (w1.pss p1).B = (w2.pss p2).B
  bias : (w1.pss p1).d = (w2.pss p2).d
  x0 : (w1.pss p1).x0 = (w2.pss p2).x0
  costs : (w1.ctl.spCost.map fun i => (w1.costs i).userData).Perm (w2.ctl.spCost.map fun i => (w2.costs i).userData)
  cons : ∀ j ∈ w2.ctl.spConstr, ∃ i ∈ w1.ctl.spConstr, (w1.cons i).userData.Looser d (w2.cons j).userData

/-- The same initial-state cost, and bounds on the initial state that are not tighter in the second controller. -/
structure InitLoosened [LE K] (d : Dims) (l1 l2 : LMPC K) : Prop where
  R : ∀ a < d.n, ∀ b < d.n, l1.R.e a b = l2.R.e a b
  r : ∀ a < d.n, l1.r.e a = l2.r.e a
  bounds : ∀ a < d.n, l2.x0lb.e a ≤ l1.x0lb.e a ∧ l1.x0ub.e a ≤ l2.x0ub.e a

/-- The third program declares the same system and costs as the first two, the average of their initial states, and
constraints like theirs with the averages of their limits. -/
structure LimitsBetween [Ring K] (d : Dims) (a : K) (w1 : World K) (p1 : Nat) (w2 : World K) (p2 : Nat) (w3 : World K) (p3 : Nat) :
    Prop where
  A : (w1.pss p1).A = (w3.pss p3).A ∧ (w2.pss p2).A = (w3.pss p3).A
  B : (w1.pss p1).B = (w3.pss p3).B ∧ (w2.pss p2).B = (w3.pss p3).B
  bias : (w1.pss p1).d = (w3.pss p3).d ∧ (w2.pss p2).d = (w3.pss p3).d
  x0 : ∀ r < d.n, (w3.pss p3).x0.e r = a * (w1.pss p1).x0.e r + (1 - a) * (w2.pss p2).x0.e r
  costs1 : (w1.ctl.spCost.map fun i => (w1.costs i).userData).Perm (w3.ctl.spCost.map fun i => (w3.costs i).userData)
  costs2 : (w2.ctl.spCost.map fun i => (w2.costs i).userData).Perm (w3.ctl.spCost.map fun i => (w3.costs i).userData)
  cons : ∀ k ∈ w3.ctl.spConstr, ∃ i ∈ w1.ctl.spConstr, ∃ j ∈ w2.ctl.spConstr,
    (w1.cons i).userData.Between d a (w2.cons j).userData (w3.cons k).userData
  bounded : HasCtrlBound w1 ∨ HasCtrlBound w2 → HasCtrlBound w3

end Copra.Spec
