import Verif.SpecHist

/-! # Specification vocabulary: the same problem in other units

All states and all controls are measured in a unit that is `s` times smaller: the initial state, the bias of the dynamics,
the right-hand sides and bounds of the constraints and the references of the costs are multiplied by `s > 0`; matrices and
weights stay as they are, and an infinite bound stays infinite. -/

namespace Copra.Spec
variable {K : Type}

/-- A possibly infinite number times `s > 0`. -/
def timesExt [Mul K] (s : K) : Ext K → Ext K
  | .ninf => .ninf
  | .fin a => .fin (s * a)
  | .pinf => .pinf

/-- The first `r` entries are multiplied by `s`. -/
def TimesUpTo [Mul K] (s : K) (r : Nat) (v1 v2 : Vec K) : Prop := ∀ i < r, v2.e i = s * v1.e i

/-- The first `r` entries, which may be infinite, are multiplied by `s`. -/
def ExtTimesUpTo [Mul K] (s : K) (r : Nat) (v1 v2 : Vec (Ext K)) : Prop := ∀ i < r, v2.e i = timesExt s (v1.e i)

/-- Number of entries of a bound given for one step (`width` entries) or for `steps` steps. -/
def boundEntries (steps width rows : Nat) : Nat := if rows = width then width else steps * width

/-- The same constraint in the smaller unit. -/
def ConstrData.TimesS [Mul K] (d : Dims) (s : K) : ConstrData K → ConstrData K → Prop
  | .trajectory q1 E1 f1, .trajectory q2 E2 f2 => q2 = q1 ∧ E2 = E1 ∧ ExtTimesUpTo s E1.rows f1 f2
  | .control q1 G1 f1, .control q2 G2 f2 => q2 = q1 ∧ G2 = G1 ∧ ExtTimesUpTo s G1.rows f1 f2
  | .mixed q1 E1 G1 f1, .mixed q2 E2 G2 f2 => q2 = q1 ∧ E2 = E1 ∧ G2 = G1 ∧ ExtTimesUpTo s E1.rows f1 f2
  | .trajBound l1 u1, .trajBound l2 u2 =>
    l2.rows = l1.rows ∧ ExtTimesUpTo s (boundEntries (d.N + 1) d.n l1.rows) l1 l2 ∧
      ExtTimesUpTo s (boundEntries (d.N + 1) d.n l1.rows) u1 u2
  | .ctrlBound l1 u1, .ctrlBound l2 u2 =>
    l2.rows = l1.rows ∧ ExtTimesUpTo s (boundEntries d.N d.m l1.rows) l1 l2 ∧
      ExtTimesUpTo s (boundEntries d.N d.m l1.rows) u1 u2
  | _, _ => False

/-- The same cost in the smaller unit. -/
def CostData.TimesS [Mul K] (s : K) : CostData K → CostData K → Prop
  | .trajectory M1 p1 v1, .trajectory M2 p2 v2 => M2 = M1 ∧ v2 = v1 ∧ TimesUpTo s M1.rows p1 p2
  | .target M1 p1 v1, .target M2 p2 v2 => M2 = M1 ∧ v2 = v1 ∧ TimesUpTo s M1.rows p1 p2
  | .control N1 p1 v1, .control N2 p2 v2 => N2 = N1 ∧ v2 = v1 ∧ TimesUpTo s N1.rows p1 p2
  | .mixed M1 N1 p1 v1, .mixed M2 N2 p2 v2 => M2 = M1 ∧ N2 = N1 ∧ v2 = v1 ∧ TimesUpTo s M1.rows p1 p2
  | _, _ => False

/-- The second program declares, in any order, the same system (but for the initial state), constraints and costs as the
first one in a unit that is `s` times smaller. -/
structure InUnits [Mul K] (d : Dims) (s : K) (w1 : World K) (p1 : Nat) (w2 : World K) (p2 : Nat) : Prop where
  A : (w2.pss p2).A = (w1.pss p1).A
  B : (w2.pss p2).B = (w1.pss p1).B
  bias : TimesUpTo s d.n (w1.pss p1).d (w2.pss p2).d
  cons : ∃ L, L.Perm w2.ctl.spConstr ∧
    List.Forall₂ (fun i j => (w1.cons i).userData.TimesS d s (w2.cons j).userData) w1.ctl.spConstr L
  costs : ∃ L, L.Perm w2.ctl.spCost ∧
    List.Forall₂ (fun i j => (w1.costs i).userData.TimesS s (w2.costs j).userData) w1.ctl.spCost L

/-- The same initial-state cost and bounds in the smaller unit. -/
structure InitInUnits [Mul K] (d : Dims) (s : K) (l1 l2 : LMPC K) : Prop where
  R : ∀ a < d.n, ∀ b < d.n, l2.R.e a b = l1.R.e a b
  r : TimesUpTo s d.n l1.r l2.r
  x0lb : ExtTimesUpTo s d.n l1.x0lb l2.x0lb
  x0ub : ExtTimesUpTo s d.n l1.x0ub l2.x0ub

end Copra.Spec
