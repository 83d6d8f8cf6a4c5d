import Verif.SpecHist

/-! # Specification vocabulary: turning a weight (C109) -/

namespace Copra.Spec
variable {K : Type}

/-- The same cost with all its weights multiplied by `a`. -/
def CostData.scaled [Mul K] (a : K) : CostData K → CostData K
  | .trajectory M p w => .trajectory M p ⟨w.rows, fun r => a * w.e r⟩
  | .target M p w => .target M p ⟨w.rows, fun r => a * w.e r⟩
  | .control N p w => .control N p ⟨w.rows, fun r => a * w.e r⟩
  | .mixed M N p w => .mixed M N p ⟨w.rows, fun r => a * w.e r⟩

/-- Two programs that declare the same system, initial state, constraints and costs, in any order, except that the first one
weighs the cost `D` by `a` and the second one by `b`; `rest` are the other costs. -/
structure Turned [Field K] (w1 : World K) (p1 : Nat) (w2 : World K) (p2 : Nat) (D : CostData K) (a b : K) (rest : List (CostData K)) :
    Prop where
  A : (w1.pss p1).A = (w2.pss p2).A
  B : (w1.pss p1).B = (w2.pss p2).B
  bias : (w1.pss p1).d = (w2.pss p2).d
  x0 : (w1.pss p1).x0 = (w2.pss p2).x0
  cons : (w1.ctl.spConstr.map fun i => (w1.cons i).userData).Perm (w2.ctl.spConstr.map fun i => (w2.cons i).userData)
  costs1 : (w1.ctl.spCost.map fun i => (w1.costs i).userData).Perm (D.scaled a :: rest)
  costs2 : (w2.ctl.spCost.map fun i => (w2.costs i).userData).Perm (D.scaled b :: rest)

/-- Half the sum of the given costs of the controls `U` under the system of the program, plus the regularisation. -/
def restCost [Field K] (d : Dims) (w : World K) (p : Nat) (rest : List (CostData K)) (U : Nat → K) : K :=
  1 / 2 * (rest.map fun D => D.value d (traj d w p U) U).sum
    + 1 / 2 * (1 / 1000000) * ∑ j ∈ Finset.range (d.m * d.N), U j ^ 2

end Copra.Spec
