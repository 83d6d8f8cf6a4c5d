import Verif.SpecHist

/-! # Specification vocabulary: other references in the same costs (C111) -/

namespace Copra.Spec
variable {K : Type}

/-- The same cost but for its reference. -/
def CostData.SameButRef : CostData K → CostData K → Prop
  | .trajectory M1 _ v1, .trajectory M2 _ v2 => M1 = M2 ∧ v1 = v2
  | .target M1 _ v1, .target M2 _ v2 => M1 = M2 ∧ v1 = v2
  | .control N1 _ v1, .control N2 _ v2 => N1 = N2 ∧ v1 = v2
  | .mixed M1 N1 _ v1, .mixed M2 N2 _ v2 => M1 = M2 ∧ N1 = N2 ∧ v1 = v2
  | _, _ => False

/-- The reference. -/
def CostData.ref : CostData K → Vec K
  | .trajectory _ p _ | .target _ p _ | .control _ p _ | .mixed _ _ p _ => p

/-- The weights. -/
def CostData.wts : CostData K → Vec K
  | .trajectory _ _ w | .target _ _ w | .control _ _ w | .mixed _ _ _ w => w

/-- How many outputs are compared with the reference at a time. -/
def CostData.outputs : CostData K → Nat
  | .trajectory M _ _ | .target M _ _ | .mixed M _ _ _ => M.rows
  | .control N _ _ => N.rows

/-- How often the reference is used: at every step for a cost given per step, otherwise once. -/
def CostData.times (d : Dims) : CostData K → Nat
  | .trajectory M _ _ => if M.cols = d.n then d.N + 1 else 1
  | .target _ _ _ => 1
  | .control N _ _ => if N.cols = d.m then d.N else 1
  | .mixed M N _ _ => if M.cols = d.n ∧ N.cols = d.m then d.N else 1

/-- The same cost with the reference 0. -/
def CostData.homogeneous [Zero K] : CostData K → CostData K
  | .trajectory M p w => .trajectory M ⟨p.rows, fun _ => 0⟩ w
  | .target M p w => .target M ⟨p.rows, fun _ => 0⟩ w
  | .control N p w => .control N ⟨p.rows, fun _ => 0⟩ w
  | .mixed M N p w => .mixed M N ⟨p.rows, fun _ => 0⟩ w

section
variable [Field K]

/-- By how much the references differ: the weighted squared distance, as often as the reference is used. -/
def refMoved (d : Dims) (D1 D2 : CostData K) : K :=
  (D1.times d : K) * ∑ r ∈ Finset.range D1.outputs, D1.wts.e r * (D1.ref.e r - D2.ref.e r) ^ 2

/-- By how much the outputs that the cost compares with its reference differ between two plans: their weighted squared
distance, summed like the cost itself. -/
def outputsMoved (d : Dims) (D : CostData K) (X Y : Nat → Nat → K) (U V : Nat → K) : K :=
  D.homogeneous.value d (fun k r => X k r - Y k r) (fun j => U j - V j)

end

/-- Two programs that declare the same system, initial state and constraints, in any order; `l` pairs their costs, which differ
in their references only. -/
structure Retargeted (w1 : World K) (p1 : Nat) (w2 : World K) (p2 : Nat) (l : List (CostData K × CostData K)) : Prop where
  A : (w1.pss p1).A = (w2.pss p2).A
  B : (w1.pss p1).B = (w2.pss p2).B
  bias : (w1.pss p1).d = (w2.pss p2).d
  x0 : (w1.pss p1).x0 = (w2.pss p2).x0
  cons : (w1.ctl.spConstr.map fun i => (w1.cons i).userData).Perm (w2.ctl.spConstr.map fun i => (w2.cons i).userData)
  costs1 : (w1.ctl.spCost.map fun i => (w1.costs i).userData).Perm (l.map fun c => c.1)
  costs2 : (w2.ctl.spCost.map fun i => (w2.costs i).userData).Perm (l.map fun c => c.2)
  pairs : ∀ c ∈ l, c.1.SameButRef c.2

end Copra.Spec
