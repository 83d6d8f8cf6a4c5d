import Verif.SpecHist

/-! # Specification vocabulary: two horizons (C107) -/

namespace Copra.Spec
variable {K : Type} [Field K]

/-- The second controller plans further ahead than the first one: the same system, initial state, constraints and costs
(in any order), the constraints given per step and the costs given per step without a target cost, and a horizon that is
at least as long. -/
structure Longer (d d' : Dims) (w1 : World K) (p1 : Nat) (w2 : World K) (p2 : Nat) : Prop where
  n : d'.n = d.n
  m : d'.m = d.m
  N : d.N ≤ d'.N
  A : (w1.pss p1).A = (w2.pss p2).A
  B : (w1.pss p1).B = (w2.pss p2).B
  bias : (w1.pss p1).d = (w2.pss p2).d
  x0 : ∀ r < d.n, (w1.pss p1).x0.e r = (w2.pss p2).x0.e r
  cons : (w1.ctl.spConstr.map fun i => (w1.cons i).userData).Perm (w2.ctl.spConstr.map fun i => (w2.cons i).userData)
  costs : (w1.ctl.spCost.map fun i => (w1.costs i).userData).Perm (w2.ctl.spCost.map fun i => (w2.costs i).userData)
  consStep : ∀ i ∈ w1.ctl.spConstr, (w1.cons i).userData.PerStep d
  costsStep : ∀ i ∈ w1.ctl.spCost, (w1.costs i).userData.SizedOnAdd d

end Copra.Spec
