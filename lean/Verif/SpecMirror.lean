import Verif.SpecHist

/-! # Specification vocabulary: symmetry (C108)

A mirror image exchanges the controls of each step and changes the signs of some of them, and maps the state `x` to `T x`. -/

namespace Copra.Spec
variable {K : Type} [Field K]

/-- The mirror image of a control sequence: at every step, component `c` is `σ c` times component `π c`. -/
def mirrorU (m : Nat) (π : Equiv.Perm Nat) (σ : Nat → K) (U : Nat → K) (j : Nat) : K :=
  σ (j % m) * U (j / m * m + π (j % m))

/-- `X2` is the mirror image of the states `X1`. -/
def MirrorX (d : Dims) (T : Mat K) (X1 X2 : Nat → Nat → K) : Prop :=
  ∀ k ≤ d.N, ∀ i < d.n, X2 k i = ∑ j ∈ Finset.range d.n, T.e i j * X1 k j

/-- The second program declares the mirror image of what the first one declares: controls are exchanged by the permutation
`π` of the `m` components and multiplied by the signs `σ`; the dynamics map `x` to `T x`; a control sequence and its states
satisfy the first program's constraints exactly when their mirror images satisfy the second program's, and have the same
cost; and either both or neither bound the controls. -/
structure Mirrored [LinearOrder K] (d : Dims) (π : Equiv.Perm Nat) (σ : Nat → K) (T : Mat K) (w1 : World K) (p1 : Nat) (w2 : World K) (p2 : Nat) :
    Prop where
  perm : ∀ c, π c < d.m ↔ c < d.m
  sign : ∀ c, σ c = 1 ∨ σ c = -1
  A : ∀ i < d.n, ∀ j < d.n, ∑ b ∈ Finset.range d.n, (w2.pss p2).A.e i b * T.e b j =
    ∑ a ∈ Finset.range d.n, T.e i a * (w1.pss p1).A.e a j
  B : ∀ i < d.n, ∀ c < d.m, (w2.pss p2).B.e i c * σ c = ∑ a ∈ Finset.range d.n, T.e i a * (w1.pss p1).B.e a (π c)
  bias : ∀ i < d.n, (w2.pss p2).d.e i = ∑ a ∈ Finset.range d.n, T.e i a * (w1.pss p1).d.e a
  cons : ∀ X1 X2, MirrorX d T X1 X2 → ∀ U,
    ((∀ i ∈ w2.ctl.spConstr, (w2.cons i).userData.Holds d X2 (mirrorU d.m π σ U)) ↔
      ∀ i ∈ w1.ctl.spConstr, (w1.cons i).userData.Holds d X1 U)
  costs : ∀ X1 X2, MirrorX d T X1 X2 → ∀ U,
    (w2.ctl.spCost.map fun i => (w2.costs i).userData.value d X2 (mirrorU d.m π σ U)).sum =
      (w1.ctl.spCost.map fun i => (w1.costs i).userData.value d X1 U).sum
  bounded : (∃ i ∈ w2.ctl.spConstr, ∃ l u, (w2.cons i).userData = .ctrlBound l u) ↔
    ∃ i ∈ w1.ctl.spConstr, ∃ l u, (w1.cons i).userData = .ctrlBound l u

/-- The second program starts at the mirror image of the state at which the first one starts. -/
def MirrorStart (d : Dims) (T : Mat K) (x1 x2 : Nat → K) : Prop :=
  ∀ i < d.n, x2 i = ∑ j ∈ Finset.range d.n, T.e i j * x1 j

end Copra.Spec
