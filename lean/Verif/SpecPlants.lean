import Verif.SpecHist

/-! # Specification vocabulary: two plants under one controller

Two plants with `n1`, `n2` states and `m1`, `m2` controls are driven by one controller as a single plant with `n1 + n2` states
and `m1 + m2` controls that do not interact. -/

namespace Copra.Spec
variable {K : Type}

/-- The joint dimensions. -/
def bothDims (n1 n2 m1 m2 N : Nat) : Dims := ⟨n1 + n2, m1 + m2, N⟩

/-- The controls `off, ..., off + m - 1` of every step, taken out of a stack with `width` controls per step. -/
def partU (width off m : Nat) (U : Nat → K) (j : Nat) : K := U (j / m * width + (off + j % m))

/-- The components from `off` on of every state. -/
def partX (off : Nat) (X : Nat → Nat → K) (k r : Nat) : K := X k (off + r)

/-- The joint controls of two plants. -/
def bothU (m1 m2 : Nat) (U1 U2 : Nat → K) (j : Nat) : K :=
  if j % (m1 + m2) < m1 then U1 (j / (m1 + m2) * m1 + j % (m1 + m2))
  else U2 (j / (m1 + m2) * m2 + (j % (m1 + m2) - m1))

/-- A matrix whose blocks are the two given ones, without interaction. -/
def Diagonal [Zero K] (r1 r2 c1 c2 : Nat) (M M1 M2 : Mat K) : Prop :=
  (∀ i < r1, ∀ j < c1, M.e i j = M1.e i j) ∧ (∀ i < r2, ∀ j < c2, M.e (r1 + i) (c1 + j) = M2.e i j) ∧
  (∀ i < r1, ∀ j < c2, M.e i (c1 + j) = 0) ∧ ∀ i < r2, ∀ j < c1, M.e (r1 + i) j = 0

/-- Two vectors, one after the other. -/
def Stacked2 (r1 r2 : Nat) (v v1 v2 : Vec K) : Prop := (∀ i < r1, v.e i = v1.e i) ∧ ∀ i < r2, v.e (r1 + i) = v2.e i

section
variable [Field K] [LinearOrder K]

/-- One controller for both plants: the systems do not interact, and, whatever the states and the controls are, the joint
constraints hold exactly when those of both plants hold and the joint costs are the sum of the costs of both plants. -/
structure TwoPlants (n1 n2 m1 m2 N : Nat) (w1 : World K) (p1 : Nat) (w2 : World K) (p2 : Nat) (w : World K) (p : Nat) : Prop where
  A : Diagonal n1 n2 n1 n2 (w.pss p).A (w1.pss p1).A (w2.pss p2).A
  B : Diagonal n1 n2 m1 m2 (w.pss p).B (w1.pss p1).B (w2.pss p2).B
  bias : Stacked2 n1 n2 (w.pss p).d (w1.pss p1).d (w2.pss p2).d
  x0 : Stacked2 n1 n2 (w.pss p).x0 (w1.pss p1).x0 (w2.pss p2).x0
  cons : ∀ (X : Nat → Nat → K) (U : Nat → K),
    (∀ i ∈ w.ctl.spConstr, (w.cons i).userData.Holds (bothDims n1 n2 m1 m2 N) X U) ↔
      (∀ i ∈ w1.ctl.spConstr, (w1.cons i).userData.Holds ⟨n1, m1, N⟩ (partX 0 X) (partU (m1 + m2) 0 m1 U)) ∧
      ∀ i ∈ w2.ctl.spConstr, (w2.cons i).userData.Holds ⟨n2, m2, N⟩ (partX n1 X) (partU (m1 + m2) m1 m2 U)
  costs : ∀ (X : Nat → Nat → K) (U : Nat → K),
    (w.ctl.spCost.map fun i => (w.costs i).userData.value (bothDims n1 n2 m1 m2 N) X U).sum =
      (w1.ctl.spCost.map fun i => (w1.costs i).userData.value ⟨n1, m1, N⟩ (partX 0 X) (partU (m1 + m2) 0 m1 U)).sum +
      (w2.ctl.spCost.map fun i => (w2.costs i).userData.value ⟨n2, m2, N⟩ (partX n1 X) (partU (m1 + m2) m1 m2 U)).sum

/-! ## Constraints and costs on one of the plants -/

/-- `s` blocks of width `wide` that read the components `off, ..., off + w - 1` of each block as `M'` reads blocks of width `w`,
and nothing else. -/
def OnPart (s wide off w : Nat) (M M' : Mat K) : Prop :=
  M'.rows = M.rows ∧ (M'.cols = w ↔ M.cols = wide) ∧
  ∀ r < M.rows, ∀ k < (if M.cols = wide then 1 else s),
    (∀ c < w, M.e r (k * wide + (off + c)) = M'.e r (k * w + c)) ∧
    ∀ c < wide, (c < off ∨ off + w ≤ c) → M.e r (k * wide + c) = 0

/-- A constraint on the plant with `p.n` states and `p.m` controls, which come after `so` states and `uo` controls of other
plants. -/
def ConstrData.OnPlant (d p : Dims) (so uo : Nat) : ConstrData K → ConstrData K → Prop
  | .trajectory q E f, .trajectory q' E' f' => q' = q ∧ OnPart (d.N + 1) d.n so p.n E E' ∧ f' = f
  | .control q G f, .control q' G' f' => q' = q ∧ OnPart d.N d.m uo p.m G G' ∧ f' = f
  | .mixed q E G f, .mixed q' E' G' f' =>
    q' = q ∧ OnPart (d.N + 1) d.n so p.n E E' ∧ OnPart d.N d.m uo p.m G G' ∧ G.rows = E.rows ∧
      (E.cols = d.n ↔ G.cols = d.m) ∧ f' = f
  | _, _ => False

/-- A cost on one plant. -/
def CostData.OnPlant (d p : Dims) (so uo : Nat) : CostData K → CostData K → Prop
  | .trajectory M r v, .trajectory M' r' v' => OnPart (d.N + 1) d.n so p.n M M' ∧ r' = r ∧ v' = v
  | .target M r v, .target M' r' v' => M.cols = d.n ∧ OnPart (d.N + 1) d.n so p.n M M' ∧ r' = r ∧ v' = v
  | .control C r v, .control C' r' v' => OnPart d.N d.m uo p.m C C' ∧ r' = r ∧ v' = v
  | .mixed M C r v, .mixed M' C' r' v' =>
    OnPart (d.N + 1) d.n so p.n M M' ∧ OnPart d.N d.m uo p.m C C' ∧ C.rows = M.rows ∧ (M.cols = d.n ↔ C.cols = d.m) ∧
      r' = r ∧ v' = v
  | _, _ => False

end

end Copra.Spec
