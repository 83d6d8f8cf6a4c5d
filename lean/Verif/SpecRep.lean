import Verif.SpecHist

/-! # Specification vocabulary: two state-space models of the same plant

`T` maps the state `x` of the first model to the state `T x` of the second one.  It need not be invertible or square:
the second model may use other units or coordinates, or leave out states that do not matter. -/

namespace Copra.Spec
variable {K : Type} [Field K]

/-- Data given per step (one block of width `n`) or for all `s` steps (`s` blocks). -/
def blocks (s n cols : Nat) : Nat := if cols = n then 1 else s

/-- The rows of `E2` read from the states `T x` what the rows of `E1` read from the states `x`: `E1 = E2 T`, block by
block. -/
def SeenThrough (n1 n2 N : Nat) (T E1 E2 : Mat K) : Prop :=
  E1.rows = E2.rows ∧ (E1.cols = n1 ↔ E2.cols = n2) ∧
  ∀ r < E1.rows, ∀ k < blocks (N + 1) n1 E1.cols, ∀ j < n1,
    E1.e r (k * n1 + j) = ∑ i ∈ Finset.range n2, E2.e r (k * n2 + i) * T.e i j

/-- Two matrices with `s` blocks of width `m` read the same from the controls. -/
def SameOnControls (m s : Nat) (G1 G2 : Mat K) : Prop :=
  G1.rows = G2.rows ∧ G1.cols = G2.cols ∧
  ∀ r < G1.rows, ∀ k < s, ∀ c < m, G1.e r (k * m + c) = G2.e r (k * m + c)

/-- Two vectors agree on the first `r` entries. -/
def SameUpTo {α : Type} (r : Nat) (f1 f2 : Vec α) : Prop := ∀ i < r, f1.e i = f2.e i

/-- Two declared constraints that say the same about `x` and `T x` (bounds on the state are not covered). -/
def ConstrData.Through (n1 n2 m N : Nat) (T : Mat K) : ConstrData K → ConstrData K → Prop
  | .trajectory q1 E1 f1, .trajectory q2 E2 f2 => q1 = q2 ∧ SeenThrough n1 n2 N T E1 E2 ∧ SameUpTo E1.rows f1 f2
  | .control q1 G1 f1, .control q2 G2 f2 => q1 = q2 ∧ SameOnControls m (blocks N m G1.cols) G1 G2 ∧ SameUpTo G1.rows f1 f2
  | .mixed q1 E1 G1 f1, .mixed q2 E2 G2 f2 =>
    q1 = q2 ∧ SeenThrough n1 n2 N T E1 E2 ∧ SameOnControls m (blocks N n1 E1.cols) G1 G2 ∧ G1.rows = E1.rows ∧
      (E1.cols = n1 → G1.cols = m) ∧
      SameUpTo E1.rows f1 f2
  | .ctrlBound l1 u1, .ctrlBound l2 u2 =>
    l1.rows = l2.rows ∧ SameUpTo (blocks N m l1.rows * m) l1 l2 ∧ SameUpTo (blocks N m l1.rows * m) u1 u2
  | _, _ => False

/-- Two declared costs that say the same about `x` and `T x`. -/
def CostData.Through (n1 n2 m N : Nat) (T : Mat K) : CostData K → CostData K → Prop
  | .trajectory M1 p1 v1, .trajectory M2 p2 v2 => SeenThrough n1 n2 N T M1 M2 ∧ SameUpTo M1.rows p1 p2 ∧ SameUpTo M1.rows v1 v2
  | .target M1 p1 v1, .target M2 p2 v2 =>
    (M1.cols = n1 ∧ SeenThrough n1 n2 N T M1 M2) ∧ SameUpTo M1.rows p1 p2 ∧ SameUpTo M1.rows v1 v2
  | .control N1 p1 v1, .control N2 p2 v2 => SameOnControls m (blocks N m N1.cols) N1 N2 ∧ SameUpTo N1.rows p1 p2 ∧ SameUpTo N1.rows v1 v2
  | .mixed M1 N1 p1 v1, .mixed M2 N2 p2 v2 =>
    SeenThrough n1 n2 N T M1 M2 ∧ SameOnControls m (blocks N n1 M1.cols) N1 N2 ∧ N1.rows = M1.rows ∧
      (M1.cols = n1 → N1.cols = m) ∧
      SameUpTo M1.rows p1 p2 ∧ SameUpTo M1.rows v1 v2
  | _, _ => False

/-- The second program uses another model of the same plant: its system is the image of the first one's under `T`
(`A2 T = T A1`, `B2 = T B1`, `d2 = T d1`, `x2 = T x1`), and its constraints and costs, in any order, say the same about the
states and the controls. -/
structure SameThrough (n1 n2 m N : Nat) (T : Mat K) (w1 : World K) (p1 : Nat) (w2 : World K) (p2 : Nat) : Prop where
  A : ∀ i < n2, ∀ j < n1, ∑ b ∈ Finset.range n2, (w2.pss p2).A.e i b * T.e b j = ∑ a ∈ Finset.range n1, T.e i a * (w1.pss p1).A.e a j
  B : ∀ i < n2, ∀ c < m, (w2.pss p2).B.e i c = ∑ a ∈ Finset.range n1, T.e i a * (w1.pss p1).B.e a c
  bias : ∀ i < n2, (w2.pss p2).d.e i = ∑ a ∈ Finset.range n1, T.e i a * (w1.pss p1).d.e a
  x0 : ∀ i < n2, (w2.pss p2).x0.e i = ∑ a ∈ Finset.range n1, T.e i a * (w1.pss p1).x0.e a
  cons : ∃ L, L.Perm w2.ctl.spConstr ∧
    List.Forall₂ (fun i j => (w1.cons i).userData.Through n1 n2 m N T (w2.cons j).userData) w1.ctl.spConstr L
  costs : ∃ L, L.Perm w2.ctl.spCost ∧
    List.Forall₂ (fun i j => (w1.costs i).userData.Through n1 n2 m N T (w2.costs j).userData) w1.ctl.spCost L

end Copra.Spec
