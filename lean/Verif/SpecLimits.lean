import Verif.Spec

/-! # The limits that a plan touches (C112) -/

namespace Copra.Spec

variable {K : Type} [Field K]

/-- The constraint has a limit at step `k` and row `r` (for bounds: component `r`, `up` tells the upper limit from the lower
one), and the trajectory and controls are exactly at it. For full-size data the rows are not attached to a step and `k`
is not used. The limits of an equality constraint are touched whenever it holds. -/
def ConstrData.Touches (d : Dims) (X : Nat → Nat → K) (U : Nat → K) (k r : Nat) (up : Bool) : ConstrData K → Prop
  | .trajectory _ E f => r < E.rows ∧
    if E.cols = d.n then k ≤ d.N ∧ Ext.fin (∑ c ∈ Finset.range d.n, E.e r c * X k c) = f.e r
    else Ext.fin (∑ k ∈ Finset.range (d.N + 1), ∑ c ∈ Finset.range d.n, E.e r (k * d.n + c) * X k c) = f.e r
  | .control _ G f => r < G.rows ∧
    if G.cols = d.m then k < d.N ∧ Ext.fin (∑ c ∈ Finset.range d.m, G.e r c * ctrl d U k c) = f.e r
    else Ext.fin (∑ k ∈ Finset.range d.N, ∑ c ∈ Finset.range d.m, G.e r (k * d.m + c) * ctrl d U k c) = f.e r
  | .mixed _ E G f => r < E.rows ∧
    if E.cols = d.n ∧ G.cols = d.m then k < d.N ∧
      Ext.fin ((∑ c ∈ Finset.range d.n, E.e r c * X k c) + ∑ c ∈ Finset.range d.m, G.e r c * ctrl d U k c) = f.e r
    else Ext.fin ((∑ k ∈ Finset.range (d.N + 1), ∑ c ∈ Finset.range d.n, E.e r (k * d.n + c) * X k c)
      + ∑ k ∈ Finset.range d.N, ∑ c ∈ Finset.range d.m, G.e r (k * d.m + c) * ctrl d U k c) = f.e r
  | .trajBound l u => k ≤ d.N ∧ r < d.n ∧
    Ext.fin (X k r) = (if up then u else l).e (if l.rows = d.n then r else k * d.n + r)
  | .ctrlBound l u => k < d.N ∧ r < d.m ∧
    Ext.fin (ctrl d U k r) = (if up then u else l).e (if l.rows = d.m then r else k * d.m + r)

/-- The two pairs of a trajectory and controls touch the same limits of the constraint. -/
def ConstrData.SameTouched (d : Dims) (X : Nat → Nat → K) (U : Nat → K) (Y : Nat → Nat → K) (V : Nat → K) (D : ConstrData K) : Prop :=
  ∀ k r up, D.Touches d X U k r up ↔ D.Touches d Y V k r up

end Copra.Spec
