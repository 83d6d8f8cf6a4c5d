import Verif.Model.Constraints
import Verif.Spec
import Verif.Proofs.PreviewSystem

/-! # Constraint rows as linear functionals of the stacked trajectory and controls -/

namespace Copra
open Spec

variable {K : Type} [Field K]

/-! ## Extended scalars -/

theorem Ext.fin_le_sub [LinearOrder K] [IsStrictOrderedRing K] {a y : K} {z : Ext K} :
    Ext.fin a ≤ z.sub y ↔ Ext.fin (a + y) ≤ z := by
  cases z with
  | ninf => exact Iff.rfl
  | pinf => exact Iff.rfl
  | fin k =>
    show a ≤ k - y ↔ a + y ≤ k
    exact le_sub_iff_add_le

theorem Ext.fin_eq_sub {a y : K} {z : Ext K} :
    Ext.fin a = z.sub y ↔ Ext.fin (a + y) = z := by
  cases z with
  | ninf => simp [Ext.sub]
  | pinf => simp [Ext.sub]
  | fin k =>
    simp only [Ext.sub, Ext.fin.injEq]
    exact eq_sub_iff_add_eq

theorem rel_sub [LinearOrder K] [IsStrictOrderedRing K] {q : Bool} {a y : K} {z : Ext K} :
    Rel q a (z.sub y) ↔ Rel q (a + y) z := by
  cases q
  · exact Ext.fin_eq_sub
  · exact Ext.fin_le_sub

/-! ## Rows -/

/-- A scalar constraint on the stacked trajectory and controls: coefficients of the stacked state,
coefficients of the stacked controls, right-hand side. -/
structure Row (K : Type) where
  a : Nat → K
  b : Nat → K
  rhs : Ext K

/-- Left-hand side of a row on a trajectory and controls. -/
def Row.lhs (d : Dims) (ρ : Row K) (X : Nat → Nat → K) (U : Nat → K) : K :=
  (∑ k ∈ Finset.range (d.N + 1), ∑ c ∈ Finset.range d.n, ρ.a (k * d.n + c) * X k c)
    + ∑ j ∈ Finset.range (d.m * d.N), ρ.b j * U j

/-- Row `i` of the constraint's matrices is `ρ` with the prediction substituted for the state. -/
structure RowIs (d : Dims) (ps : PreviewSystem K) (c : Constr K) (i : Nat) (ρ : Row K) : Prop where
  A : ∀ j < d.m * d.N, c.A.e i j =
    (∑ s ∈ Finset.range (d.n * (d.N + 1)), ρ.a s * ps.Psi.e s j) + ρ.b j
  Y : ∀ j < d.n, c.Y.e i j = ∑ s ∈ Finset.range (d.n * (d.N + 1)), ρ.a s * ps.Phi.e s j
  z : c.z.e i = ρ.rhs.sub (∑ s ∈ Finset.range (d.n * (d.N + 1)), ρ.a s * ps.xi.e s)
  b : c.b.e i = (c.z.e i).sub (∑ j ∈ Finset.range d.n, c.Y.e i j * ps.x0.e j)

/-- Row value with a free initial state. -/
def Constr.rowXU (d : Dims) (c : Constr K) (x U : Nat → K) (i : Nat) : K :=
  (∑ j ∈ Finset.range d.n, c.Y.e i j * x j) + ∑ j ∈ Finset.range (d.m * d.N), c.A.e i j * U j

theorem sum_mul_swap {S T : Finset Nat} (a : Nat → K) (f : Nat → Nat → K) (u : Nat → K) :
    (∑ j ∈ T, (∑ s ∈ S, a s * f s j) * u j) = ∑ s ∈ S, a s * ∑ j ∈ T, f s j * u j := by
  simp only [Finset.sum_mul, Finset.mul_sum]
  rw [Finset.sum_comm]
  apply Finset.sum_congr rfl; intro s _
  apply Finset.sum_congr rfl; intro j _
  ring

theorem RowIs.value {d : Dims} {ps : PreviewSystem K} {c : Constr K} {i : Nat} {ρ : Row K}
    (h : RowIs d ps c i ρ) (x U : Nat → K) :
    c.rowXU d x U i + ∑ s ∈ Finset.range (d.n * (d.N + 1)), ρ.a s * ps.xi.e s =
      ρ.lhs d (predC d ps x U) U := by
  unfold Constr.rowXU Row.lhs
  have e1 : ∑ j ∈ Finset.range d.n, c.Y.e i j * x j =
      ∑ s ∈ Finset.range (d.n * (d.N + 1)), ρ.a s * ∑ j ∈ Finset.range d.n, ps.Phi.e s j * x j := by
    rw [← sum_mul_swap]
    apply Finset.sum_congr rfl
    intro j hj
    rw [h.Y j (Finset.mem_range.1 hj)]
  have e2 : ∑ j ∈ Finset.range (d.m * d.N), c.A.e i j * U j =
      (∑ s ∈ Finset.range (d.n * (d.N + 1)), ρ.a s *
        ∑ j ∈ Finset.range (d.m * d.N), ps.Psi.e s j * U j)
      + ∑ j ∈ Finset.range (d.m * d.N), ρ.b j * U j := by
    rw [← sum_mul_swap, ← Finset.sum_add_distrib]
    apply Finset.sum_congr rfl
    intro j hj
    rw [h.A j (Finset.mem_range.1 hj)]
    ring
  have e3 : ∑ k ∈ Finset.range (d.N + 1), ∑ c ∈ Finset.range d.n,
      ρ.a (k * d.n + c) * predC d ps x U k c =
      ∑ s ∈ Finset.range (d.n * (d.N + 1)), ρ.a s *
        ((∑ j ∈ Finset.range d.n, ps.Phi.e s j * x j)
        + (∑ j ∈ Finset.range (d.m * d.N), ps.Psi.e s j * U j) + ps.xi.e s) := by
    rw [sum_blk']
    rfl
  rw [e1, e2, e3]
  simp only [mul_add, Finset.sum_add_distrib]
  ring

/-- The joint row (initial state free) says exactly `ρ`. -/
theorem RowIs.rel_z [LinearOrder K] [IsStrictOrderedRing K] {d : Dims} {ps : PreviewSystem K}
    {c : Constr K} {i : Nat} {ρ : Row K} (h : RowIs d ps c i ρ) (q : Bool) (x U : Nat → K) :
    Rel q (c.rowXU d x U i) (c.z.e i) ↔ Rel q (ρ.lhs d (predC d ps x U) U) ρ.rhs := by
  rw [h.z, rel_sub, h.value]

/-- The row for the system's initial state says exactly `ρ`. -/
theorem RowIs.rel_b [LinearOrder K] [IsStrictOrderedRing K] {d : Dims} {ps : PreviewSystem K}
    {c : Constr K} {i : Nat} {ρ : Row K} (h : RowIs d ps c i ρ) (q : Bool) (U : Nat → K) :
    Rel q (∑ j ∈ Finset.range (d.m * d.N), c.A.e i j * U j) (c.b.e i) ↔
      Rel q (ρ.lhs d (predC d ps ps.x0.e U) U) ρ.rhs := by
  rw [h.b, rel_sub, ← h.rel_z]
  unfold Constr.rowXU
  rw [add_comm]

/-- The left-hand side only reads the trajectory at steps `0..N` and components `< n`. -/
theorem Row.lhs_congr {d : Dims} {ρ : Row K} {X X' : Nat → Nat → K} {U : Nat → K}
    (h : ∀ k ≤ d.N, ∀ r < d.n, X k r = X' k r) : ρ.lhs d X U = ρ.lhs d X' U := by
  unfold Row.lhs
  congr 1
  apply Finset.sum_congr rfl; intro k hk
  apply Finset.sum_congr rfl; intro c hc
  rw [h k (by have := Finset.mem_range.1 hk; omega) c (Finset.mem_range.1 hc)]

/-! ## Block-supported coefficients -/

/-- Sum against coefficients supported on block `k`. -/
theorem sum_block_ite {M n k : Nat} (hk : k < M) (g : Nat → K) (F : Nat → K) :
    (∑ s ∈ Finset.range (n * M), (if s / n = k then g (s % n) else 0) * F s) =
      ∑ c ∈ Finset.range n, g c * F (k * n + c) := by
  rw [sum_blk', Finset.sum_eq_single k]
  · apply Finset.sum_congr rfl; intro c hc
    rw [blk_div (Finset.mem_range.1 hc), blk_mod (Finset.mem_range.1 hc), if_pos rfl]
  · intro b _ hb
    apply Finset.sum_eq_zero; intro c hc
    rw [blk_div (Finset.mem_range.1 hc), if_neg hb, zero_mul]
  · intro h; exact absurd (Finset.mem_range.2 hk) h

theorem sum_block_ite2 {M n k : Nat} (hk : k < M) (g : Nat → K) (X : Nat → Nat → K) :
    (∑ l ∈ Finset.range M, ∑ c ∈ Finset.range n,
      (if (l * n + c) / n = k then g ((l * n + c) % n) else 0) * X l c) =
      ∑ c ∈ Finset.range n, g c * X k c := by
  rw [Finset.sum_eq_single k]
  · apply Finset.sum_congr rfl; intro c hc
    rw [blk_div (Finset.mem_range.1 hc), blk_mod (Finset.mem_range.1 hc), if_pos rfl]
  · intro b _ hb
    apply Finset.sum_eq_zero; intro c hc
    rw [blk_div (Finset.mem_range.1 hc), if_neg hb, zero_mul]
  · intro h; exact absurd (Finset.mem_range.2 hk) h

/-- Sum against a unit coefficient. -/
theorem sum_unit {M s : Nat} (hs : s < M) (F : Nat → K) :
    (∑ t ∈ Finset.range M, (if t = s then 1 else 0) * F t) = F s := by
  rw [Finset.sum_eq_single s]
  · simp
  · intro b _ hb; simp [hb]
  · intro h; exact absurd (Finset.mem_range.2 hs) h

end Copra
