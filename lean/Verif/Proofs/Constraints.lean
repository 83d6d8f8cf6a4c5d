import Verif.Proofs.Rows

/-! # `initializeConstraint` and `update`: in bounds, and closed form of the rows -/

namespace Copra
open Spec

set_option linter.unusedSectionVars false

variable {K : Type} [Field K]

namespace Constr

/-- Sizes of the matrices a row constraint allocates. -/
structure RowSizes (d : Dims) (c : Constr K) : Prop where
  Ar : c.A.rows = c.nrConstr
  Ac : c.A.cols = d.m * d.N
  br : c.b.rows = c.nrConstr
  Yr : c.Y.rows = c.nrConstr
  Yc : c.Y.cols = d.n
  zr : c.z.rows = c.nrConstr

/-- A trajectory constraint accepted for dimensions `d`. -/
structure RegTrajectory (d : Dims) (c : Constr K) : Prop where
  sizes : RowSizes d c
  rows : c.f.rows = c.E.rows
  dims : if c.fullSizeEntry then c.E.cols ≠ d.n ∧ c.E.cols = d.n * (d.N + 1) ∧ c.nrConstr = c.E.rows
    else c.E.cols = d.n ∧ c.nrConstr = c.E.rows * (d.N + 1)

/-- A control constraint accepted for dimensions `d`.  Full-size data has been moved to `A_`, `b_`;
per-step rows outside the block diagonal are zero. -/
structure RegControl (d : Dims) (c : Constr K) : Prop where
  sizes : RowSizes d c
  init : c.hasBeenInitialized = true
  dims : if c.fullSizeEntry then c.A.cols ≠ d.m ∧ c.f.rows = c.G.rows ∧
      (∀ i < c.nrConstr, ∀ j < d.n, c.Y.e i j = 0) ∧
      ∀ i < c.nrConstr, c.z.e i = c.b.e i
    else c.G.cols = d.m ∧ c.f.rows = c.G.rows ∧ c.nrConstr = c.G.rows * d.N ∧
      ∀ k < d.N, ∀ r < c.G.rows, ∀ j < d.N, ∀ t < d.m, k ≠ j → c.A.e (k * c.G.rows + r) (j * d.m + t) = 0

/-- A mixed constraint accepted for dimensions `d`; per-step rows right of the block diagonal are zero. -/
structure RegMixed (d : Dims) (c : Constr K) : Prop where
  sizes : RowSizes d c
  rows : c.f.rows = c.E.rows
  rowsG : c.G.rows = c.E.rows
  dims : if c.fullSizeEntry then ¬ (c.E.cols = d.n ∧ c.G.cols = d.m) ∧ c.E.cols = d.n * (d.N + 1) ∧
      c.G.cols = d.m * d.N ∧ c.nrConstr = c.E.rows
    else c.E.cols = d.n ∧ c.G.cols = d.m ∧ c.nrConstr = c.E.rows * d.N ∧
      ∀ k < d.N, ∀ r < c.E.rows, ∀ j < d.N, ∀ t < d.m, k < j → c.A.e (k * c.E.rows + r) (j * d.m + t) = 0

/-- The recorded lines exist. -/
def LinesOk (c : Constr K) : Prop :=
  (∀ l ∈ c.lowerLines, l < c.lower.rows) ∧ ∀ l ∈ c.upperLines, l < c.upper.rows

/-- Number of steps over which a trajectory bound constraint writes its lines. -/
def boundSteps (d : Dims) (c : Constr K) : Nat := if c.fullSizeEntry then 1 else d.N + 1

/-- A trajectory bound constraint accepted for dimensions `d`. -/
structure RegTrajBound (d : Dims) (c : Constr K) : Prop where
  sizes : RowSizes d c
  rows : c.upper.rows = c.lower.rows
  lines : LinesOk c
  dims : if c.fullSizeEntry then c.lower.rows ≠ d.n ∧ c.lower.rows = d.n * (d.N + 1) else c.lower.rows = d.n
  nr : c.nrConstr = (c.lowerLines.length + c.upperLines.length) * boundSteps d c

/-- A control bound constraint accepted for dimensions `d`. -/
structure RegCtrlBound (d : Dims) (c : Constr K) : Prop where
  init : c.hasBeenInitialized = true
  nr : c.nrConstr = d.m * d.N
  lbr : c.lb.rows = d.m * d.N
  ubr : c.ub.rows = d.m * d.N
  rows : c.upper.rows = c.lower.rows
  dims : if c.fullSizeEntry then d.m * d.N ≠ d.m else c.lower.rows = d.m

/-- A constraint accepted for dimensions `d` (and possibly updated since). -/
def Reg (d : Dims) (c : Constr K) : Prop :=
  match c.kind with
  | .trajectory => RegTrajectory d c
  | .control => RegControl d c
  | .mixed => RegMixed d c
  | .trajBound => RegTrajBound d c
  | .ctrlBound => RegCtrlBound d c

/-- Coefficients of a per-step block row. -/
def blockRow (w : Nat) (M : Mat K) (i : Nat) : Nat → K :=
  fun s => if s / w = i / M.rows then M.e (i % M.rows) (s % w) else 0

/-- The unit coefficients of line `l` of step `k`. -/
def unitRow (n l k : Nat) : Nat → K := fun s => if s = l + n * k then 1 else 0

/-- Row `i` of a constraint, read off the user's data. -/
def row (d : Dims) (c : Constr K) (i : Nat) : Row K :=
  match c.kind with
  | .trajectory =>
    if c.fullSizeEntry then ⟨c.E.e i, fun _ => 0, c.f.e i⟩
    else ⟨blockRow d.n c.E i, fun _ => 0, c.f.e (i % c.E.rows)⟩
  | .control =>
    if c.fullSizeEntry then ⟨fun _ => 0, c.A.e i, c.b.e i⟩
    else ⟨fun _ => 0, blockRow d.m c.G i, c.f.e (i % c.G.rows)⟩
  | .mixed =>
    if c.fullSizeEntry then ⟨c.E.e i, c.G.e i, c.f.e i⟩
    else ⟨blockRow d.n c.E i, blockRow d.m c.G i, c.f.e (i % c.E.rows)⟩
  | .trajBound =>
    let L := c.lowerLines.length
    let i' := i - L * boundSteps d c
    let L' := c.upperLines.length
    if i < L * boundSteps d c then
      ⟨unitRow d.n (c.lowerLines.getD (i % L) 0) (i / L), fun _ => 0,
        c.lower.e (c.lowerLines.getD (i % L) 0)⟩
    else
      ⟨unitRow d.n (c.upperLines.getD (i' % L') 0) (i' / L'), fun _ => 0,
        c.upper.e (c.upperLines.getD (i' % L') 0)⟩
  | .ctrlBound => ⟨fun _ => 0, fun _ => 0, .pinf⟩

/-- Only `A_`, `b_`, `Y_`, `z_` may differ. -/
def Same (c c' : Constr K) : Prop := c' = { c with A := c'.A, b := c'.b, Y := c'.Y, z := c'.z }

theorem Same.refl (c : Constr K) : Same c c := rfl

theorem Same.trans {c c' c'' : Constr K} (h : Same c c') (h' : Same c' c'') : Same c c'' := by
  unfold Same at *
  rw [h']
  conv => lhs; rw [h]

section same
variable {c c' : Constr K}
theorem Same.kind (h : Same c c') : c'.kind = c.kind := by rw [h]
theorem Same.isIneq (h : Same c c') : c'.isIneq = c.isIneq := by rw [h]
theorem Same.nrConstr (h : Same c c') : c'.nrConstr = c.nrConstr := by rw [h]
theorem Same.full (h : Same c c') : c'.fullSizeEntry = c.fullSizeEntry := by rw [h]
theorem Same.hbi (h : Same c c') : c'.hasBeenInitialized = c.hasBeenInitialized := by rw [h]
theorem Same.E (h : Same c c') : c'.E = c.E := by rw [h]
theorem Same.G (h : Same c c') : c'.G = c.G := by rw [h]
theorem Same.f (h : Same c c') : c'.f = c.f := by rw [h]
theorem Same.lower (h : Same c c') : c'.lower = c.lower := by rw [h]
theorem Same.upper (h : Same c c') : c'.upper = c.upper := by rw [h]
theorem Same.lowerLines (h : Same c c') : c'.lowerLines = c.lowerLines := by rw [h]
theorem Same.upperLines (h : Same c c') : c'.upperLines = c.upperLines := by rw [h]
theorem Same.lb (h : Same c c') : c'.lb = c.lb := by rw [h]
theorem Same.ub (h : Same c c') : c'.ub = c.ub := by rw [h]
end same

/-! ## Common row writers -/

theorem updateStepYzb_ok {d : Dims} {ps : PreviewSystem K} {c : Constr K} {i M : Nat}
    (S : SysShape d ps) (hx : ps.x0.rows = d.n) (hi : i < d.N + 1) (hM : i < M)
    (hEc : c.E.cols = d.n) (hf : c.f.rows = c.E.rows) (hYr : c.Y.rows = c.E.rows * M)
    (hYc : c.Y.cols = d.n) (hzr : c.z.rows = c.E.rows * M) (hbr : c.b.rows = c.E.rows * M) :
    Ok (updateStepYzb ps i c) fun c' => c' = { c with Y := c'.Y, z := c'.z, b := c'.b } ∧
      c'.Y.rows = c.Y.rows ∧ c'.Y.cols = c.Y.cols ∧ c'.z.rows = c.z.rows ∧ c'.b.rows = c.b.rows ∧
      ∀ k, ∀ r < c.E.rows,
        (∀ j < d.n, c'.Y.e (k * c.E.rows + r) j = if k = i
          then ∑ t ∈ Finset.range d.n, c.E.e r t * ps.Phi.e (i * d.n + t) j
          else c.Y.e (k * c.E.rows + r) j) ∧
        (c'.z.e (k * c.E.rows + r) = if k = i
          then (c.f.e r).sub (∑ t ∈ Finset.range d.n, c.E.e r t * ps.xi.e (i * d.n + t))
          else c.z.e (k * c.E.rows + r)) ∧
        (c'.b.e (k * c.E.rows + r) = if k = i
          then (c'.z.e (k * c.E.rows + r)).sub
            (∑ j ∈ Finset.range d.n, c'.Y.e (k * c.E.rows + r) j * ps.x0.e j)
          else c.b.e (k * c.E.rows + r)) := by
  have b1 := blk_le' (n := d.n) hi
  have b2 := blk_le' (n := c.E.rows) hM
  unfold updateStepYzb
  simp only [S.xDim]
  apply Ok.bind; apply Ok.block? (by rw [S.Phir]; exact b1) (by rw [S.Phic]; omega)
  apply Ok.bind; apply Ok.mul? (by simp [hEc])
  apply Ok.bind; apply Ok.setBlock? (by rw [hYr]; exact b2) (by rw [hYc]; omega) (by simp) (by simp)
  apply Ok.bind; apply Ok.segment? (by rw [S.xir]; exact b1)
  apply Ok.bind; apply Ok.mulVec? (by simp [hEc])
  apply Ok.bind; apply Ok.subFin? (by simp [hf])
  apply Ok.bind; apply Ok.setSegment? (by rw [hzr]; exact b2) (by simp [hf])
  apply Ok.bind; apply Ok.segment? (by simp only [Vec.setSegment_rows]; rw [hzr]; exact b2)
  apply Ok.bind; apply Ok.block? (by simp only [Mat.setBlock_rows]; rw [hYr]; exact b2)
    (by simp only [Mat.setBlock_cols]; rw [hYc]; omega)
  apply Ok.bind; apply Ok.mulVec? (by simp [hx])
  apply Ok.bind; apply Ok.subFin? (by simp)
  apply Ok.bind; apply Ok.setSegment? (by rw [hbr]; exact b2) (by simp)
  apply Ok.pure'
  refine ⟨rfl, rfl, rfl, rfl, rfl, ?_⟩
  intro k r hr
  refine ⟨?_, ?_, ?_⟩
  · intro j hj
    show (c.Y.setBlock (i * c.E.rows) 0 c.E.rows d.n _).e _ _ = _
    rw [setBlock_rowblk _ _ hr hj]
    split
    · rw [Mat.mul_e, hEc]
      simp
    · rfl
  · show (c.z.setSegment (i * c.E.rows) c.E.rows _).e _ = _
    rw [setSegment_blk _ _ hr]
    split
    · rw [Vec.subFin_e, Mat.mulVec_e, hEc]
      simp
    · rfl
  · show (c.b.setSegment (i * c.E.rows) c.E.rows _).e _ = _
    rw [setSegment_blk _ _ hr]
    split
    · rename_i hk
      subst hk
      rw [Vec.subFin_e, Vec.segment_e, Mat.mulVec_e]
      simp [Mat.block_e]
    · rfl

/-! ## Trajectory constraints -/

theorem row_trajectory_step {d : Dims} {c : Constr K} (hk : c.kind = .trajectory)
    (hf : c.fullSizeEntry = false) {k r : Nat} (hr : r < c.E.rows) :
    c.row d (k * c.E.rows + r) =
      ⟨fun s => if s / d.n = k then c.E.e r (s % d.n) else 0, fun _ => 0, c.f.e r⟩ := by
  unfold row blockRow
  simp only [hk, hf]
  rw [blk_mod hr, blk_div hr]
  rfl

theorem Reg.same_trajectory {d : Dims} {c c' : Constr K} (h : RegTrajectory d c) (hs : Same c c')
    (hz : RowSizes d c') : RegTrajectory d c' :=
  ⟨hz, by rw [hs.f, hs.E]; exact h.rows, by rw [hs.full, hs.E, hs.nrConstr]; exact h.dims⟩

theorem updateTrajectory_ok {d : Dims} {ps : PreviewSystem K} {c : Constr K} (hk : c.kind = .trajectory)
    (h : RegTrajectory d c) (S : SysShape d ps) (hx : ps.x0.rows = d.n) :
    Ok (updateTrajectory ps c) fun c' => RegTrajectory d c' ∧ Same c c' ∧
      ∀ i < c.nrConstr, RowIs d ps c' i (c.row d i) := by
  have D := h.dims
  have Z := h.sizes
  unfold updateTrajectory
  by_cases hf : c.fullSizeEntry
  · rw [if_pos hf] at D ⊢
    obtain ⟨_, D1, D2⟩ := D
    unfold updateFullYzb
    apply Ok.bind; apply Ok.mul? (by rw [D1, S.Psir])
    apply Ok.bind; apply Ok.mul? (by rw [D1, S.Phir])
    apply Ok.bind; apply Ok.mulVec? (by show c.E.cols = _; rw [D1, S.xir])
    apply Ok.bind; apply Ok.subFin? (by show c.f.rows = c.E.rows; exact h.rows)
    apply Ok.bind; apply Ok.mulVec? (by show ps.Phi.cols = _; rw [S.Phic, hx])
    apply Ok.bind; apply Ok.subFin? (by show c.f.rows = c.E.rows; exact h.rows)
    apply Ok.pure'
    refine ⟨Reg.same_trajectory h rfl ⟨D2.symm, S.Psic, ?_, D2.symm, S.Phic, ?_⟩, rfl, ?_⟩
    · show c.f.rows = c.nrConstr; rw [h.rows, D2]
    · show c.f.rows = c.nrConstr; rw [h.rows, D2]
    · intro i hi
      have hrow : c.row d i = ⟨c.E.e i, fun _ => 0, c.f.e i⟩ := by unfold row; simp [hk, hf]
      rw [hrow]
      constructor
      · intro j hj
        show (c.E.mul ps.Psi).e i j = _
        rw [Mat.mul_e, D1, add_zero]
      · intro j hj
        show (c.E.mul ps.Phi).e i j = _
        rw [Mat.mul_e, D1]
      · show (c.f.subFin (c.E.mulVec ps.xi)).e i = _
        rw [Vec.subFin_e, Mat.mulVec_e, D1]
      · show ((c.f.subFin (c.E.mulVec ps.xi)).subFin ((c.E.mul ps.Phi).mulVec ps.x0)).e i = _
        rw [Vec.subFin_e, Mat.mulVec_e]
        rw [Mat.mul_cols, S.Phic]
  · rw [if_neg hf] at D ⊢
    simp only [Bool.not_eq_true] at hf
    obtain ⟨D1, D2⟩ := D
    rw [S.nrX]
    apply Ok.loop (I := fun t c' => Same c c' ∧ RowSizes d c' ∧
      ∀ k < t, ∀ r < c.E.rows, RowIs d ps c' (k * c.E.rows + r) (c.row d (k * c.E.rows + r)))
    · exact Nat.zero_le _
    · exact ⟨rfl, Z, fun k hk => absurd hk (by omega)⟩
    · rintro t ct _ ht ⟨hs, hz, hI⟩
      unfold updateTrajectoryStep
      simp only [S.xDim, S.fullU]
      apply Ok.bind
      apply Ok.block? (by rw [S.Psir]; exact blk_le' ht) (by rw [S.Psic]; omega)
      apply Ok.bind; apply Ok.mul? (by simp [hs.E, D1])
      apply Ok.bind
      apply Ok.setBlock? (by rw [hz.Ar, hs.nrConstr, D2, hs.E]; exact blk_le' ht) (by rw [hz.Ac]; omega)
        (by simp) (by simp)
      generalize hAn : ct.A.setBlock (t * ct.E.rows) 0 ct.E.rows (d.m * d.N)
        (ct.E.mul (ps.Psi.block (t * d.n) 0 d.n (d.m * d.N))) = An
      rw [hs.E] at hAn
      have key := updateStepYzb_ok (c := { ct with A := An }) (i := t) (M := d.N + 1) S hx ht ht
        (by show ct.E.cols = _; rw [hs.E, D1]) (by show ct.f.rows = ct.E.rows; rw [hs.f, hs.E, h.rows])
        (by show ct.Y.rows = ct.E.rows * _; rw [hz.Yr, hs.nrConstr, D2, hs.E]) hz.Yc
        (by show ct.z.rows = ct.E.rows * _; rw [hz.zr, hs.nrConstr, D2, hs.E])
        (by show ct.b.rows = ct.E.rows * _; rw [hz.br, hs.nrConstr, D2, hs.E])
      refine key.mono ?_
      rintro c' ⟨he, hYr, hYc, hzr, hbr, hent⟩
      simp only [hs.E] at hent
      have hA : c'.A = ct.A.setBlock (t * c.E.rows) 0 c.E.rows (d.m * d.N)
        (c.E.mul (ps.Psi.block (t * d.n) 0 d.n (d.m * d.N))) := by rw [he, hAn]
      have hsc : Same ct c' := by unfold Same; rw [he]
      have hnr := hsc.nrConstr
      refine ⟨hs.trans hsc, ⟨?_, ?_, ?_, ?_, ?_, ?_⟩, ?_⟩
      · rw [hA, Mat.setBlock_rows, hnr]; exact hz.Ar
      · rw [hA, Mat.setBlock_cols]; exact hz.Ac
      · rw [hbr, hnr]; exact hz.br
      · rw [hYr, hnr]; exact hz.Yr
      · rw [hYc]; exact hz.Yc
      · rw [hzr, hnr]; exact hz.zr
      · intro k hkt r hr
        rw [row_trajectory_step hk hf hr]
        obtain ⟨eY, eZ, eB⟩ := hent k r hr
        by_cases hkt' : k = t
        · subst hkt'
          constructor
          · intro j hj
            rw [hA, setBlock_rowblk _ _ hr hj, if_pos rfl, Mat.mul_e, D1, sum_block_ite ht (c.E.e r)]
            simp
          · intro j hj
            rw [eY j hj, if_pos rfl, sum_block_ite ht (c.E.e r)]
          · rw [eZ, if_pos rfl, sum_block_ite ht (c.E.e r)]
            show (ct.f.e r).sub _ = _
            rw [hs.f]
          · rw [eB, if_pos rfl]
        · have old := hI k (by omega) r hr
          rw [row_trajectory_step hk hf hr] at old
          constructor
          · intro j hj
            rw [hA, setBlock_rowblk _ _ hr hj, if_neg hkt']
            exact old.A j hj
          · intro j hj
            rw [eY j hj, if_neg hkt']; exact old.Y j hj
          · rw [eZ, if_neg hkt']; exact old.z
          · rw [eB, if_neg hkt']
            show ct.b.e _ = _
            rw [old.b, eZ, if_neg hkt']
            congr 1
            apply Finset.sum_congr rfl
            intro j hj
            rw [eY j (Finset.mem_range.1 hj), if_neg hkt']
    · rintro c' ⟨hs, hz, hI⟩
      refine ⟨Reg.same_trajectory h hs hz, hs, ?_⟩
      intro i hi
      rw [D2, Nat.mul_comm] at hi
      obtain ⟨k, r, hk, hr, rfl⟩ := blk_split hi
      exact hI k hk r hr

/-! ## Control constraints -/

theorem Ext.sub_zero (z : Ext K) : z.sub 0 = z := by cases z <;> simp [Ext.sub]

theorem updateControl_ok {d : Dims} {ps : PreviewSystem K} {c : Constr K} (hk : c.kind = .control)
    (h : RegControl d c) (S : SysShape d ps) :
    Ok (updateControl ps c) fun c' => RegControl d c' ∧ Same c c' ∧
      (∀ i < c.nrConstr, RowIs d ps c' i (c.row d i)) ∧ (c.fullSizeEntry = true → c' = c) := by
  have D := h.dims
  have Z := h.sizes
  unfold updateControl
  by_cases hf : c.fullSizeEntry
  · rw [if_pos hf] at D ⊢
    refine Ok.pure ⟨h, rfl, ?_, fun _ => rfl⟩
    intro i hi
    have hrow : c.row d i = ⟨fun _ => 0, c.A.e i, c.b.e i⟩ := by unfold row; simp [hk, hf]
    rw [hrow]
    obtain ⟨_, _, hY, hz⟩ := D
    constructor
    · intro j hj; simp
    · intro j hj; simp [hY i hi j hj]
    · simp [hz i hi, Ext.sub_zero]
    · rw [hz i hi]
      have : ∑ j ∈ Finset.range d.n, c.Y.e i j * ps.x0.e j = 0 := by
        apply Finset.sum_eq_zero; intro j hj; rw [hY i hi j (Finset.mem_range.1 hj), zero_mul]
      rw [this, Ext.sub_zero]
  · rw [if_neg hf] at D ⊢
    simp only [Bool.not_eq_true] at hf
    obtain ⟨D1, D2, D3, D4⟩ := D
    rw [S.nrU]
    apply Ok.bind
    apply Ok.loop (I := fun t c' => Same c c' ∧ RowSizes d c' ∧
      (∀ k < d.N, ∀ r < c.G.rows, ∀ j < d.N, ∀ l < d.m, k ≠ j →
        c'.A.e (k * c.G.rows + r) (j * d.m + l) = 0) ∧
      ∀ k < t, ∀ r < c.G.rows, (∀ l < d.m, c'.A.e (k * c.G.rows + r) (k * d.m + l) = c.G.e r l) ∧
        c'.b.e (k * c.G.rows + r) = c.f.e r)
    · exact Nat.zero_le _
    · exact ⟨rfl, Z, D4, fun k hk => absurd hk (by omega)⟩
    · rintro t ct _ ht ⟨hs, hz, h0, hI⟩
      unfold updateControlStep
      simp only [S.uDim]
      apply Ok.bind
      apply Ok.setBlock? (by rw [hz.Ar, hs.nrConstr, D3, hs.G]; exact blk_le' ht)
        (by rw [hz.Ac]; exact blk_le' ht) (by rfl) (by rw [hs.G, D1])
      apply Ok.bind
      apply Ok.setSegment? (by rw [hz.br, hs.nrConstr, D3, hs.G]; exact blk_le' ht)
        (by rw [hs.f, hs.G, D2])
      apply Ok.pure'
      refine ⟨hs.trans rfl, ⟨hz.Ar, hz.Ac, hz.br, hz.Yr, hz.Yc, hz.zr⟩, ?_, ?_⟩
      · intro k hk r hr j hj l hl hne
        show (ct.A.setBlock (t * ct.G.rows) (t * d.m) ct.G.rows d.m ct.G).e _ _ = 0
        rw [hs.G, setBlock_blk _ _ hr hl, if_neg (by rintro ⟨rfl, rfl⟩; exact hne rfl)]
        exact h0 k hk r hr j hj l hl hne
      · intro k hk r hr
        constructor
        · intro l hl
          show (ct.A.setBlock (t * ct.G.rows) (t * d.m) ct.G.rows d.m ct.G).e _ _ = _
          rw [hs.G, setBlock_blk _ _ hr hl]
          split
          · rfl
          · rename_i hkt
            exact (hI k (by have : k ≠ t := fun e => hkt ⟨e, e⟩; omega) r hr).1 l hl
        · show (ct.b.setSegment (t * ct.G.rows) ct.G.rows ct.f).e _ = _
          rw [hs.G, setSegment_blk _ _ hr, hs.f]
          split
          · rfl
          · exact (hI k (by omega) r hr).2
    · rintro ct ⟨hs, hz, h0, hI⟩
      apply Ok.pure'
      have hsc : Same ct { ct with Y := Mat.zero ct.Y.rows ct.Y.cols, z := ct.b } := rfl
      have hs' := hs.trans hsc
      have hz' : RowSizes d { ct with Y := Mat.zero ct.Y.rows ct.Y.cols, z := ct.b } :=
        ⟨hz.Ar, hz.Ac, hz.br, hz.Yr, hz.Yc, hz.br⟩
      refine ⟨⟨hz', ?_, ?_⟩, hs', ?_, ?_⟩
      · rw [hs'.hbi]; exact h.init
      · rw [hs'.full, hf, hs'.G, hs'.f, hs'.nrConstr]
        exact ⟨D1, D2, D3, h0⟩
      · intro i hi
        rw [D3, Nat.mul_comm] at hi
        obtain ⟨k, r, hkN, hr, rfl⟩ := blk_split hi
        have hrow : c.row d (k * c.G.rows + r) =
            ⟨fun _ => 0, fun s => if s / d.m = k then c.G.e r (s % d.m) else 0, c.f.e r⟩ := by
          unfold row blockRow
          simp only [hk, hf]
          rw [blk_mod hr, blk_div hr]
          rfl
        rw [hrow]
        obtain ⟨hA, hb⟩ := hI k hkN r hr
        constructor
        · intro j hj
          rw [Nat.mul_comm] at hj
          obtain ⟨j', l, hj', hl, rfl⟩ := blk_split hj
          simp only [zero_mul, Finset.sum_const_zero, zero_add]
          rw [blk_div hl, blk_mod hl]
          show ct.A.e _ _ = _
          split
          · rename_i e; subst e; exact hA l hl
          · rename_i e; exact h0 k hkN r hr j' hj' l hl (fun e' => e e'.symm)
        · intro j hj; simp
        · simp only [zero_mul, Finset.sum_const_zero, Ext.sub_zero]
          exact hb
        · simp [Ext.sub_zero]
      · intro hf'; rw [hf] at hf'; cases hf'

/-! ## Mixed constraints -/

theorem psiC_shift {n : Nat} {A B : Mat K} {k j r c : Nat} :
    psiC n A B (k + 1) (j + 1) r c = psiC n A B k j r c := by
  unfold psiC
  by_cases h : j < k
  · rw [if_pos h, if_pos (by omega)]; congr 1; omega
  · rw [if_neg h, if_neg (by omega)]

theorem _root_.Copra.SysPred.shifts {d : Dims} {ps : PreviewSystem K} (P : SysPred d ps) : Shifts d ps where
  toSysBase := P.base
  shift := fun k hk j hj r hr c hc => by
    rw [P.psi (k + 1) (by omega) (j + 1) hj r hr c hc, psiC_shift, P.psi k (by omega) j (by omega) r hr c hc]

/-- Block `(k, j)` of the per-step mixed rows. -/
def mixedBlk (d : Dims) (ps : PreviewSystem K) (c : Constr K) (k j r l : Nat) : K :=
  (∑ s ∈ Finset.range d.n, c.E.e r s * ps.Psi.e (k * d.n + s) (j * d.m + l)) + if j = k then c.G.e r l else 0

theorem mixedBlk_shift {d : Dims} {ps : PreviewSystem K} {c : Constr K} (P : Shifts d ps)
    {k j r l : Nat} (hk : k + 1 < d.N) (hj : j + 1 < d.N) (hl : l < d.m) :
    mixedBlk d ps c (k + 1) (j + 1) r l = mixedBlk d ps c k j r l := by
  unfold mixedBlk
  congr 1
  · apply Finset.sum_congr rfl
    intro s hs
    rw [P.shift k hk j hj s (Finset.mem_range.1 hs) l hl]
  · by_cases e : j = k
    · subst e; simp
    · rw [if_neg e, if_neg (by omega)]

theorem mixedBlk_zero {d : Dims} {ps : PreviewSystem K} {c : Constr K} (P : SysBase d ps)
    {k j r l : Nat} (hk : k ≤ d.N) (hj : j < d.N) (hl : l < d.m) (hkj : k < j) :
    mixedBlk d ps c k j r l = 0 := by
  unfold mixedBlk
  rw [if_neg (by omega), add_zero]
  apply Finset.sum_eq_zero
  intro s hs
  rw [P.psi0 k hk j hj (by omega) s (Finset.mem_range.1 hs) l hl, mul_zero]

theorem row_mixed_step {d : Dims} {c : Constr K} (hk : c.kind = .mixed)
    (hf : c.fullSizeEntry = false) (hG : c.G.rows = c.E.rows) {k r : Nat} (hr : r < c.E.rows) :
    c.row d (k * c.E.rows + r) =
      ⟨fun s => if s / d.n = k then c.E.e r (s % d.n) else 0,
        fun s => if s / d.m = k then c.G.e r (s % d.m) else 0, c.f.e r⟩ := by
  unfold row blockRow
  simp only [hk, hf, hG]
  rw [blk_mod hr, blk_div hr]
  rfl

theorem Reg.same_mixed {d : Dims} {c c' : Constr K} (h : RegMixed d c) (hs : Same c c')
    (hz : RowSizes d c') (h0 : c.fullSizeEntry = false → ∀ k < d.N, ∀ r < c.E.rows, ∀ j < d.N,
      ∀ t < d.m, k < j → c'.A.e (k * c.E.rows + r) (j * d.m + t) = 0) : RegMixed d c' := by
  refine ⟨hz, by rw [hs.f, hs.E]; exact h.rows, by rw [hs.G, hs.E]; exact h.rowsG, ?_⟩
  rw [hs.full, hs.E, hs.G, hs.nrConstr]
  have D := h.dims
  by_cases hf : c.fullSizeEntry
  · rw [if_pos hf] at D ⊢; exact D
  · rw [if_neg hf] at D ⊢
    exact ⟨D.1, D.2.1, D.2.2.1, h0 (by simpa using hf)⟩

/-- Rows below `t` of the per-step mixed constraint are final, the others still have their zeros. -/
structure MixedInv (d : Dims) (ps : PreviewSystem K) (c : Constr K) (t : Nat) (c' : Constr K) : Prop where
  same : Same c c'
  sizes : RowSizes d c'
  zeros : ∀ k < d.N, ∀ r < c.E.rows, ∀ j < d.N, ∀ l < d.m, k < j →
    c'.A.e (k * c.E.rows + r) (j * d.m + l) = 0
  done : Shifts d ps → ∀ k < t, ∀ r < c.E.rows,
    (∀ j < d.N, ∀ l < d.m, c'.A.e (k * c.E.rows + r) (j * d.m + l) = mixedBlk d ps c k j r l) ∧
    (∀ j < d.n, c'.Y.e (k * c.E.rows + r) j =
      ∑ s ∈ Finset.range d.n, c.E.e r s * ps.Phi.e (k * d.n + s) j) ∧
    c'.z.e (k * c.E.rows + r) =
      (c.f.e r).sub (∑ s ∈ Finset.range d.n, c.E.e r s * ps.xi.e (k * d.n + s)) ∧
    c'.b.e (k * c.E.rows + r) = (c'.z.e (k * c.E.rows + r)).sub
      (∑ j ∈ Finset.range d.n, c'.Y.e (k * c.E.rows + r) j * ps.x0.e j)

theorem updateMixedFirst_ok {d : Dims} {ps : PreviewSystem K} {c : Constr K}
    (h : RegMixed d c) (hf : c.fullSizeEntry = false) (S : SysShape d ps)
    (hx : ps.x0.rows = d.n) : Ok (updateMixedFirst ps c) (MixedInv d ps c 1) := by
  have D := h.dims
  have Z := h.sizes
  rw [hf] at D
  obtain ⟨D1, D2, D3, D4⟩ := D
  have hN := S.Npos
  have hle : 0 + c.E.rows ≤ c.E.rows * d.N := by
    simpa using Nat.mul_le_mul_left c.E.rows hN
  have hmle : 0 + d.m ≤ d.m * d.N := by simpa using Nat.mul_le_mul_left d.m hN
  unfold updateMixedFirst
  simp only [S.xDim, S.uDim]
  apply Ok.bind
  apply Ok.setBlock? (by rw [Z.Ar, D3]; exact hle) (by rw [Z.Ac]; exact hmle) h.rowsG D2
  apply Ok.bind
  apply Ok.setBlock? (by rw [Z.Yr, D3]; exact hle) (by rw [Z.Yc]; omega) rfl D1
  apply Ok.bind; apply Ok.setSegment? (by rw [Z.zr, D3]; exact hle) h.rows
  apply Ok.bind; apply Ok.segment? (by simp only [Vec.setSegment_rows]; rw [Z.zr, D3]; exact hle)
  apply Ok.bind
  apply Ok.block? (by simp only [Mat.setBlock_rows]; rw [Z.Yr, D3]; exact hle)
    (by simp only [Mat.setBlock_cols]; rw [Z.Yc]; omega)
  apply Ok.bind; apply Ok.mulVec? (by simp [hx])
  apply Ok.bind; apply Ok.subFin? (by simp)
  apply Ok.bind; apply Ok.setSegment? (by rw [Z.br, D3]; exact hle) (by simp)
  apply Ok.pure'
  constructor
  · rfl
  · exact ⟨Z.Ar, Z.Ac, Z.br, Z.Yr, Z.Yc, Z.zr⟩
  · intro k hk r hr j hj l hl hkj
    show (c.A.setBlock 0 0 c.E.rows d.m c.G).e _ _ = 0
    have e := setBlock_blk c.A (a := 0) (b := 0) c.G (k := k) (j := j) hr hl
    rw [Nat.zero_mul, Nat.zero_mul] at e
    rw [e, if_neg (by omega)]
    exact D4 k hk r hr j hj l hl hkj
  · intro P k hk r hr
    have hk0 : k = 0 := by omega
    subst hk0
    have ephi : ∀ j < d.n, (∑ s ∈ Finset.range d.n, c.E.e r s * ps.Phi.e (0 * d.n + s) j) = c.E.e r j := by
      intro j hj
      rw [Finset.sum_eq_single j]
      · have := P.phi0 j hj j hj; simp [this]
      · intro b hb hbj
        have := P.phi0 b (Finset.mem_range.1 hb) j hj
        simp [this, hbj]
      · intro hh; exact absurd (Finset.mem_range.2 hj) hh
    refine ⟨?_, ?_, ?_, ?_⟩
    · intro j hj l hl
      show (c.A.setBlock 0 0 c.E.rows d.m c.G).e _ _ = _
      have e := setBlock_blk c.A (a := 0) (b := 0) c.G (k := 0) (j := j) hr hl
      rw [Nat.zero_mul, Nat.zero_mul] at e
      rw [Nat.zero_mul, e]
      split
      · rename_i hj0
        obtain ⟨_, rfl⟩ := hj0
        unfold mixedBlk
        rw [if_pos rfl]
        have : (∑ s ∈ Finset.range d.n, c.E.e r s * ps.Psi.e (0 * d.n + s) (0 * d.m + l)) = 0 := by
          apply Finset.sum_eq_zero; intro s hs
          rw [P.psi0 0 (by omega) 0 hN (le_refl _) s (Finset.mem_range.1 hs) l hl, mul_zero]
        rw [this, zero_add]
      · rw [mixedBlk_zero P.toSysBase (by omega) hj hl (by omega)]
        have := D4 0 hN r hr j hj l hl (by omega)
        simpa using this
    · intro j hj
      show (c.Y.setBlock 0 0 c.E.rows d.n c.E).e _ _ = _
      rw [ephi j hj]
      have e := setBlock_rowblk c.Y (a := 0) c.E (k := 0) hr hj
      rw [Nat.zero_mul] at e
      rw [Nat.zero_mul, e, if_pos rfl]
    · show (c.z.setSegment 0 c.E.rows c.f).e _ = _
      have e := setSegment_blk c.z (a := 0) c.f (k := 0) hr
      rw [Nat.zero_mul] at e
      rw [Nat.zero_mul, e, if_pos rfl]
      have : (∑ s ∈ Finset.range d.n, c.E.e r s * ps.xi.e (0 * d.n + s)) = 0 := by
        apply Finset.sum_eq_zero; intro s hs
        have := P.xi0 s (Finset.mem_range.1 hs)
        simp [this]
      rw [this, Ext.sub_zero]
    · generalize hY' : c.Y.setBlock 0 0 c.E.rows d.n c.E = Y'
      generalize hz' : c.z.setSegment 0 c.E.rows c.f = z'
      show (c.b.setSegment 0 c.E.rows _).e _ = (z'.e _).sub (∑ j ∈ Finset.range d.n, Y'.e _ j * _)
      have e := setSegment_blk c.b (a := 0) ((z'.segment 0 c.E.rows).subFin
        ((Y'.block 0 0 c.E.rows d.n).mulVec ps.x0)) (k := 0) hr
      rw [Nat.zero_mul] at e
      rw [Nat.zero_mul, e, if_pos rfl, Vec.subFin_e, Mat.mulVec_e]
      simp

theorem updateMixedStep_ok {d : Dims} {ps : PreviewSystem K} {c ct : Constr K} {t : Nat}
    (h : RegMixed d c) (hf : c.fullSizeEntry = false) (S : SysShape d ps)
    (hx : ps.x0.rows = d.n) (ht1 : 1 ≤ t) (ht : t < d.N) (I : MixedInv d ps c t ct) :
    Ok (updateMixedStep ps t ct) (MixedInv d ps c (t + 1)) := by
  have D := h.dims
  rw [hf] at D
  obtain ⟨D1, D2, D3, _⟩ := D
  have hs := I.same
  have Z := I.sizes
  have hN := S.Npos
  have hmle : 0 + d.m ≤ d.m * d.N := by simpa using Nat.mul_le_mul_left d.m hN
  obtain ⟨t', rfl⟩ : ∃ t', t = t' + 1 := ⟨t - 1, by omega⟩
  unfold updateMixedStep
  simp only [S.xDim, S.uDim]
  apply Ok.bind
  apply Ok.block? (by rw [S.Psir]; exact blk_le' (by omega)) (by rw [S.Psic]; omega)
  apply Ok.bind; apply Ok.mul? (by simp [hs.E, D1])
  apply Ok.bind
  apply Ok.setBlock? (by rw [Z.Ar, hs.nrConstr, D3, hs.E]; exact blk_le' ht) (by rw [Z.Ac]; exact hmle)
    (by simp) (by simp)
  apply Ok.bind
  apply Ok.loop (I := fun jj (A : Mat K) => A.rows = ct.A.rows ∧ A.cols = ct.A.cols ∧
    (∀ k < d.N, ∀ r < c.E.rows, ∀ j < d.N, ∀ l < d.m, k < j → A.e (k * c.E.rows + r) (j * d.m + l) = 0) ∧
    (Shifts d ps → ∀ k < t' + 1, ∀ r < c.E.rows, ∀ j < d.N, ∀ l < d.m,
      A.e (k * c.E.rows + r) (j * d.m + l) = mixedBlk d ps c k j r l) ∧
    (Shifts d ps → ∀ r < c.E.rows, ∀ j < jj, ∀ l < d.m,
      A.e ((t' + 1) * c.E.rows + r) (j * d.m + l) = mixedBlk d ps c (t' + 1) j r l))
  · omega
  · rw [hs.E]
    generalize hAn : ct.A.setBlock ((t' + 1) * c.E.rows) 0 c.E.rows d.m
      (c.E.mul (ps.Psi.block ((t' + 1) * d.n) 0 d.n d.m)) = An
    have hent : ∀ k r j l, r < c.E.rows → l < d.m → An.e (k * c.E.rows + r) (j * d.m + l) =
        if k = t' + 1 ∧ j = 0 then (c.E.mul (ps.Psi.block ((t' + 1) * d.n) 0 d.n d.m)).e r l
        else ct.A.e (k * c.E.rows + r) (j * d.m + l) := by
      intro k r j l hr hl
      have e := setBlock_blk ct.A (a := t' + 1) (b := 0)
        (c.E.mul (ps.Psi.block ((t' + 1) * d.n) 0 d.n d.m)) (k := k) (j := j) hr hl
      rw [Nat.zero_mul] at e
      rw [← hAn]; exact e
    refine ⟨by rw [← hAn]; rfl, by rw [← hAn]; rfl, ?_, ?_, ?_⟩
    · intro k hk r hr j hj l hl hkj
      rw [hent k r j l hr hl, if_neg (by omega)]
      exact I.zeros k hk r hr j hj l hl hkj
    · intro P k hk r hr j hj l hl
      rw [hent k r j l hr hl, if_neg (by omega)]
      exact (I.done P k hk r hr).1 j hj l hl
    · intro P r hr j hj l hl
      have : j = 0 := by omega
      subst this
      rw [hent (t' + 1) r 0 l hr hl, if_pos ⟨rfl, rfl⟩, Mat.mul_e, D1]
      unfold mixedBlk
      rw [if_neg (by omega), add_zero]
      simp
  · rintro j0 A hj1 hj2 ⟨hr', hc', h0, h1, h2⟩
    obtain ⟨j', rfl⟩ : ∃ j', j0 = j' + 1 := ⟨j0 - 1, by omega⟩
    unfold updateMixedShift
    simp only [Nat.add_sub_cancel]
    rw [hs.E]
    apply Ok.bind
    apply Ok.block? (by rw [hr', Z.Ar, hs.nrConstr, D3]; exact blk_le' (by omega))
      (by rw [hc', Z.Ac]; exact blk_le' (by omega))
    apply Ok.setBlock? (by rw [hr', Z.Ar, hs.nrConstr, D3]; exact blk_le' ht)
      (by rw [hc', Z.Ac]; exact blk_le' (by omega)) (by simp) (by simp)
    refine ⟨hr', hc', ?_, ?_, ?_⟩
    · intro k hk r hr j hj l hl hkj
      rw [setBlock_blk _ _ hr hl, if_neg (by omega)]
      exact h0 k hk r hr j hj l hl hkj
    · intro P k hk r hr j hj l hl
      rw [setBlock_blk _ _ hr hl, if_neg (by omega)]
      exact h1 P k hk r hr j hj l hl
    · intro P r hr j hj l hl
      rw [setBlock_blk _ _ hr hl]
      split
      · rename_i e
        obtain ⟨_, rfl⟩ := e
        rw [Mat.block_e, h1 P t' (by omega) r hr j' (by omega) l hl,
          mixedBlk_shift P (by omega) (by omega) hl]
      · rename_i e
        exact h2 P r hr j (by have : j ≠ j' + 1 := fun e' => e ⟨rfl, e'⟩; omega) l hl
  · rintro An ⟨hr', hc', h0, h1, h2⟩
    have key := updateStepYzb_ok (c := { ct with A := An }) (i := t' + 1) (M := d.N) S hx (by omega) ht
      (by show ct.E.cols = _; rw [hs.E, D1]) (by show ct.f.rows = ct.E.rows; rw [hs.f, hs.E, h.rows])
      (by show ct.Y.rows = ct.E.rows * _; rw [Z.Yr, hs.nrConstr, D3, hs.E]) Z.Yc
      (by show ct.z.rows = ct.E.rows * _; rw [Z.zr, hs.nrConstr, D3, hs.E])
      (by show ct.b.rows = ct.E.rows * _; rw [Z.br, hs.nrConstr, D3, hs.E])
    refine key.mono ?_
    rintro c' ⟨he, hYr, hYc, hzr, hbr, hent⟩
    simp only [hs.E, hs.f] at hent
    have hA : c'.A = An := by rw [he]
    have hsc : Same ct c' := by unfold Same; rw [he]
    have hnr := hsc.nrConstr
    refine ⟨hs.trans hsc, ⟨?_, ?_, ?_, ?_, ?_, ?_⟩, ?_, ?_⟩
    · rw [hA, hr', hnr]; exact Z.Ar
    · rw [hA, hc']; exact Z.Ac
    · rw [hbr, hnr]; exact Z.br
    · rw [hYr, hnr]; exact Z.Yr
    · rw [hYc]; exact Z.Yc
    · rw [hzr, hnr]; exact Z.zr
    · rw [hA]; exact h0
    · intro P k hkt r hr
      obtain ⟨eY, eZ, eB⟩ := hent k r hr
      by_cases hkt' : k = t' + 1
      · subst hkt'
        refine ⟨?_, ?_, ?_, ?_⟩
        · intro j hj l hl
          rw [hA]
          by_cases hjt : j < t' + 1 + 1
          · exact h2 P r hr j hjt l hl
          · rw [h0 (t' + 1) ht r hr j hj l hl (by omega), mixedBlk_zero P.toSysBase (by omega) hj hl (by omega)]
        · intro j hj; rw [eY j hj, if_pos rfl]
        · rw [eZ, if_pos rfl]
        · rw [eB, if_pos rfl]
      · obtain ⟨_, oY, oZ, oB⟩ := I.done P k (by omega) r hr
        refine ⟨?_, ?_, ?_, ?_⟩
        · intro j hj l hl
          rw [hA]
          exact h1 P k (by omega) r hr j hj l hl
        · intro j hj; rw [eY j hj, if_neg hkt']; exact oY j hj
        · rw [eZ, if_neg hkt']; exact oZ
        · rw [eB, if_neg hkt']
          show ct.b.e _ = _
          rw [oB, eZ, if_neg hkt']
          congr 1
          apply Finset.sum_congr rfl
          intro j hj
          rw [eY j (Finset.mem_range.1 hj), if_neg hkt']

theorem updateMixed_ok {d : Dims} {ps : PreviewSystem K} {c : Constr K} (hk : c.kind = .mixed)
    (h : RegMixed d c) (S : SysShape d ps) (hx : ps.x0.rows = d.n) :
    Ok (updateMixed ps c) fun c' => RegMixed d c' ∧ Same c c' ∧
      ((c.fullSizeEntry = false → Shifts d ps) → ∀ i < c.nrConstr, RowIs d ps c' i (c.row d i)) := by
  have D := h.dims
  have Z := h.sizes
  unfold updateMixed
  by_cases hf : c.fullSizeEntry
  · rw [if_pos hf] at D ⊢
    obtain ⟨_, D1, D2, D3⟩ := D
    unfold updateFullYzb
    apply Ok.bind; apply Ok.mul? (by rw [D1, S.Psir])
    apply Ok.bind
    apply Ok.add? (by simp [h.rowsG]) (by rw [Mat.mul_cols, S.Psic, D2])
    apply Ok.bind; apply Ok.mul? (by show c.E.cols = _; rw [D1, S.Phir])
    apply Ok.bind; apply Ok.mulVec? (by show c.E.cols = _; rw [D1, S.xir])
    apply Ok.bind; apply Ok.subFin? (by show c.f.rows = c.E.rows; exact h.rows)
    apply Ok.bind; apply Ok.mulVec? (by show ps.Phi.cols = _; rw [S.Phic, hx])
    apply Ok.bind; apply Ok.subFin? (by show c.f.rows = c.E.rows; exact h.rows)
    apply Ok.pure'
    refine ⟨Reg.same_mixed h rfl ⟨D3.symm, S.Psic, ?_, D3.symm, S.Phic, ?_⟩ ?_, rfl, ?_⟩
    · show c.f.rows = c.nrConstr; rw [h.rows, D3]
    · show c.f.rows = c.nrConstr; rw [h.rows, D3]
    · intro hf'; rw [hf] at hf'; cases hf'
    · intro _ i hi
      have hrow : c.row d i = ⟨c.E.e i, c.G.e i, c.f.e i⟩ := by unfold row; simp [hk, hf]
      rw [hrow]
      constructor
      · intro j hj
        show ((c.E.mul ps.Psi).add c.G).e i j = _
        rw [Mat.add_e, Mat.mul_e, D1]
      · intro j hj
        show (c.E.mul ps.Phi).e i j = _
        rw [Mat.mul_e, D1]
      · show (c.f.subFin (c.E.mulVec ps.xi)).e i = _
        rw [Vec.subFin_e, Mat.mulVec_e, D1]
      · show ((c.f.subFin (c.E.mulVec ps.xi)).subFin ((c.E.mul ps.Phi).mulVec ps.x0)).e i = _
        rw [Vec.subFin_e, Mat.mulVec_e]
        rw [Mat.mul_cols, S.Phic]
  · rw [if_neg hf] at D ⊢
    simp only [Bool.not_eq_true] at hf
    obtain ⟨D1, D2, D3, D4⟩ := D
    apply Ok.bind
    refine (updateMixedFirst_ok h hf S hx).mono ?_
    intro c1 h1
    rw [S.nrU]
    apply Ok.loop (I := MixedInv d ps c)
    · exact S.Npos
    · exact h1
    · intro t ct ht1 ht I
      exact updateMixedStep_ok h hf S hx ht1 ht I
    · intro c' I
      refine ⟨Reg.same_mixed h I.same I.sizes (fun _ => I.zeros), I.same, ?_⟩
      intro hP i hi
      rw [D3, Nat.mul_comm] at hi
      obtain ⟨k, r, hkN, hr, rfl⟩ := blk_split hi
      rw [row_mixed_step hk hf h.rowsG hr]
      obtain ⟨iA, iY, iz, ib⟩ := I.done (hP hf) k hkN r hr
      constructor
      · intro j hj
        rw [Nat.mul_comm] at hj
        obtain ⟨j', l, hj', hl, rfl⟩ := blk_split hj
        rw [iA j' hj' l hl, sum_block_ite (by omega) (c.E.e r)]
        simp only [blk_div hl, blk_mod hl]
        rfl
      · intro j hj
        rw [iY j hj, sum_block_ite (by omega) (c.E.e r)]
      · rw [iz, sum_block_ite (by omega) (c.E.e r)]
      · exact ib

/-! ## Trajectory bound constraints -/

theorem updateTrajBoundLine_ok {d : Dims} {ps : PreviewSystem K} {c ct : Constr K} {bound : Vec (Ext K)}
    {step nr line : Nat} {ρ : Nat → Row K} (S : SysShape d ps) (hx : ps.x0.rows = d.n) (hs : Same c ct)
    (Z : RowSizes d ct) (hnr : nr < c.nrConstr) (hline : line + d.n * step < d.n * (d.N + 1))
    (hb : line < bound.rows) (hρ : ρ nr = ⟨unitRow d.n line step, fun _ => 0, bound.e line⟩)
    (hI : ∀ i < nr, RowIs d ps ct i (ρ i)) :
    Ok (updateTrajBoundLine ps bound step (nr, ct) line) fun s => s.1 = nr + 1 ∧ Same c s.2 ∧
      RowSizes d s.2 ∧ ∀ i < nr + 1, RowIs d ps s.2 i (ρ i) := by
  have hn' : nr < ct.nrConstr := by rw [hs.nrConstr]; exact hnr
  unfold updateTrajBoundLine
  simp only [S.xDim]
  apply Ok.bind; apply Ok.row? (by rw [S.Psir]; exact hline)
  apply Ok.bind; apply Ok.setRow? (by rw [Z.Ar]; exact hn') (by show ps.Psi.cols = _; rw [S.Psic, Z.Ac])
  apply Ok.bind; apply Ok.row? (by rw [S.Phir]; exact hline)
  apply Ok.bind; apply Ok.setRow? (by rw [Z.Yr]; exact hn') (by show ps.Phi.cols = _; rw [S.Phic, Z.Yc])
  apply Ok.bind; apply Ok.at? hb
  apply Ok.bind; apply Ok.at? (by rw [S.xir]; exact hline)
  apply Ok.bind; apply Ok.setAt? (by rw [Z.zr]; exact hn')
  apply Ok.bind; apply Ok.at? (by show nr < ct.z.rows; rw [Z.zr]; exact hn')
  apply Ok.bind; apply Ok.row? (by show nr < ct.Y.rows; rw [Z.Yr]; exact hn')
  apply Ok.bind; apply Ok.dot? (by show ct.Y.cols = _; rw [Z.Yc, hx])
  apply Ok.bind; apply Ok.setAt? (by rw [Z.br]; exact hn')
  apply Ok.pure'
  refine ⟨rfl, hs.trans rfl, ⟨Z.Ar, Z.Ac, Z.br, Z.Yr, Z.Yc, Z.zr⟩, ?_⟩
  intro i hi
  by_cases hin : i = nr
  · subst hin
    rw [hρ]
    constructor
    · intro j hj
      simp only [if_true, add_zero]
      unfold unitRow
      rw [sum_unit hline]
    · intro j hj
      simp only [if_true]
      unfold unitRow
      rw [sum_unit hline]
    · simp only [if_true]
      unfold unitRow
      rw [sum_unit hline]
    · simp only [if_true]
      rw [Z.Yc]
  · have old := hI i (by omega)
    constructor
    · intro j hj; simp only [if_neg hin]; exact old.A j hj
    · intro j hj; simp only [if_neg hin]; exact old.Y j hj
    · simp only [if_neg hin]; exact old.z
    · simp only [if_neg hin]; exact old.b

theorem updateTrajBoundLines_ok {d : Dims} {ps : PreviewSystem K} {c ct : Constr K} {bound : Vec (Ext K)}
    {lines : List Nat} {step nr : Nat} {ρ : Nat → Row K} (S : SysShape d ps) (hx : ps.x0.rows = d.n)
    (hs : Same c ct) (Z : RowSizes d ct) (hnr : nr + lines.length ≤ c.nrConstr)
    (hline : ∀ l ∈ lines, l + d.n * step < d.n * (d.N + 1)) (hb : ∀ l ∈ lines, l < bound.rows)
    (hρ : ∀ t < lines.length, ρ (nr + t) =
      ⟨unitRow d.n (lines.getD t 0) step, fun _ => 0, bound.e (lines.getD t 0)⟩)
    (hI : ∀ i < nr, RowIs d ps ct i (ρ i)) :
    Ok (updateTrajBoundLines ps bound lines step (nr, ct)) fun s => s.1 = nr + lines.length ∧
      Same c s.2 ∧ RowSizes d s.2 ∧ ∀ i < nr + lines.length, RowIs d ps s.2 i (ρ i) := by
  unfold updateTrajBoundLines
  apply Ok.foldlM (I := fun done _ s => s.1 = nr + done.length ∧ Same c s.2 ∧ RowSizes d s.2 ∧
    ∀ i < nr + done.length, RowIs d ps s.2 i (ρ i))
  · exact ⟨rfl, hs, Z, hI⟩
  · rintro done x rest ⟨n', ct'⟩ hl ⟨h1, h2, h3, h4⟩
    simp only at h1
    subst h1
    have hx' : x ∈ lines := by rw [hl]; simp
    have hlen : done.length < lines.length := by rw [hl]; simp
    have hget : lines.getD done.length 0 = x := by rw [hl]; simp [List.getD]
    have hr := hρ done.length hlen
    rw [hget] at hr
    refine (updateTrajBoundLine_ok S hx h2 h3 (by omega) (hline x hx') (hb x hx') hr h4).mono ?_
    rintro s ⟨a1, a2, a3, a4⟩
    simp only [List.length_append, List.length_singleton]
    exact ⟨a1, a2, a3, a4⟩
  · intro s h; exact h

theorem updateTrajBoundLoop_ok {d : Dims} {ps : PreviewSystem K} {c ct : Constr K} {bound : Vec (Ext K)}
    {lines : List Nat} {T nr : Nat} {ρ : Nat → Row K} (S : SysShape d ps) (hx : ps.x0.rows = d.n)
    (hs : Same c ct) (Z : RowSizes d ct) (hnr : nr + lines.length * T ≤ c.nrConstr)
    (hline : ∀ k < T, ∀ l ∈ lines, l + d.n * k < d.n * (d.N + 1)) (hb : ∀ l ∈ lines, l < bound.rows)
    (hρ : ∀ k < T, ∀ t < lines.length, ρ (nr + (k * lines.length + t)) =
      ⟨unitRow d.n (lines.getD t 0) k, fun _ => 0, bound.e (lines.getD t 0)⟩)
    (hI : ∀ i < nr, RowIs d ps ct i (ρ i)) :
    Ok (loop 0 T (updateTrajBoundLines ps bound lines) (nr, ct)) fun s =>
      s.1 = nr + lines.length * T ∧ Same c s.2 ∧ RowSizes d s.2 ∧
      ∀ i < nr + lines.length * T, RowIs d ps s.2 i (ρ i) := by
  apply Ok.loop (I := fun k s => s.1 = nr + lines.length * k ∧ Same c s.2 ∧ RowSizes d s.2 ∧
      ∀ i < nr + lines.length * k, RowIs d ps s.2 i (ρ i))
  · exact Nat.zero_le _
  · exact ⟨rfl, hs, Z, hI⟩
  · rintro k ⟨n', ct'⟩ _ hk ⟨h1, h2, h3, h4⟩
    simp only at h1
    subst h1
    have hle : lines.length * (k + 1) ≤ lines.length * T := Nat.mul_le_mul_left _ hk
    rw [Nat.mul_succ] at hle
    refine (updateTrajBoundLines_ok S hx h2 h3 (by omega) (hline k hk) hb ?_ h4).mono ?_
    · intro t ht
      have := hρ k hk t ht
      rw [Nat.mul_comm k, ← Nat.add_assoc] at this
      exact this
    · rintro s ⟨a1, a2, a3, a4⟩
      rw [Nat.mul_succ, ← Nat.add_assoc]
      exact ⟨a1, a2, a3, a4⟩
  · intro s h; exact h

theorem updateTrajBound_ok {d : Dims} {ps : PreviewSystem K} {c : Constr K} (hk : c.kind = .trajBound)
    (h : RegTrajBound d c) (S : SysShape d ps) (hx : ps.x0.rows = d.n) :
    Ok (updateTrajBound ps c) fun c' => RegTrajBound d c' ∧ Same c c' ∧
      ∀ i < c.nrConstr, RowIs d ps c' i (c.row d i) := by
  have D := h.dims
  unfold updateTrajBound
  have hT : (if c.fullSizeEntry then min 1 ps.nrXStep else ps.nrXStep) = boundSteps d c := by
    unfold boundSteps
    rw [S.nrX]
    split
    · omega
    · rfl
  simp only [hT]
  have hnr := h.nr
  have hlines : ∀ k < boundSteps d c, ∀ l, l < c.lower.rows → l + d.n * k < d.n * (d.N + 1) := by
    intro k hk l hl
    unfold boundSteps at hk
    by_cases hf : c.fullSizeEntry
    · rw [if_pos hf] at D hk
      have : k = 0 := by omega
      subst this
      omega
    · rw [if_neg hf] at D hk
      have := blk_lt' (n := d.n) hk (r := l) (by omega)
      rw [Nat.mul_comm k, Nat.add_comm] at this
      exact this
  rw [Nat.add_mul] at hnr
  apply Ok.bind
  refine (updateTrajBoundLoop_ok (c := c) (ρ := c.row d) S hx (Same.refl c) h.sizes (nr := 0) (by omega)
    (fun k hk l hl => hlines k hk l (h.lines.1 l hl)) h.lines.1 ?_ (fun i hi => absurd hi (by omega))).mono ?_
  · intro k hkT t ht
    rw [Nat.zero_add]
    unfold row
    simp only [hk]
    rw [if_pos (blk_lt' hkT ht), blk_mod ht, blk_div ht]
  · rintro ⟨n1, c1⟩ ⟨h1, h2, h3, h4⟩
    simp only at h1
    subst h1
    apply Ok.bind
    refine (updateTrajBoundLoop_ok (c := c) (ρ := c.row d) S hx h2 h3 (by omega)
      (fun k hk l hl => hlines k hk l (by rw [← h.rows]; exact h.lines.2 l hl)) h.lines.2 ?_ h4).mono ?_
    · intro k hkT t ht
      unfold row
      simp only [hk]
      rw [if_neg (by omega)]
      have : 0 + c.lowerLines.length * boundSteps d c + (k * c.upperLines.length + t)
          - c.lowerLines.length * boundSteps d c = k * c.upperLines.length + t := by omega
      rw [this, blk_mod ht, blk_div ht]
    · rintro ⟨n2, c2⟩ ⟨a1, a2, a3, a4⟩
      apply Ok.pure'
      refine ⟨⟨a3, ?_, ?_, ?_, ?_⟩, a2, ?_⟩
      · show c2.upper.rows = c2.lower.rows; rw [a2.upper, a2.lower]; exact h.rows
      · show LinesOk c2; unfold LinesOk; rw [a2.upper, a2.lower, a2.lowerLines, a2.upperLines]; exact h.lines
      · show if c2.fullSizeEntry then _ else _; rw [a2.full, a2.lower]; exact h.dims
      · show c2.nrConstr = (c2.lowerLines.length + c2.upperLines.length) * boundSteps d c2
        unfold boundSteps
        rw [a2.full, a2.nrConstr, a2.lowerLines, a2.upperLines]; exact h.nr
      · intro i hi
        exact a4 i (by omega)

/-! ## Control bound constraints -/

theorem updateCtrlBound_ok {d : Dims} {ps : PreviewSystem K} {c : Constr K}
    (h : RegCtrlBound d c) (S : SysShape d ps) :
    Ok (updateCtrlBound ps c) fun c' => RegCtrlBound d c' ∧ c' = { c with lb := c'.lb, ub := c'.ub } ∧
      (c.fullSizeEntry = true → c' = c) ∧
      (c.fullSizeEntry = false → ∀ k < d.N, ∀ r < d.m,
        c'.lb.e (k * d.m + r) = c.lower.e r ∧ c'.ub.e (k * d.m + r) = c.upper.e r) := by
  have D := h.dims
  unfold updateCtrlBound
  by_cases hf : c.fullSizeEntry
  · rw [if_pos hf]
    exact Ok.pure ⟨h, rfl, fun _ => rfl, fun e => by rw [hf] at e; cases e⟩
  · rw [if_neg hf] at D ⊢
    simp only [Bool.not_eq_true] at hf
    rw [S.nrU]
    apply Ok.loop (I := fun t c' => RegCtrlBound d c' ∧ c' = { c with lb := c'.lb, ub := c'.ub } ∧
      ∀ k < t, ∀ r < d.m,
        c'.lb.e (k * d.m + r) = c.lower.e r ∧ c'.ub.e (k * d.m + r) = c.upper.e r)
    · exact Nat.zero_le _
    · exact ⟨h, rfl, fun k hk => absurd hk (by omega)⟩
    · rintro t ct _ ht ⟨hR, he, hI⟩
      have hup : ct.upper = c.upper := by rw [he]
      have hlo : ct.lower = c.lower := by rw [he]
      unfold updateCtrlBoundStep
      simp only [S.uDim]
      apply Ok.bind
      apply Ok.setSegment? (by rw [hR.ubr]; exact blk_le' ht) (by rw [hup, h.rows, D])
      apply Ok.bind
      apply Ok.setSegment? (by rw [hR.lbr]; exact blk_le' ht) (by rw [hlo, D])
      apply Ok.pure'
      refine ⟨⟨hR.init, hR.nr, hR.lbr, hR.ubr, hR.rows, hR.dims⟩, ?_, ?_⟩
      · rw [he]
      · intro k hk r hr
        show (ct.lb.setSegment (t * d.m) d.m ct.lower).e _ = _ ∧
          (ct.ub.setSegment (t * d.m) d.m ct.upper).e _ = _
        rw [setSegment_blk _ _ hr, setSegment_blk _ _ hr, hup, hlo]
        split
        · exact ⟨rfl, rfl⟩
        · exact hI k (by omega) r hr
    · rintro c' ⟨hR, he, hI⟩
      exact ⟨hR, he, (fun e => by rw [hf] at e; cases e), fun _ => hI⟩

end Constr
end Copra
