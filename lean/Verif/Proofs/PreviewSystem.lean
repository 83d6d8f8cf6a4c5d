import Verif.Model.PreviewSystem
import Verif.Spec
import Verif.Proofs.Base

/-! # Prediction matrices: in-bounds updates, closed form, agreement with simulation -/

namespace Copra
open Spec

set_option linter.unusedSectionVars false

variable {K : Type} [Field K]

/-- Block `k` of the state prediction matrix: the `k`-th power of `A`. -/
def phiC (n : Nat) (A : Mat K) : Nat → Nat → Nat → K
  | 0, r, c => if r = c then 1 else 0
  | k + 1, r, c => ∑ t ∈ Finset.range n, A.e r t * phiC n A k t c

/-- `A^k B`. -/
def psiP (n : Nat) (A B : Mat K) : Nat → Nat → Nat → K
  | 0, r, c => B.e r c
  | k + 1, r, c => ∑ t ∈ Finset.range n, A.e r t * psiP n A B k t c

/-- Block `(k, j)` of the control prediction matrix. -/
def psiC (n : Nat) (A B : Mat K) (k j r c : Nat) : K :=
  if j < k then psiP n A B (k - 1 - j) r c else 0

/-- Block `k` of the bias prediction vector. -/
def xiC (n : Nat) (A : Mat K) (w : Vec K) : Nat → Nat → K
  | 0, _ => 0
  | k + 1, r => (∑ t ∈ Finset.range n, A.e r t * xiC n A w k t) + w.e r

/-- Sizes of everything an accepted `system` call allocates. -/
structure SysShape (d : Dims) (ps : PreviewSystem K) : Prop where
  nrU : ps.nrUStep = d.N
  nrX : ps.nrXStep = d.N + 1
  xDim : ps.xDim = d.n
  uDim : ps.uDim = d.m
  fullX : ps.fullXDim = d.n * (d.N + 1)
  fullU : ps.fullUDim = d.m * d.N
  Phir : ps.Phi.rows = d.n * (d.N + 1)
  Phic : ps.Phi.cols = d.n
  Psir : ps.Psi.rows = d.n * (d.N + 1)
  Psic : ps.Psi.cols = d.m * d.N
  xir : ps.xi.rows = d.n * (d.N + 1)
  Npos : 0 < d.N
  fullXle : d.n * (d.N + 1) ≤ intMax
  fullUle : d.m * d.N ≤ intMax
  Nle : d.N + 1 ≤ intMax
  nle : d.n ≤ intMax
  mle : d.m ≤ intMax

/-- Sizes of the dynamics. -/
structure DynShape (d : Dims) (ps : PreviewSystem K) : Prop where
  Ar : ps.A.rows = d.n
  Ac : ps.A.cols = d.n
  Br : ps.B.rows = d.n
  Bc : ps.B.cols = d.m
  dr : ps.d.rows = d.n

/-- All sizes of an accepted preview system (but the initial state, which `xInit` may replace). -/
structure SysDims (d : Dims) (ps : PreviewSystem K) : Prop extends SysShape d ps, DynShape d ps

/-- The parts of the prediction matrices that no update writes. -/
structure SysBase (d : Dims) (ps : PreviewSystem K) : Prop where
  phi0 : ∀ r < d.n, ∀ c < d.n, ps.Phi.e r c = if r = c then 1 else 0
  psi0 : ∀ k ≤ d.N, ∀ j < d.N, k ≤ j → ∀ r < d.n, ∀ c < d.m, ps.Psi.e (k * d.n + r) (j * d.m + c) = 0
  xi0 : ∀ r < d.n, ps.xi.e r = 0

/-- The prediction matrices have their closed form. -/
structure SysPred (d : Dims) (ps : PreviewSystem K) : Prop where
  phi : ∀ k ≤ d.N, ∀ r < d.n, ∀ c < d.n, ps.Phi.e (k * d.n + r) c = phiC d.n ps.A k r c
  psi : ∀ k ≤ d.N, ∀ j < d.N, ∀ r < d.n, ∀ c < d.m,
    ps.Psi.e (k * d.n + r) (j * d.m + c) = psiC d.n ps.A ps.B k j r c
  xi : ∀ k ≤ d.N, ∀ r < d.n, ps.xi.e (k * d.n + r) = xiC d.n ps.A ps.d k r

/-- An accepted preview system in any state of update; the initial state is not constrained. -/
structure SysOk (d : Dims) (ps : PreviewSystem K) : Prop where
  dims : SysDims d ps
  base : SysBase d ps
  pred : ps.isUpdated = true → SysPred d ps

/-- The same, whatever the prediction matrices contain beyond the parts that no update writes. -/
structure SysRaw (d : Dims) (ps : PreviewSystem K) : Prop where
  dims : SysDims d ps
  base : SysBase d ps

theorem SysOk.raw {d : Dims} {ps : PreviewSystem K} (h : SysOk d ps) : SysRaw d ps := ⟨h.dims, h.base⟩

/-- What the rows of a per-step mixed constraint rely on: besides the fixed parts, the effect of a control on a later
state depends on the delay only. -/
structure Shifts (d : Dims) (ps : PreviewSystem K) : Prop extends SysBase d ps where
  shift : ∀ k, k + 1 < d.N → ∀ j, j + 1 < d.N → ∀ r < d.n, ∀ c < d.m,
    ps.Psi.e ((k + 1) * d.n + r) ((j + 1) * d.m + c) = ps.Psi.e (k * d.n + r) (j * d.m + c)

theorem SysPred.base {d : Dims} {ps : PreviewSystem K} (h : SysPred d ps) : SysBase d ps where
  phi0 := fun r hr c hc => by
    have := h.phi 0 (Nat.zero_le _) r hr c hc
    simpa [phiC] using this
  psi0 := fun k hk j hj hkj r hr c hc => by
    rw [h.psi k hk j hj r hr c hc, psiC, if_neg (by omega)]
  xi0 := fun r hr => by
    have := h.xi 0 (Nat.zero_le _) r hr
    simpa [xiC] using this

/-! ## `system` -/

theorem systemBody_spec {A B : Mat K} {w x0 : Vec K} {N : Nat} (hA : A.rows = A.cols)
    (hx : x0.rows = A.rows) (hB : x0.rows = B.rows) (hw : x0.rows = w.rows) (hN : 0 < N)
    {ps : PreviewSystem K} (h : PreviewSystem.systemBody A B w x0 N = some ps) :
    SysOk ⟨A.cols, B.cols, N⟩ ps ∧ ps.A = A ∧ ps.B = B ∧ ps.d = w ∧ ps.x0 = x0 ∧
      ps.isUpdated = false := by
  unfold PreviewSystem.systemBody at h
  simp only [Option.bind_eq_bind, Option.bind_eq_some_iff, Copra.chkInt, Option.ite_none_right_eq_some,
    Option.some.injEq, Mat.setBlock?, Mat.identity_rows, Mat.identity_cols] at h
  obtain ⟨_, ⟨h1, rfl⟩, _, ⟨h2, rfl⟩, _, ⟨h3, rfl⟩, _, ⟨h4, rfl⟩, _, ⟨h5, rfl⟩, _, ⟨h6, rfl⟩, h7⟩ := h
  cases h7
  refine ⟨⟨⟨⟨rfl, rfl, rfl, rfl, rfl, rfl, rfl, rfl, rfl, rfl, rfl, hN, h4, h5, h1, h2, h3⟩, ⟨?_, rfl, ?_, rfl, ?_⟩⟩,
    ⟨?_, ?_, ?_⟩, ?_⟩, rfl, rfl, rfl, rfl, rfl⟩
  · exact hA
  · simp; omega
  · simp; omega
  · intro r hr c hc
    have := setBlock_rowblk (Mat.zero (A.cols * (N + 1)) A.cols : Mat K) (a := 0)
      (Mat.identity A.cols A.cols) (k := 0) hr hc
    simpa [Mat.identity_e] using this
  · intros; rfl
  · intros; rfl
  · intro h; cases h

theorem systemBody_none_iff {A B : Mat K} {w x0 : Vec K} {N : Nat} :
    PreviewSystem.systemBody A B w x0 N = none ↔
      ¬ (N + 1 ≤ intMax ∧ A.cols ≤ intMax ∧ B.cols ≤ intMax ∧ A.cols * (N + 1) ≤ intMax ∧
        B.cols * N ≤ intMax) := by
  constructor
  · intro h
    rintro ⟨h1, h2, h3, h4, h5⟩
    have : Ok (PreviewSystem.systemBody A B w x0 N) fun _ => True := by
      unfold PreviewSystem.systemBody
      apply Ok.bind; apply Ok.chkInt h1
      apply Ok.bind; apply Ok.chkInt h2
      apply Ok.bind; apply Ok.chkInt h3
      apply Ok.bind; apply Ok.chkInt h4
      apply Ok.bind; apply Ok.chkInt h5
      apply Ok.bind; apply Ok.setBlock?
      · have : A.cols * 1 ≤ A.cols * (N + 1) := Nat.mul_le_mul_left _ (by omega)
        simpa using this
      · simp
      · rfl
      · rfl
      · exact Ok.pure' trivial
    obtain ⟨a, ha, _⟩ := this
    rw [h] at ha
    cases ha
  · intro h
    by_contra hne
    obtain ⟨ps, hps⟩ := Option.ne_none_iff_exists'.1 hne
    apply h
    unfold PreviewSystem.systemBody at hps
    simp only [Option.bind_eq_bind, Option.bind_eq_some_iff, Copra.chkInt,
      Option.ite_none_right_eq_some, Option.some.injEq] at hps
    obtain ⟨_, ⟨h1, rfl⟩, _, ⟨h2, rfl⟩, _, ⟨h3, rfl⟩, _, ⟨h4, rfl⟩, _, ⟨h5, rfl⟩, _⟩ := hps
    exact ⟨h1, h2, h3, h4, h5⟩

/-! ## `updateSystem` -/

/-- Invariant of the outer loop of `updateSystem` before iteration `i`: row blocks below `i` are
final, row blocks from `i` on still have their zero part. -/
structure UInv (d : Dims) (ps0 : PreviewSystem K) (i : Nat) (ps : PreviewSystem K) : Prop where
  dims : SysDims d ps
  eqA : ps.A = ps0.A
  eqB : ps.B = ps0.B
  eqd : ps.d = ps0.d
  eqx : ps.x0 = ps0.x0
  phi : ∀ k < i, ∀ r < d.n, ∀ c < d.n, ps.Phi.e (k * d.n + r) c = phiC d.n ps0.A k r c
  psi : ∀ k ≤ d.N, ∀ j < d.N, (k < i ∨ k ≤ j) → ∀ r < d.n, ∀ c < d.m,
    ps.Psi.e (k * d.n + r) (j * d.m + c) = psiC d.n ps0.A ps0.B k j r c
  xi : ∀ k < i, ∀ r < d.n, ps.xi.e (k * d.n + r) = xiC d.n ps0.A ps0.d k r

theorem updateStep_ok {d : Dims} {ps0 ps : PreviewSystem K} {i : Nat} (hi : 2 ≤ i) (hiN : i < d.N + 1)
    (h : UInv d ps0 i ps) : Ok (PreviewSystem.updateStep i ps) (UInv d ps0 (i + 1)) := by
  have D := h.dims
  obtain ⟨i', rfl⟩ : ∃ i', i = i' + 1 := ⟨i - 1, by omega⟩
  unfold PreviewSystem.updateStep
  simp only [Nat.add_sub_cancel, D.xDim, D.uDim]
  have hi1 : i' < d.N + 1 := by omega
  have b1 := blk_le' (n := d.n) hi1
  have b2 := blk_le' (n := d.n) hiN
  have hmN : d.m ≤ d.m * d.N := by simpa using Nat.mul_le_mul_left d.m D.Npos
  apply Ok.bind; apply Ok.block? (by rw [D.Phir]; exact b1) (by rw [D.Phic]; omega)
  apply Ok.bind; apply Ok.mul? (by simp [D.Ac])
  apply Ok.bind; apply Ok.setBlock? (by rw [D.Phir]; exact b2) (by rw [D.Phic]; omega)
    (by simp [D.Ar]) (by simp)
  apply Ok.bind; apply Ok.block? (by rw [D.Psir]; exact b1) (by rw [D.Psic]; omega)
  apply Ok.bind; apply Ok.mul? (by simp [D.Ac])
  apply Ok.bind; apply Ok.setBlock? (by rw [D.Psir]; exact b2) (by rw [D.Psic]; omega)
    (by simp [D.Ar]) (by simp)
  apply Ok.bind
  -- the shifting loop
  apply Ok.loop (I := fun jj (Psi : Mat K) => Psi.rows = ps.Psi.rows ∧ Psi.cols = ps.Psi.cols ∧
      ∀ k ≤ d.N, ∀ j < d.N, (k < i' + 1 ∨ k ≤ j ∨ (k = i' + 1 ∧ j < jj)) → ∀ r < d.n, ∀ c < d.m,
        Psi.e (k * d.n + r) (j * d.m + c) = psiC d.n ps0.A ps0.B k j r c)
  · omega
  · refine ⟨rfl, rfl, ?_⟩
    intro k hk j hj hor r hr c hc
    have e := setBlock_blk ps.Psi (a := i' + 1) (b := 0)
      (ps.A.mul (ps.Psi.block (i' * d.n) 0 d.n d.m)) (k := k) (j := j) hr hc
    rw [Nat.zero_mul] at e
    rw [e]
    split
    · rename_i hkj
      obtain ⟨rfl, rfl⟩ := hkj
      rw [Mat.mul_e, D.Ac, psiC, if_pos (by omega)]
      have : i' + 1 - 1 - 0 = (i' - 1) + 1 := by omega
      rw [this, psiP, h.eqA]
      apply Finset.sum_congr rfl
      intro t ht
      rw [Finset.mem_range] at ht
      congr 1
      have := h.psi i' (by omega) 0 D.Npos (Or.inl (by omega)) t ht c hc
      rw [psiC, if_pos (by omega)] at this
      simpa using this
    · rename_i hkj
      apply h.psi k hk j hj _ r hr c hc
      rcases hor with h1 | h1 | ⟨h1, h2⟩
      · left; omega
      · right; omega
      · exact absurd ⟨h1, by omega⟩ hkj
  · intro j0 Psi hj1 hj2 ⟨hrows, hcols, hI⟩
    obtain ⟨j', rfl⟩ : ∃ j', j0 = j' + 1 := ⟨j0 - 1, by omega⟩
    unfold PreviewSystem.updatePsiShift
    simp only [Nat.add_sub_cancel]
    have hjN : j' < d.N := by omega
    have c1 := blk_le' (n := d.m) hjN
    have c2 := blk_le' (n := d.m) (show j' + 1 < d.N by omega)
    apply Ok.bind; apply Ok.block? (by rw [hrows, D.Psir]; exact b1) (by rw [hcols, D.Psic]; exact c1)
    apply Ok.setBlock? (by rw [hrows, D.Psir]; exact b2) (by rw [hcols, D.Psic]; exact c2)
      (by simp) (by simp)
    refine ⟨hrows, hcols, ?_⟩
    intro k hk j hj hor r hr c hc
    rw [setBlock_blk _ _ hr hc]
    split
    · rename_i hkj
      obtain ⟨rfl, rfl⟩ := hkj
      rw [Mat.block_e, hI i' (by omega) j' hjN (Or.inl (by omega)) r hr c hc, psiC, psiC,
        if_pos (by omega), if_pos (by omega)]
      congr 1; omega
    · rename_i hkj
      apply hI k hk j hj _ r hr c hc
      rcases hor with h1 | h1 | ⟨h1, h2⟩
      · left; omega
      · right; left; omega
      · right; right; refine ⟨h1, ?_⟩
        by_contra hcon
        exact hkj ⟨h1, by omega⟩
  · intro Psi ⟨hrows, hcols, hI⟩
    apply Ok.bind; apply Ok.segment? (by rw [D.xir]; exact b1)
    apply Ok.bind; apply Ok.mulVec? (by simp [D.Ac])
    apply Ok.bind; apply Ok.vadd? (by simp [D.Ar, D.dr])
    apply Ok.bind; apply Ok.setSegment? (by rw [D.xir]; exact b2) (by simp [D.Ar])
    apply Ok.pure'
    constructor
    · exact ⟨⟨D.nrU, D.nrX, rfl, rfl, D.fullX, D.fullU,
        D.Phir, D.Phic, by simp [hrows, D.Psir], by simp [hcols, D.Psic], D.xir, D.Npos, D.fullXle,
        D.fullUle, D.Nle, D.nle, D.mle⟩, ⟨D.Ar, D.Ac, D.Br, D.Bc, D.dr⟩⟩
    · exact h.eqA
    · exact h.eqB
    · exact h.eqd
    · exact h.eqx
    · intro k hk r hr c hc
      show (ps.Phi.setBlock ((i' + 1) * d.n) 0 d.n d.n _).e (k * d.n + r) c = _
      rw [setBlock_rowblk _ _ hr hc]
      split
      · rename_i hk'
        subst hk'
        rw [Mat.mul_e, D.Ac, phiC, h.eqA]
        apply Finset.sum_congr rfl
        intro t ht
        rw [Finset.mem_range] at ht
        congr 1
        have := h.phi i' (by omega) t ht c hc
        simpa using this
      · exact h.phi k (by omega) r hr c hc
    · intro k hk j hj hor r hr c hc
      apply hI k hk j hj _ r hr c hc
      rcases hor with h1 | h1
      · by_cases hki : k = i' + 1
        · subst hki
          by_cases hji : j < i' + 1
          · right; right; exact ⟨rfl, hji⟩
          · right; left; omega
        · left; omega
      · right; left; exact h1
    · intro k hk r hr
      show (ps.xi.setSegment ((i' + 1) * d.n) d.n _).e (k * d.n + r) = _
      rw [setSegment_blk _ _ hr]
      split
      · rename_i hk'
        subst hk'
        rw [Vec.add_e, Mat.mulVec_e, D.Ac, xiC, h.eqA, h.eqd]
        congr 1
        apply Finset.sum_congr rfl
        intro t ht
        rw [Finset.mem_range] at ht
        congr 1
        have := h.xi i' (by omega) t ht
        simpa using this
      · exact h.xi k (by omega) r hr

theorem phiC_one {n : Nat} {A : Mat K} {r c : Nat} (hc : c < n) : phiC n A 1 r c = A.e r c := by
  show ∑ t ∈ Finset.range n, A.e r t * (if t = c then 1 else 0) = _
  rw [Finset.sum_eq_single c]
  · simp
  · intro b _ hb; simp [hb]
  · intro h; exact absurd (Finset.mem_range.2 hc) h

theorem xiC_one {n : Nat} {A : Mat K} {w : Vec K} {r : Nat} : xiC n A w 1 r = w.e r := by
  simp [xiC]

/-- `updateSystem` on an accepted system succeeds and produces the closed form. -/
theorem updateSystem_raw {d : Dims} {ps : PreviewSystem K} (h : SysRaw d ps) :
    Ok ps.updateSystem fun ps' => SysOk d ps' ∧ SysPred d ps' ∧ ps'.isUpdated = true ∧
      ps'.A = ps.A ∧ ps'.B = ps.B ∧ ps'.d = ps.d ∧ ps'.x0 = ps.x0 := by
  have D := h.dims
  have B := h.base
  unfold PreviewSystem.updateSystem
  simp only [D.xDim, D.uDim, D.nrX]
  have b1 : d.n + d.n ≤ d.n * (d.N + 1) := by
    have := Nat.mul_le_mul_left d.n (show 2 ≤ d.N + 1 by have := D.Npos; omega)
    omega
  have hmN : d.m ≤ d.m * d.N := by simpa using Nat.mul_le_mul_left d.m D.Npos
  apply Ok.bind; apply Ok.setBlock? (by rw [D.Phir]; exact b1) (by rw [D.Phic]; omega) D.Ar D.Ac
  apply Ok.bind; apply Ok.setBlock? (by rw [D.Psir]; exact b1) (by rw [D.Psic]; omega) D.Br D.Bc
  apply Ok.bind; apply Ok.setSegment? (by rw [D.xir]; exact b1) D.dr
  apply Ok.bind
  apply Ok.loop (I := UInv d ps)
  · have := D.Npos; omega
  · constructor
    · exact ⟨⟨D.nrU, rfl, rfl, rfl, D.fullX, D.fullU,
        D.Phir, D.Phic, D.Psir, D.Psic, D.xir, D.Npos, D.fullXle, D.fullUle,
        D.Nle, D.nle, D.mle⟩,
        ⟨D.Ar, D.Ac, D.Br, D.Bc, D.dr⟩⟩
    · rfl
    · rfl
    · rfl
    · rfl
    · intro k hk r hr c hc
      have e := setBlock_rowblk ps.Phi (a := 1) ps.A (k := k) hr hc
      rw [Nat.one_mul] at e
      show (ps.Phi.setBlock d.n 0 d.n d.n ps.A).e (k * d.n + r) c = _
      rw [e]
      split
      · rename_i hk1; subst hk1; rw [phiC_one hc]
      · have : k = 0 := by omega
        subst this
        simpa [phiC] using B.phi0 r hr c hc
    · intro k hk j hj hor r hr c hc
      have e := setBlock_blk ps.Psi (a := 1) (b := 0) ps.B (k := k) (j := j) hr hc
      rw [Nat.one_mul, Nat.zero_mul] at e
      show (ps.Psi.setBlock d.n 0 d.n d.m ps.B).e (k * d.n + r) (j * d.m + c) = _
      rw [e]
      split
      · rename_i hkj; obtain ⟨rfl, rfl⟩ := hkj; simp [psiC, psiP]
      · rename_i hkj
        have : k ≤ j := by omega
        rw [B.psi0 k hk j hj this r hr c hc, psiC, if_neg (by omega)]
    · intro k hk r hr
      have e := setSegment_blk ps.xi (a := 1) ps.d (k := k) hr
      rw [Nat.one_mul] at e
      show (ps.xi.setSegment d.n d.n ps.d).e (k * d.n + r) = _
      rw [e]
      split
      · rename_i hk1; subst hk1; rw [xiC_one]
      · have : k = 0 := by omega
        subst this
        simpa [xiC] using B.xi0 r hr
  · intro i s hi hiN hI
    exact updateStep_ok hi hiN hI
  · intro s hI
    apply Ok.pure'
    have P : SysPred d { s with isUpdated := true } := by
      constructor
      · intro k hk r hr c hc
        show s.Phi.e _ _ = phiC d.n s.A _ _ _
        rw [hI.eqA]; exact hI.phi k (by omega) r hr c hc
      · intro k hk j hj r hr c hc
        show s.Psi.e _ _ = psiC d.n s.A s.B _ _ _ _
        rw [hI.eqA, hI.eqB]; exact hI.psi k hk j hj (Or.inl (by omega)) r hr c hc
      · intro k hk r hr
        show s.xi.e _ = xiC d.n s.A s.d _ _
        rw [hI.eqA, hI.eqd]; exact hI.xi k (by omega) r hr
    have E := hI.dims
    refine ⟨⟨⟨⟨E.nrU, E.nrX, E.xDim, E.uDim, E.fullX, E.fullU,
        E.Phir, E.Phic, E.Psir, E.Psic, E.xir, E.Npos, E.fullXle, E.fullUle,
        E.Nle, E.nle, E.mle⟩,
        ⟨E.Ar, E.Ac, E.Br, E.Bc, E.dr⟩⟩, P.base, fun _ => P⟩,
      P, rfl, hI.eqA, hI.eqB, hI.eqd, hI.eqx⟩

/-- `updateSystem` on an accepted system succeeds and produces the closed form. -/
theorem updateSystem_ok {d : Dims} {ps : PreviewSystem K} (h : SysOk d ps) :
    Ok ps.updateSystem fun ps' => SysOk d ps' ∧ SysPred d ps' ∧ ps'.isUpdated = true ∧
      ps'.A = ps.A ∧ ps'.B = ps.B ∧ ps'.d = ps.d ∧ ps'.x0 = ps.x0 := updateSystem_raw h.raw

/-! ## Agreement with simulation -/

/-- Component `r` of the predicted `x_k` computed from prediction matrices. -/
def predC (d : Dims) (ps : PreviewSystem K) (x0 U : Nat → K) (k r : Nat) : K :=
  (∑ c ∈ Finset.range d.n, ps.Phi.e (k * d.n + r) c * x0 c)
    + (∑ j ∈ Finset.range (d.m * d.N), ps.Psi.e (k * d.n + r) j * U j) + ps.xi.e (k * d.n + r)

theorem psiC_succ {n : Nat} {A B : Mat K} {k j r c : Nat} :
    psiC n A B (k + 1) j r c =
      (∑ t ∈ Finset.range n, A.e r t * psiC n A B k j t c) + if j = k then B.e r c else 0 := by
  unfold psiC
  rcases Nat.lt_trichotomy j k with h | h | h
  · rw [if_pos (by omega), if_neg (by omega), add_zero]
    have : k + 1 - 1 - j = (k - 1 - j) + 1 := by omega
    rw [this, psiP]
    simp only [if_pos h]
  · subst h
    simp [psiP]
  · rw [if_neg (by omega), if_neg (by omega)]
    have : ¬ j < k := by omega
    simp [this]

theorem predC_eq_sim {d : Dims} {ps : PreviewSystem K} (P : SysPred d ps) (x0 U : Nat → K) :
    ∀ k ≤ d.N, ∀ r < d.n, predC d ps x0 U k r = sim d ps.A ps.B ps.d x0 U k r := by
  have hform : ∀ k ≤ d.N, ∀ r < d.n, predC d ps x0 U k r =
      (∑ c ∈ Finset.range d.n, phiC d.n ps.A k r c * x0 c)
      + (∑ j ∈ Finset.range d.N, ∑ c ∈ Finset.range d.m, psiC d.n ps.A ps.B k j r c * ctrl d U j c)
      + xiC d.n ps.A ps.d k r := by
    intro k hk r hr
    unfold predC
    rw [sum_blk', P.xi k hk r hr]
    congr 1
    congr 1
    · apply Finset.sum_congr rfl
      intro c hc
      rw [P.phi k hk r hr c (Finset.mem_range.1 hc)]
    · apply Finset.sum_congr rfl
      intro j hj
      apply Finset.sum_congr rfl
      intro c hc
      rw [P.psi k hk j (Finset.mem_range.1 hj) r hr c (Finset.mem_range.1 hc)]
      rfl
  intro k
  induction k with
  | zero =>
    intro hk r hr
    rw [hform 0 hk r hr]
    have h1 : ∑ c ∈ Finset.range d.n, phiC d.n ps.A 0 r c * x0 c = x0 r := by
      simp only [phiC]
      rw [Finset.sum_eq_single r]
      · simp
      · intro b _ hb; simp [Ne.symm hb]
      · intro h; exact absurd (Finset.mem_range.2 hr) h
    rw [h1]
    simp [psiC, xiC, sim]
  | succ k ih =>
    intro hk r hr
    rw [hform (k + 1) hk r hr, sim]
    have ih' : ∀ c ∈ Finset.range d.n, ps.A.e r c * sim d ps.A ps.B ps.d x0 U k c =
        ps.A.e r c * ((∑ c' ∈ Finset.range d.n, phiC d.n ps.A k c c' * x0 c')
      + (∑ j ∈ Finset.range d.N, ∑ c' ∈ Finset.range d.m, psiC d.n ps.A ps.B k j c c' * ctrl d U j c')
      + xiC d.n ps.A ps.d k c) := by
      intro c hc
      rw [Finset.mem_range] at hc
      rw [← ih (by omega) c hc, hform k (by omega) c hc]
    rw [Finset.sum_congr rfl ih']
    simp only [mul_add, Finset.sum_add_distrib, xiC, psiC_succ, add_mul]
    have e1 : ∑ c ∈ Finset.range d.n, phiC d.n ps.A (k + 1) r c * x0 c =
        ∑ t ∈ Finset.range d.n, ps.A.e r t * ∑ c ∈ Finset.range d.n, phiC d.n ps.A k t c * x0 c := by
      simp only [phiC, Finset.sum_mul, Finset.mul_sum]
      rw [Finset.sum_comm]
      apply Finset.sum_congr rfl; intro t _
      apply Finset.sum_congr rfl; intro c _
      ring
    have e2 : (∑ j ∈ Finset.range d.N, ∑ c ∈ Finset.range d.m,
        (∑ t ∈ Finset.range d.n, ps.A.e r t * psiC d.n ps.A ps.B k j t c) * ctrl d U j c) =
        ∑ t ∈ Finset.range d.n, ps.A.e r t * ∑ j ∈ Finset.range d.N, ∑ c ∈ Finset.range d.m,
          psiC d.n ps.A ps.B k j t c * ctrl d U j c := by
      simp only [Finset.sum_mul, Finset.mul_sum]
      symm
      rw [Finset.sum_comm]
      apply Finset.sum_congr rfl; intro j _
      rw [Finset.sum_comm]
      apply Finset.sum_congr rfl; intro c _
      apply Finset.sum_congr rfl; intro t _
      ring
    have e3 : (∑ j ∈ Finset.range d.N, ∑ c ∈ Finset.range d.m,
        (if j = k then ps.B.e r c else 0) * ctrl d U j c) =
        ∑ c ∈ Finset.range d.m, ps.B.e r c * ctrl d U k c := by
      rw [Finset.sum_eq_single k]
      · simp
      · intro b _ hb; simp [hb]
      · intro h; exact absurd (Finset.mem_range.2 (by omega)) h
    rw [e1, e2, e3]
    ring

/-! ## Any history of one preview system -/

/-- Whatever the client does with a preview system after an accepted `system` call: sizes and zero parts
stay, and if the system is marked as updated then the dynamics have the right shape and the prediction
matrices are theirs. -/
structure SysAny (d : Dims) (ps : PreviewSystem K) : Prop where
  shape : SysShape d ps
  base : SysBase d ps
  upd : ps.isUpdated = true → DynShape d ps ∧ SysPred d ps

theorem SysShape.with {d : Dims} {ps : PreviewSystem K} (h : SysShape d ps) (x w : Vec K) (A B : Mat K)
    (b : Bool) : SysShape d { ps with x0 := x, A := A, B := B, d := w, isUpdated := b } :=
  ⟨h.nrU, h.nrX, h.xDim, h.uDim, h.fullX, h.fullU, h.Phir, h.Phic, h.Psir, h.Psic, h.xir, h.Npos,
    h.fullXle, h.fullUle, h.Nle, h.nle, h.mle⟩

theorem SysBase.with {d : Dims} {ps : PreviewSystem K} (h : SysBase d ps) (x w : Vec K) (A B : Mat K)
    (b : Bool) : SysBase d { ps with x0 := x, A := A, B := B, d := w, isUpdated := b } :=
  ⟨h.phi0, h.psi0, h.xi0⟩

theorem SysAny.setXInit {d : Dims} {ps : PreviewSystem K} (h : SysAny d ps) (x : Vec K) :
    SysAny d (ps.setXInit x) :=
  ⟨h.shape.with x ps.d ps.A ps.B ps.isUpdated, h.base.with x ps.d ps.A ps.B ps.isUpdated, fun hu =>
    have ⟨D, P⟩ := h.upd hu
    ⟨⟨D.Ar, D.Ac, D.Br, D.Bc, D.dr⟩, ⟨P.phi, P.psi, P.xi⟩⟩⟩

theorem SysAny.setDynamics {d : Dims} {ps : PreviewSystem K} (h : SysAny d ps) (A B : Mat K) (w : Vec K) :
    SysAny d (ps.setDynamics A B w) :=
  ⟨h.shape.with ps.x0 w A B false, h.base.with ps.x0 w A B false, fun hu => by cases hu⟩

theorem SysRaw.setXInit {d : Dims} {ps : PreviewSystem K} (h : SysRaw d ps) (x : Vec K) :
    SysRaw d (ps.setXInit x) :=
  ⟨⟨h.dims.toSysShape.with x ps.d ps.A ps.B ps.isUpdated, ⟨h.dims.Ar, h.dims.Ac, h.dims.Br, h.dims.Bc, h.dims.dr⟩⟩,
    h.base.with x ps.d ps.A ps.B ps.isUpdated⟩

theorem SysRaw.setDynamics {d : Dims} {ps : PreviewSystem K} (h : SysRaw d ps) {A B : Mat K} {w : Vec K}
    (hA : A.rows = d.n ∧ A.cols = d.n) (hB : B.rows = d.n ∧ B.cols = d.m) (hw : w.rows = d.n) :
    SysRaw d (ps.setDynamics A B w) :=
  ⟨⟨h.dims.toSysShape.with ps.x0 w A B false, ⟨hA.1, hA.2, hB.1, hB.2, hw⟩⟩,
    h.base.with ps.x0 w A B false⟩

theorem SysOk.setXInit {d : Dims} {ps : PreviewSystem K} (h : SysOk d ps) (x : Vec K) :
    SysOk d (ps.setXInit x) :=
  ⟨⟨h.dims.toSysShape.with x ps.d ps.A ps.B ps.isUpdated, ⟨h.dims.Ar, h.dims.Ac, h.dims.Br, h.dims.Bc, h.dims.dr⟩⟩,
    h.base.with x ps.d ps.A ps.B ps.isUpdated, fun hu =>
    have P := h.pred hu
    ⟨P.phi, P.psi, P.xi⟩⟩

theorem SysOk.setDynamics {d : Dims} {ps : PreviewSystem K} (h : SysOk d ps) {A B : Mat K} {w : Vec K}
    (hA : A.rows = d.n ∧ A.cols = d.n) (hB : B.rows = d.n ∧ B.cols = d.m) (hw : w.rows = d.n) :
    SysOk d (ps.setDynamics A B w) :=
  ⟨⟨h.dims.toSysShape.with ps.x0 w A B false, ⟨hA.1, hA.2, hB.1, hB.2, hw⟩⟩,
    h.base.with ps.x0 w A B false, fun hu => by cases hu⟩

theorem SysOk.any {d : Dims} {ps : PreviewSystem K} (h : SysOk d ps) : SysAny d ps :=
  ⟨h.dims.toSysShape, h.base, fun hu => ⟨h.dims.toDynShape, h.pred hu⟩⟩

/-- An update that is not undefined had dynamics of the right shape. -/
theorem updateSystem_dynShape {d : Dims} {ps ps' : PreviewSystem K} (h : SysShape d ps)
    (he : ps.updateSystem = some ps') : DynShape d ps := by
  unfold PreviewSystem.updateSystem at he
  simp only [Option.bind_eq_bind, Option.bind_eq_some_iff, Mat.setBlock?, Vec.setSegment?,
    Option.ite_none_right_eq_some, Option.some.injEq, h.xDim, h.uDim] at he
  obtain ⟨_, ⟨h1, _⟩, _, ⟨h2, _⟩, _, ⟨h3, _⟩, _⟩ := he
  exact ⟨h1.2.2.1, h1.2.2.2, h2.2.2.1, h2.2.2.2, h3.2⟩

theorem SysAny.update {d : Dims} {ps ps' : PreviewSystem K} (h : SysAny d ps)
    (he : ps.updateSystem = some ps') :
    SysOk d ps' ∧ SysPred d ps' ∧ ps'.isUpdated = true ∧
      ps'.A = ps.A ∧ ps'.B = ps.B ∧ ps'.d = ps.d ∧ ps'.x0 = ps.x0 := by
  have D : SysDims d ps := ⟨h.shape, updateSystem_dynShape h.shape he⟩
  exact (updateSystem_ok ⟨D, h.base, fun hu => (h.upd hu).2⟩).of_eq he

/-- Closed forms determine the in-range contents. -/
theorem SysPred.unique {d : Dims} {p q : PreviewSystem K} (P : SysPred d p) (Q : SysPred d q)
    (Sp : SysShape d p) (Sq : SysShape d q) (hA : p.A = q.A) (hB : p.B = q.B) (hd : p.d = q.d) :
    MatEq p.Phi q.Phi ∧ MatEq p.Psi q.Psi ∧ VecEq p.xi q.xi := by
  refine ⟨⟨?_, ?_, ?_⟩, ⟨?_, ?_, ?_⟩, ?_, ?_⟩
  · rw [Sp.Phir, Sq.Phir]
  · rw [Sp.Phic, Sq.Phic]
  · intro i hi j hj
    rw [Sp.Phir, Nat.mul_comm] at hi
    rw [Sp.Phic] at hj
    obtain ⟨k, r, hk, hr, rfl⟩ := blk_split hi
    rw [P.phi k (by omega) r hr j hj, Q.phi k (by omega) r hr j hj, hA]
  · rw [Sp.Psir, Sq.Psir]
  · rw [Sp.Psic, Sq.Psic]
  · intro i hi j hj
    rw [Sp.Psir, Nat.mul_comm] at hi
    rw [Sp.Psic, Nat.mul_comm] at hj
    obtain ⟨k, r, hk, hr, rfl⟩ := blk_split hi
    obtain ⟨l, c, hl, hc, rfl⟩ := blk_split hj
    rw [P.psi k (by omega) l hl r hr c hc, Q.psi k (by omega) l hl r hr c hc, hA, hB]
  · rw [Sp.xir, Sq.xir]
  · intro i hi
    rw [Sp.xir, Nat.mul_comm] at hi
    obtain ⟨k, r, hk, hr, rfl⟩ := blk_split hi
    rw [P.xi k (by omega) r hr, Q.xi k (by omega) r hr, hA, hd]

end Copra
