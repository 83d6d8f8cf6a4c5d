import Verif.Proofs.PreviewSystem
import Verif.Spec
import Mathlib.Tactic.FieldSimp

/-! # Cost terms: what `update` computes, entry by entry -/

namespace Copra
open Spec

set_option linter.unusedSectionVars false
set_option linter.unusedSimpArgs false

namespace Cost
variable {K : Type} [Field K]

/-- `(A' W B)_{ab}`. -/
def eE (R : Nat) (w : Nat → K) (A B : Nat → Nat → K) (a b : Nat) : K :=
  ∑ r ∈ Finset.range R, A r a * w r * B r b

/-- `(v' W B)_b`. -/
def fE (R : Nat) (w v : Nat → K) (B : Nat → Nat → K) (b : Nat) : K :=
  ∑ r ∈ Finset.range R, v r * w r * B r b

/-- Number of weighted residual blocks of a cost. -/
def steps (d : Dims) (c : Cost K) : Nat :=
  match c.kind with
  | .trajectory => if c.fullSizeEntry then 1 else d.N + 1
  | .target => 1
  | .control => if c.fullSizeEntry then 1 else d.N
  | .mixed => if c.fullSizeEntry then 1 else d.N

/-- Block `k` of the residual: state part, as combination of rows of a matrix of predictions. -/
def stateRow (d : Dims) (c : Cost K) (k r : Nat) (F : Nat → K) : K :=
  match c.kind with
  | .trajectory | .mixed =>
    if c.fullSizeEntry then ∑ s ∈ Finset.range (d.n * (d.N + 1)), c.M.e r s * F s
    else ∑ s ∈ Finset.range d.n, c.M.e r s * F (k * d.n + s)
  | .target => ∑ s ∈ Finset.range d.n, c.M.e r s * F (d.N * d.n + s)
  | .control => 0

/-- Block `k` of the residual: direct control part. -/
def ctrlRow (d : Dims) (c : Cost K) (k r j : Nat) : K :=
  match c.kind with
  | .control | .mixed =>
    if c.fullSizeEntry then c.N.e r j else if j / d.m = k then c.N.e r (j % d.m) else 0
  | .trajectory | .target => 0

/-- Coefficient of control `j` in residual `r` of block `k`. -/
def T (d : Dims) (ps : PreviewSystem K) (c : Cost K) (k r j : Nat) : K :=
  c.stateRow d k r (fun s => ps.Psi.e s j) + c.ctrlRow d k r j

/-- Coefficient of initial state `j` in residual `r` of block `k`. -/
def P (d : Dims) (ps : PreviewSystem K) (c : Cost K) (k r j : Nat) : K :=
  c.stateRow d k r (fun s => ps.Phi.e s j)

/-- Constant part of residual `r` of block `k`. -/
def V (d : Dims) (ps : PreviewSystem K) (c : Cost K) (k r : Nat) : K :=
  c.stateRow d k r ps.xi.e - c.p.e r

/-- Does `update` accumulate into `Q_`, `E_`, `f_` (rather than assign)? -/
def Accumulates (c : Cost K) : Prop :=
  (c.kind = .trajectory ∨ c.kind = .mixed) ∧ c.fullSizeEntry = false

/-- Only the results may differ. -/
def Same (c c' : Cost K) : Prop := c' = { c with Q := c'.Q, c := c'.c, E := c'.E, f := c'.f }

theorem Same.refl (c : Cost K) : Same c c := rfl

theorem Same.trans {c c' c'' : Cost K} (h : Same c c') (h' : Same c' c'') : Same c c'' := by
  unfold Same at *
  rw [h']
  conv => lhs; rw [h]

section same
variable {c c' : Cost K}
theorem Same.kind (h : Same c c') : c'.kind = c.kind := by rw [h]
theorem Same.full (h : Same c c') : c'.fullSizeEntry = c.fullSizeEntry := by rw [h]
theorem Same.M (h : Same c c') : c'.M = c.M := by rw [h]
theorem Same.N (h : Same c c') : c'.N = c.N := by rw [h]
theorem Same.p (h : Same c c') : c'.p = c.p := by rw [h]
theorem Same.weights (h : Same c c') : c'.weights = c.weights := by rw [h]
end same

/-- Sizes of the results. -/
structure Sizes (d : Dims) (c : Cost K) : Prop where
  Qr : c.Q.rows = d.m * d.N
  Qc : c.Q.cols = d.m * d.N
  cr : c.c.rows = d.m * d.N
  Er : c.E.rows = d.n
  Ec : c.E.cols = d.m * d.N
  fr : c.f.rows = d.m * d.N

/-- The data fits the dimensions. -/
def DataOk (d : Dims) (c : Cost K) : Prop :=
  match c.kind with
  | .trajectory => c.M.rows = c.p.rows ∧
    (if c.fullSizeEntry then c.M.cols ≠ d.n ∧ c.M.cols = d.n * (d.N + 1) else c.M.cols = d.n)
  | .target => c.M.rows = c.p.rows ∧ c.M.cols = d.n
  | .control => c.N.rows = c.p.rows ∧
    (if c.fullSizeEntry then c.N.cols ≠ d.m ∧ c.N.cols = d.m * d.N else c.N.cols = d.m)
  | .mixed => c.M.rows = c.p.rows ∧ c.N.rows = c.p.rows ∧
    (if c.fullSizeEntry then ¬ (c.M.cols = d.n ∧ c.N.cols = d.m) ∧ c.M.cols = d.n * (d.N + 1) ∧
      c.N.cols = d.m * d.N else c.M.cols = d.n ∧ c.N.cols = d.m)

/-- Off-diagonal blocks of the Hessian of a per-step control cost are zero. -/
def OffDiag (d : Dims) (c : Cost K) : Prop :=
  c.kind = .control → c.fullSizeEntry = false →
    ∀ k < d.N, ∀ l < d.N, k ≠ l → ∀ i < d.m, ∀ j < d.m, c.Q.e (k * d.m + i) (l * d.m + j) = 0

/-- A cost accepted for dimensions `d` (and possibly updated since). -/
structure Reg (d : Dims) (c : Cost K) : Prop where
  wr : c.weights.rows = c.p.rows
  data : DataOk d c
  sizes : Sizes d c
  off : OffDiag d c

/-- What an update needs: as `Reg`, but the results of a target cost may have any size (an update assigns them). -/
structure Pre (d : Dims) (c : Cost K) : Prop where
  wr : c.weights.rows = c.p.rows
  data : DataOk d c
  sizes : c.kind ≠ .target → Sizes d c
  off : OffDiag d c

theorem Reg.pre {d : Dims} {c : Cost K} (h : Reg d c) : Pre d c := ⟨h.wr, h.data, fun _ => h.sizes, h.off⟩

/-- What an update from `c` produces. -/
structure Updated (d : Dims) (ps : PreviewSystem K) (c c' : Cost K) : Prop where
  same : Same c c'
  Q : ∀ a < d.m * d.N, ∀ b < d.m * d.N, c'.Q.e a b = (open Classical in if Accumulates c then c.Q.e a b else 0) +
    ∑ k ∈ Finset.range (c.steps d), eE c.p.rows c.weights.e (c.T d ps k) (c.T d ps k) a b
  E : ∀ a < d.n, ∀ b < d.m * d.N, c'.E.e a b = (open Classical in if Accumulates c then c.E.e a b else 0) +
    ∑ k ∈ Finset.range (c.steps d), eE c.p.rows c.weights.e (c.P d ps k) (c.T d ps k) a b
  f : ∀ b < d.m * d.N, c'.f.e b = (open Classical in if Accumulates c then c.f.e b else 0) +
    ∑ k ∈ Finset.range (c.steps d), fE c.p.rows c.weights.e (c.V d ps k) (c.T d ps k) b
  c : ∀ b < d.m * d.N, c'.c.e b =
    (open Classical in if Accumulates c ∧ c.kind = .mixed then c.c.e b else 0) +
    ((∑ a ∈ Finset.range d.n, c'.E.e a b * ps.x0.e a) + c'.f.e b)

theorem wquad_ok {S B : Mat K} {w : Vec K} {Q : Mat K → Prop} (h1 : S.rows = w.rows) (h2 : B.rows = w.rows)
    (hQ : ∀ R : Mat K, R.rows = S.cols → R.cols = B.cols → (∀ a b, R.e a b = eE w.rows w.e S.e B.e a b) → Q R) :
    Ok (wquad S w B) Q := by
  unfold wquad
  apply Ok.bind; apply Ok.mulDiag? h1
  apply Ok.mul? (by show S.rows = B.rows; rw [h1, h2])
  refine hQ _ ?_ ?_ ?_
  · rfl
  · rfl
  intro a b
  rw [Mat.mul_e]
  unfold eE
  rw [Mat.mulDiag_cols, Mat.transpose_cols, h1]
  rfl

theorem wlin_ok {v w : Vec K} {B : Mat K} {Q : Vec K → Prop} (h1 : v.rows = w.rows) (h2 : B.rows = w.rows)
    (hQ : ∀ R : Vec K, R.rows = B.cols → (∀ b, R.e b = fE w.rows w.e v.e B.e b) → Q R) :
    Ok (wlin v w B) Q := by
  unfold wlin
  apply Ok.bind; apply Ok.cmul? h1
  apply Ok.vecMul? (by show v.rows = B.rows; rw [h1, h2])
  refine hQ _ ?_ ?_
  · rfl
  intro b
  rw [Mat.vecMul_e]
  unfold fE
  rw [Vec.cmul_rows, h1]
  rfl

/-- `terms` with the residual block given by the matrices `tmp`, `M * Phi` and `M * xi - p`. -/
theorem terms_ok {c : Cost K} {tmp Phi : Mat K} {xi : Vec K} {Q : Mat K × Mat K × Vec K → Prop}
    (hw : c.weights.rows = c.p.rows) (hM : c.M.rows = c.p.rows) (ht : tmp.rows = c.p.rows)
    (h1 : c.M.cols = Phi.rows) (h2 : c.M.cols = xi.rows)
    (hQ : ∀ (q e : Mat K) (f : Vec K), q.rows = tmp.cols → q.cols = tmp.cols → e.rows = Phi.cols →
      e.cols = tmp.cols → f.rows = tmp.cols →
      (∀ a b, q.e a b = eE c.p.rows c.weights.e tmp.e tmp.e a b) →
      (∀ a b, e.e a b = eE c.p.rows c.weights.e
        (fun r j => ∑ s ∈ Finset.range c.M.cols, c.M.e r s * Phi.e s j) tmp.e a b) →
      (∀ b, f.e b = fE c.p.rows c.weights.e
        (fun r => (∑ s ∈ Finset.range c.M.cols, c.M.e r s * xi.e s) - c.p.e r) tmp.e b) →
      Q (q, e, f)) :
    Ok (c.terms tmp Phi xi) Q := by
  unfold terms
  apply Ok.bind; apply wquad_ok (by rw [ht, hw]) (by rw [ht, hw])
  intro q q1 q2 q3
  apply Ok.bind; apply Ok.mul? h1
  apply Ok.bind; apply wquad_ok (by show c.M.rows = _; rw [hM, hw]) (by rw [ht, hw])
  intro e e1 e2 e3
  apply Ok.bind; apply Ok.mulVec? h2
  apply Ok.bind; apply Ok.vsub? (by show c.M.rows = _; exact hM)
  apply Ok.bind; apply wlin_ok (by show c.M.rows = _; rw [hM, hw]) (by rw [ht, hw])
  intro f f1 f2
  apply Ok.pure'
  rw [hw] at q3 e3 f2
  exact hQ q e f q1 q2 e1 e2 f1 q3 e3 f2

theorem linPart_ok {d : Dims} {ps : PreviewSystem K} {c : Cost K} {Q : Vec K → Prop} (hE : c.E.rows = d.n)
    (hEc : c.E.cols = d.m * d.N) (hf : c.f.rows = d.m * d.N) (hx : ps.x0.rows = d.n)
    (hQ : ∀ v : Vec K, v.rows = d.m * d.N →
      (∀ b, v.e b = (∑ a ∈ Finset.range d.n, c.E.e a b * ps.x0.e a) + c.f.e b) → Q v) :
    Ok (c.linPart ps) Q := by
  unfold linPart
  apply Ok.bind; apply Ok.mulVec? (by show c.E.rows = _; rw [hE, hx])
  apply Ok.vadd? (by show c.E.cols = _; rw [hEc, hf])
  apply hQ _ (by show c.E.cols = _; exact hEc)
  intro b
  rw [Vec.add_e, Mat.mulVec_e]
  rw [Mat.transpose_cols, hE]
  rfl

theorem eE_congr {R : Nat} {w : Nat → K} {A A' B B' : Nat → Nat → K} {a b a' b' : Nat}
    (hA : ∀ r < R, A r a = A' r a') (hB : ∀ r < R, B r b = B' r b') : eE R w A B a b = eE R w A' B' a' b' := by
  unfold eE
  apply Finset.sum_congr rfl
  intro r hr
  rw [hA r (Finset.mem_range.1 hr), hB r (Finset.mem_range.1 hr)]

theorem fE_congr {R : Nat} {w v v' : Nat → K} {B B' : Nat → Nat → K} {b b' : Nat}
    (hv : ∀ r < R, v r = v' r) (hB : ∀ r < R, B r b = B' r b') : fE R w v B b = fE R w v' B' b' := by
  unfold fE
  apply Finset.sum_congr rfl
  intro r hr
  rw [hv r (Finset.mem_range.1 hr), hB r (Finset.mem_range.1 hr)]

/-- Update of a cost with a single residual block that assigns its results. -/
theorem assignTerms_ok {d : Dims} {ps : PreviewSystem K} {c : Cost K} {tmp Phi : Mat K} {xi : Vec K}
    (h : Pre d c) (hx : ps.x0.rows = d.n) (hM : c.M.rows = c.p.rows) (ht : tmp.rows = c.p.rows)
    (htc : tmp.cols = d.m * d.N) (hPc : Phi.cols = d.n)
    (h1 : c.M.cols = Phi.rows) (h2 : c.M.cols = xi.rows) (hs : c.steps d = 1) (hacc : ¬ Accumulates c)
    (hT : ∀ r < c.p.rows, ∀ j < d.m * d.N, tmp.e r j = c.T d ps 0 r j)
    (hP : ∀ r < c.p.rows, ∀ j < d.n, (∑ s ∈ Finset.range c.M.cols, c.M.e r s * Phi.e s j) = c.P d ps 0 r j)
    (hV : ∀ r < c.p.rows, (∑ s ∈ Finset.range c.M.cols, c.M.e r s * xi.e s) - c.p.e r = c.V d ps 0 r)
    (hk : c.kind ≠ .control) :
    Ok (c.assignTerms ps tmp Phi xi) fun c' => Reg d c' ∧ Updated d ps c c' := by
  unfold assignTerms
  apply Ok.bind; apply terms_ok h.wr hM ht h1 h2
  intro q e f q1 q2 e1 e2 f1 q3 e3 f3
  apply Ok.bind
  apply linPart_ok (c := { c with Q := q, E := e, f := f }) (e1.trans hPc) (e2.trans htc) (f1.trans htc) hx
  intro v v1 v2
  apply Ok.pure'
  refine ⟨⟨h.wr, h.data, ⟨q1.trans htc, q2.trans htc, v1, e1.trans hPc, e2.trans htc, f1.trans htc⟩, fun hk' => absurd hk' hk⟩, ⟨rfl, ?_, ?_, ?_, ?_⟩⟩
  · intro a ha b hb
    rw [if_neg hacc, zero_add, hs, Finset.sum_range_one]
    show q.e a b = _
    rw [q3]
    exact eE_congr (fun r hr => hT r hr a ha) (fun r hr => hT r hr b hb)
  · intro a ha b hb
    rw [if_neg hacc, zero_add, hs, Finset.sum_range_one]
    show e.e a b = _
    rw [e3]
    exact eE_congr (fun r hr => hP r hr a ha) (fun r hr => hT r hr b hb)
  · intro b hb
    rw [if_neg hacc, zero_add, hs, Finset.sum_range_one]
    show f.e b = _
    rw [f3]
    exact fE_congr (fun r hr => hV r hr) (fun r hr => hT r hr b hb)
  · intro b hb
    rw [if_neg (fun x => hacc x.1), zero_add]
    exact v2 b

/-- One accumulation step. -/
theorem accumTerms_ok {d : Dims} {ps : PreviewSystem K} {c ct : Cost K} {tmp Phi : Mat K} {xi : Vec K}
    {t : Nat} (h : Pre d c) (hsame : Same c ct) (hz : Sizes d ct)
    (hM : c.M.rows = c.p.rows) (ht : tmp.rows = c.p.rows)
    (htc : tmp.cols = d.m * d.N) (hPc : Phi.cols = d.n)
    (h1 : c.M.cols = Phi.rows) (h2 : c.M.cols = xi.rows)
    (hT : ∀ r < c.p.rows, ∀ j < d.m * d.N, tmp.e r j = c.T d ps t r j)
    (hP : ∀ r < c.p.rows, ∀ j < d.n, (∑ s ∈ Finset.range c.M.cols, c.M.e r s * Phi.e s j) = c.P d ps t r j)
    (hV : ∀ r < c.p.rows, (∑ s ∈ Finset.range c.M.cols, c.M.e r s * xi.e s) - c.p.e r = c.V d ps t r) :
    Ok (ct.accumTerms tmp Phi xi) fun c' => Same c c' ∧ Sizes d c' ∧ c'.c = ct.c ∧
      (∀ a < d.m * d.N, ∀ b < d.m * d.N, c'.Q.e a b =
        ct.Q.e a b + eE c.p.rows c.weights.e (c.T d ps t) (c.T d ps t) a b) ∧
      (∀ a < d.n, ∀ b < d.m * d.N, c'.E.e a b =
        ct.E.e a b + eE c.p.rows c.weights.e (c.P d ps t) (c.T d ps t) a b) ∧
      (∀ b < d.m * d.N, c'.f.e b = ct.f.e b + fE c.p.rows c.weights.e (c.V d ps t) (c.T d ps t) b) := by
  unfold accumTerms
  apply Ok.bind
  apply terms_ok (c := ct) (by rw [hsame.weights, hsame.p]; exact h.wr) (by rw [hsame.M, hsame.p]; exact hM)
    (by rw [hsame.p]; exact ht) (by rw [hsame.M]; exact h1) (by rw [hsame.M]; exact h2)
  intro q e f q1 q2 e1 e2 f1 q3 e3 f3
  rw [hsame.p, hsame.weights] at q3
  rw [hsame.p, hsame.weights, hsame.M] at e3
  rw [hsame.p, hsame.weights, hsame.M] at f3
  apply Ok.bind; apply Ok.add? (by rw [hz.Qr]; exact (q1.trans htc).symm) (by rw [hz.Qc]; exact (q2.trans htc).symm)
  apply Ok.bind; apply Ok.add? (by rw [hz.Er]; exact (e1.trans hPc).symm) (by rw [hz.Ec]; exact (e2.trans htc).symm)
  apply Ok.bind; apply Ok.vadd? (by rw [hz.fr]; exact (f1.trans htc).symm)
  apply Ok.pure'
  refine ⟨hsame.trans rfl, ⟨hz.Qr, hz.Qc, hz.cr, hz.Er, hz.Ec, hz.fr⟩, rfl, ?_, ?_, ?_⟩
  · intro a ha b hb
    show ct.Q.e a b + q.e a b = _
    rw [q3]
    congr 1
    exact eE_congr (fun r hr => hT r hr a ha) (fun r hr => hT r hr b hb)
  · intro a ha b hb
    show ct.E.e a b + e.e a b = _
    rw [e3]
    congr 1
    exact eE_congr (fun r hr => hP r hr a ha) (fun r hr => hT r hr b hb)
  · intro b hb
    show ct.f.e b + f.e b = _
    rw [f3]
    congr 1
    exact fE_congr (fun r hr => hV r hr) (fun r hr => hT r hr b hb)

theorem updateTrajectory_ok {d : Dims} {ps : PreviewSystem K} {c : Cost K} (hk : c.kind = .trajectory)
    (h : Pre d c) (S : SysShape d ps) (hx : ps.x0.rows = d.n) :
    Ok (updateTrajectory ps c) fun c' => Reg d c' ∧ Updated d ps c c' := by
  have D := h.data
  unfold DataOk at D
  rw [hk] at D
  simp only at D
  obtain ⟨hM, D⟩ := D
  unfold updateTrajectory
  by_cases hf : c.fullSizeEntry
  · rw [if_pos hf] at D ⊢
    apply Ok.bind; apply Ok.mul? (by rw [D.2, S.Psir])
    apply assignTerms_ok h hx hM (by exact hM) (by exact S.Psic) S.Phic (by rw [D.2, S.Phir]) (by rw [D.2, S.xir])
    · unfold steps; rw [hk]; simp [hf]
    · rintro ⟨_, x⟩; rw [hf] at x; cases x
    · intro r hr j hj
      unfold T stateRow ctrlRow; rw [hk]; simp only [hf, if_true, add_zero]
      rw [Mat.mul_e, D.2]
    · intro r hr j hj
      unfold P stateRow; rw [hk]; simp only [hf, if_true]; rw [D.2]
    · intro r hr
      unfold V stateRow; rw [hk]; simp only [hf, if_true]; rw [D.2]
    · rw [hk]; simp
  · rw [if_neg hf] at D ⊢
    simp only [Bool.not_eq_true] at hf
    have hacc : Accumulates c := ⟨Or.inl hk, hf⟩
    rw [S.nrX]
    apply Ok.bind
    apply Ok.loop (I := fun t ct => Same c ct ∧ Sizes d ct ∧
      (∀ a < d.m * d.N, ∀ b < d.m * d.N, ct.Q.e a b =
        c.Q.e a b + ∑ k ∈ Finset.range t, eE c.p.rows c.weights.e (c.T d ps k) (c.T d ps k) a b) ∧
      (∀ a < d.n, ∀ b < d.m * d.N, ct.E.e a b =
        c.E.e a b + ∑ k ∈ Finset.range t, eE c.p.rows c.weights.e (c.P d ps k) (c.T d ps k) a b) ∧
      (∀ b < d.m * d.N, ct.f.e b =
        c.f.e b + ∑ k ∈ Finset.range t, fE c.p.rows c.weights.e (c.V d ps k) (c.T d ps k) b))
    · exact Nat.zero_le _
    · exact ⟨rfl, h.sizes (by rw [hk]; simp), by simp, by simp, by simp⟩
    · rintro t ct _ ht ⟨hs, hz, h1, h2, h3⟩
      unfold updateTrajectoryStep
      rw [S.xDim, S.fullU]
      have bl : t * d.n + d.n ≤ d.n * (d.N + 1) := blk_le' ht
      apply Ok.bind; apply Ok.block? (by rw [S.Psir]; exact bl) (by rw [S.Psic]; omega)
      apply Ok.bind; apply Ok.mul? (by rw [hs.M]; exact D)
      apply Ok.bind; apply Ok.block? (by rw [S.Phir]; exact bl) (by rw [S.Phic]; omega)
      apply Ok.bind; apply Ok.segment? (by rw [S.xir]; exact bl)
      refine (accumTerms_ok (ps := ps) (t := t) h hs hz hM (by show ct.M.rows = _; rw [hs.M]; exact hM) rfl rfl
        (by show _ = d.n; exact D) (by show _ = d.n; exact D) ?_ ?_ ?_).mono ?_
      · intro r hr j hj
        unfold T stateRow ctrlRow; rw [hk]; simp only [hf, add_zero]
        rw [Mat.mul_e, hs.M, D]
        simp
      · intro r hr j hj
        unfold P stateRow; rw [hk]; simp only [hf]; rw [D]
        simp
      · intro r hr
        unfold V stateRow; rw [hk]; simp only [hf]; rw [D]
        simp
      · rintro c' ⟨k1, k2, _, k4, k5, k6⟩
        refine ⟨k1, k2, ?_, ?_, ?_⟩
        · intro a ha b hb; rw [k4 a ha b hb, h1 a ha b hb, Finset.sum_range_succ, add_assoc]
        · intro a ha b hb; rw [k5 a ha b hb, h2 a ha b hb, Finset.sum_range_succ, add_assoc]
        · intro b hb; rw [k6 b hb, h3 b hb, Finset.sum_range_succ, add_assoc]
    · rintro ct ⟨hs, hz, h1, h2, h3⟩
      apply Ok.bind; apply linPart_ok hz.Er hz.Ec hz.fr hx
      intro v v1 v2
      apply Ok.pure'
      have hst : c.steps d = d.N + 1 := by unfold steps; rw [hk]; simp [hf]
      have hsame : Same c { ct with c := v } := hs.trans rfl
      refine ⟨⟨by rw [hsame.weights, hsame.p]; exact h.wr, ?_, ⟨hz.Qr, hz.Qc, v1, hz.Er, hz.Ec, hz.fr⟩, ?_⟩,
        ⟨hsame, ?_, ?_, ?_, ?_⟩⟩
      · have := h.data
        unfold DataOk at this ⊢
        rw [hsame.kind, hsame.M, hsame.N, hsame.p, hsame.full]; exact this
      · intro hk'; rw [hsame.kind, hk] at hk'; cases hk'
      · intro a ha b hb; rw [if_pos hacc, hst]; exact h1 a ha b hb
      · intro a ha b hb; rw [if_pos hacc, hst]; exact h2 a ha b hb
      · intro b hb; rw [if_pos hacc, hst]; exact h3 b hb
      · intro b hb; rw [if_neg (by rw [hk]; simp), zero_add]; exact v2 b

theorem bottomRows_ok {A : Mat K} {n m : Nat} {Q : Mat K → Prop} (h : A.rows = n * (m + 1))
    (hQ : ∀ B : Mat K, B.rows = n → B.cols = A.cols → (∀ i j, B.e i j = A.e (m * n + i) j) → Q B) :
    Ok (bottomRows? A n) Q := by
  unfold bottomRows?
  have hle : n ≤ n * (m + 1) := Nat.le_mul_of_pos_right _ (by omega)
  rw [if_pos (by rw [h]; exact hle)]
  apply Ok.block? (by rw [h]; omega) (by omega)
  refine hQ _ ?_ ?_ ?_
  · rfl
  · rfl
  intro i j
  rw [Mat.block_e, Nat.zero_add, h]
  congr 1
  rw [Nat.mul_succ, Nat.mul_comm m n]
  omega

theorem bottomSeg_ok {v : Vec K} {n m : Nat} {Q : Vec K → Prop} (h : v.rows = n * (m + 1))
    (hQ : ∀ u : Vec K, u.rows = n → (∀ i, u.e i = v.e (m * n + i)) → Q u) :
    Ok (bottomSeg? v n) Q := by
  unfold bottomSeg?
  have hle : n ≤ n * (m + 1) := Nat.le_mul_of_pos_right _ (by omega)
  rw [if_pos (by rw [h]; exact hle)]
  apply Ok.segment? (by rw [h]; omega)
  refine hQ _ ?_ ?_
  · rfl
  intro i
  rw [Vec.segment_e, h]
  congr 1
  rw [Nat.mul_succ, Nat.mul_comm m n]
  omega

theorem updateTarget_ok {d : Dims} {ps : PreviewSystem K} {c : Cost K} (hk : c.kind = .target)
    (h : Pre d c) (S : SysShape d ps) (hx : ps.x0.rows = d.n) :
    Ok (updateTarget ps c) fun c' => Reg d c' ∧ Updated d ps c c' := by
  have D := h.data
  unfold DataOk at D
  rw [hk] at D
  simp only at D
  obtain ⟨hM, D⟩ := D
  unfold updateTarget
  rw [S.xDim]
  apply Ok.bind; apply bottomRows_ok S.Psir
  intro B b1 b2 b3
  apply Ok.bind; apply Ok.mul? (by rw [b1, D])
  apply Ok.bind; apply bottomRows_ok S.Phir
  intro F f1 f2 f3
  apply Ok.bind; apply bottomSeg_ok S.xir
  intro s s1 s2
  apply assignTerms_ok h hx hM (by exact hM) (by show B.cols = _; rw [b2, S.Psic]) (by rw [f2, S.Phic])
    (by rw [D, f1]) (by rw [D, s1])
  · unfold steps; rw [hk]
  · rintro ⟨x | x, _⟩ <;> rw [hk] at x <;> cases x
  · intro r hr j hj
    unfold T stateRow ctrlRow; rw [hk]; simp only [add_zero]
    rw [Mat.mul_e, D]
    exact Finset.sum_congr rfl fun s _ => by rw [b3]
  · intro r hr j hj
    unfold P stateRow; rw [hk]; simp only; rw [D]
    exact Finset.sum_congr rfl fun s _ => by rw [f3]
  · intro r hr
    unfold V stateRow; rw [hk]; simp only; rw [D]
    congr 1
    exact Finset.sum_congr rfl fun s _ => by rw [s2]
  · rw [hk]; simp

theorem updateMixed_ok {d : Dims} {ps : PreviewSystem K} {c : Cost K} (hk : c.kind = .mixed)
    (h : Pre d c) (S : SysShape d ps) (hx : ps.x0.rows = d.n) :
    Ok (updateMixed ps c) fun c' => Reg d c' ∧ Updated d ps c c' := by
  have D := h.data
  unfold DataOk at D
  rw [hk] at D
  simp only at D
  obtain ⟨hM, hN, D⟩ := D
  unfold updateMixed
  by_cases hf : c.fullSizeEntry
  · rw [if_pos hf] at D ⊢
    obtain ⟨_, D1, D2⟩ := D
    apply Ok.bind; apply Ok.mul? (by rw [D1, S.Psir])
    apply Ok.bind; apply Ok.add? (by show c.M.rows = _; rw [hM, hN]) (by show ps.Psi.cols = _; rw [S.Psic, D2])
    apply assignTerms_ok h hx hM (by exact hM) (by exact S.Psic) S.Phic (by rw [D1, S.Phir]) (by rw [D1, S.xir])
    · unfold steps; rw [hk]; simp [hf]
    · rintro ⟨_, x⟩; rw [hf] at x; cases x
    · intro r hr j hj
      unfold T stateRow ctrlRow; rw [hk]; simp only [hf, if_true]
      rw [Mat.add_e, Mat.mul_e, D1]
    · intro r hr j hj
      unfold P stateRow; rw [hk]; simp only [hf, if_true]; rw [D1]
    · intro r hr
      unfold V stateRow; rw [hk]; simp only [hf, if_true]; rw [D1]
    · rw [hk]; simp
  · rw [if_neg hf] at D ⊢
    simp only [Bool.not_eq_true] at hf
    obtain ⟨D1, D2⟩ := D
    have hacc : Accumulates c := ⟨Or.inr hk, hf⟩
    rw [S.nrU]
    apply Ok.bind
    apply Ok.loop (I := fun t ct => Same c ct ∧ Sizes d ct ∧ ct.c = c.c ∧
      (∀ a < d.m * d.N, ∀ b < d.m * d.N, ct.Q.e a b =
        c.Q.e a b + ∑ k ∈ Finset.range t, eE c.p.rows c.weights.e (c.T d ps k) (c.T d ps k) a b) ∧
      (∀ a < d.n, ∀ b < d.m * d.N, ct.E.e a b =
        c.E.e a b + ∑ k ∈ Finset.range t, eE c.p.rows c.weights.e (c.P d ps k) (c.T d ps k) a b) ∧
      (∀ b < d.m * d.N, ct.f.e b =
        c.f.e b + ∑ k ∈ Finset.range t, fE c.p.rows c.weights.e (c.V d ps k) (c.T d ps k) b))
    · exact Nat.zero_le _
    · exact ⟨rfl, h.sizes (by rw [hk]; simp), rfl, by simp, by simp, by simp⟩
    · rintro t ct _ ht ⟨hs, hz, hc, h1, h2, h3⟩
      unfold updateMixedStep
      rw [S.xDim, S.fullU, S.uDim]
      have bl : t * d.n + d.n ≤ d.n * (d.N + 1) := blk_le' (by omega)
      have bm : t * d.m + d.m ≤ d.m * d.N := blk_le' ht
      apply Ok.bind; apply Ok.block? (by rw [S.Psir]; exact bl) (by rw [S.Psic]; omega)
      apply Ok.bind; apply Ok.mul? (by rw [hs.M]; exact D1)
      apply Ok.bind
      have hblk : Ok (((ct.M.mul (ps.Psi.block (t * d.n) 0 d.n (d.m * d.N))).addBlock? 0 (t * d.m) ct.M.rows d.m ct.N))
          fun tmp => tmp.rows = c.p.rows ∧ tmp.cols = d.m * d.N ∧
            ∀ r < c.p.rows, ∀ j < d.m * d.N, tmp.e r j = c.T d ps t r j := by
        apply Ok.addBlock? (by show 0 + ct.M.rows ≤ ct.M.rows; omega) (by show _ ≤ d.m * d.N; exact bm)
          (by rw [hs.N, hs.M, hN, hM]) (by rw [hs.N]; exact D2)
        refine ⟨by show ct.M.rows = _; rw [hs.M]; exact hM, rfl, ?_⟩
        intro r hr j hj
        have hTd : c.T d ps t r j = (∑ s ∈ Finset.range d.n, c.M.e r s * ps.Psi.e (t * d.n + s) j) +
            if j / d.m = t then c.N.e r (j % d.m) else 0 := by
          unfold T stateRow ctrlRow; rw [hk]; simp [hf]
        rw [hTd]
        have base : ∀ j', (ct.M.mul (ps.Psi.block (t * d.n) 0 d.n (d.m * d.N))).e r j' =
            ∑ s ∈ Finset.range d.n, c.M.e r s * ps.Psi.e (t * d.n + s) j' := by
          intro j'
          rw [Mat.mul_e, hs.M, D1]
          simp
        rw [Nat.mul_comm] at hj
        obtain ⟨l, i, hl, hi, rfl⟩ := blk_split hj
        rw [blk_div hi, blk_mod hi, Mat.setBlock_e]
        rw [hs.M, hM, hs.N]
        have hiff := blk_iff (a := t) (k := l) hi
        by_cases hlt : l = t
        · subst hlt
          rw [if_pos ⟨by omega, by omega, by omega, by omega⟩, if_pos rfl]
          simp only [Mat.add_e, Mat.block_e, Nat.zero_add, Nat.sub_zero]
          have e1 : l * d.m + (l * d.m + i - l * d.m) = l * d.m + i := by omega
          have e2 : l * d.m + i - l * d.m = i := by omega
          rw [e2]
          have := base (l * d.m + i)
          rw [hs.M] at this
          rw [this]
        · rw [if_neg (fun x => hlt (hiff.1 ⟨x.2.2.1, x.2.2.2⟩)), if_neg hlt, add_zero]
          have := base (l * d.m + i)
          rw [hs.M] at this
          exact this
      refine hblk.mono ?_
      rintro tmp ⟨t1, t2, t3⟩
      apply Ok.bind; apply Ok.block? (by rw [S.Phir]; exact bl) (by rw [S.Phic]; omega)
      apply Ok.bind; apply Ok.segment? (by rw [S.xir]; exact bl)
      refine (accumTerms_ok (ps := ps) (t := t) h hs hz hM t1 t2 rfl
        (by show _ = d.n; exact D1) (by show _ = d.n; exact D1) t3 ?_ ?_).mono ?_
      · intro r hr j hj
        unfold P stateRow; rw [hk]; simp only [hf]; rw [D1]
        simp
      · intro r hr
        unfold V stateRow; rw [hk]; simp only [hf]; rw [D1]
        simp
      · rintro c' ⟨k1, k2, k3, k4, k5, k6⟩
        refine ⟨k1, k2, k3.trans hc, ?_, ?_, ?_⟩
        · intro a ha b hb; rw [k4 a ha b hb, h1 a ha b hb, Finset.sum_range_succ, add_assoc]
        · intro a ha b hb; rw [k5 a ha b hb, h2 a ha b hb, Finset.sum_range_succ, add_assoc]
        · intro b hb; rw [k6 b hb, h3 b hb, Finset.sum_range_succ, add_assoc]
    · rintro ct ⟨hs, hz, hc, h1, h2, h3⟩
      apply Ok.bind; apply linPart_ok hz.Er hz.Ec hz.fr hx
      intro v v1 v2
      apply Ok.bind; apply Ok.vadd? (by rw [hz.cr, v1])
      apply Ok.pure'
      have hst : c.steps d = d.N := by unfold steps; rw [hk]; simp [hf]
      have hsame : Same c { ct with c := ct.c.add v } := hs.trans rfl
      refine ⟨⟨by rw [hsame.weights, hsame.p]; exact h.wr, ?_, ⟨hz.Qr, hz.Qc, hz.cr, hz.Er, hz.Ec, hz.fr⟩, ?_⟩,
        ⟨hsame, ?_, ?_, ?_, ?_⟩⟩
      · have := h.data
        unfold DataOk at this ⊢
        rw [hsame.kind, hsame.M, hsame.N, hsame.p, hsame.full]; exact this
      · intro hk'; rw [hsame.kind, hk] at hk'; cases hk'
      · intro a ha b hb; rw [if_pos hacc, hst]; exact h1 a ha b hb
      · intro a ha b hb; rw [if_pos hacc, hst]; exact h2 a ha b hb
      · intro b hb; rw [if_pos hacc, hst]; exact h3 b hb
      · intro b hb
        rw [if_pos ⟨hacc, hk⟩]
        show (ct.c.add v).e b = _
        rw [Vec.add_e, hc, v2]

theorem updateControl_ok {d : Dims} {ps : PreviewSystem K} {c : Cost K} (hk : c.kind = .control)
    (h : Pre d c) (S : SysShape d ps) :
    Ok (updateControl ps c) fun c' => Reg d c' ∧ Updated d ps c c' := by
  have D := h.data
  unfold DataOk at D
  rw [hk] at D
  simp only at D
  obtain ⟨hN, D⟩ := D
  have Z := h.sizes (by rw [hk]; simp)
  have hacc : ¬ Accumulates c := by rintro ⟨x | x, _⟩ <;> rw [hk] at x <;> cases x
  unfold updateControl
  by_cases hf : c.fullSizeEntry
  · rw [if_pos hf] at D ⊢
    have hs : c.steps d = 1 := by unfold steps; rw [hk]; simp [hf]
    apply Ok.bind; apply wquad_ok (by rw [hN, h.wr]) (by rw [hN, h.wr])
    intro q q1 q2 q3
    apply Ok.bind; apply wlin_ok (by show c.p.rows = _; rw [h.wr]) (by rw [hN, h.wr])
    intro f f1 f2
    apply Ok.pure'
    rw [h.wr] at q3 f2
    have hT : ∀ r j, c.N.e r j = c.T d ps 0 r j := by
      intro r j; unfold T stateRow ctrlRow; rw [hk]; simp [hf]
    have hV : ∀ r, c.p.neg.e r = c.V d ps 0 r := by
      intro r; unfold V stateRow; rw [hk]; simp
    have hP : ∀ r j, c.P d ps 0 r j = 0 := by intro r j; unfold P stateRow; rw [hk]
    refine ⟨⟨h.wr, h.data, ⟨q1.trans D.2, q2.trans D.2, f1.trans D.2, Z.Er, Z.Ec, f1.trans D.2⟩, ?_⟩,
      ⟨rfl, ?_, ?_, ?_, ?_⟩⟩
    · intro _ x; rw [show _ = true from hf] at x; cases x
    · intro a ha b hb
      rw [if_neg hacc, zero_add, hs, Finset.sum_range_one]
      show q.e a b = _
      rw [q3]
      exact eE_congr (fun r _ => hT r a) (fun r _ => hT r b)
    · intro a ha b hb
      rw [if_neg hacc, zero_add, hs, Finset.sum_range_one]
      show (0 : K) = _
      unfold eE
      simp [hP]
    · intro b hb
      rw [if_neg hacc, zero_add, hs, Finset.sum_range_one]
      show f.e b = _
      rw [f2]
      exact fE_congr (fun r _ => hV r) (fun r _ => hT r b)
    · intro b hb
      rw [if_neg (fun x => hacc x.1), zero_add]
      show f.e b = (∑ a ∈ Finset.range d.n, (0 : K) * ps.x0.e a) + f.e b
      simp
  · rw [if_neg hf] at D ⊢
    simp only [Bool.not_eq_true] at hf
    have hs : c.steps d = d.N := by unfold steps; rw [hk]; simp [hf]
    apply Ok.bind; apply wquad_ok (by rw [hN, h.wr]) (by rw [hN, h.wr])
    intro q q1 q2 q3
    apply Ok.bind; apply wlin_ok (by show c.p.rows = _; rw [h.wr]) (by rw [hN, h.wr])
    intro f f1 f2
    rw [h.wr] at q3 f2
    rw [S.nrU]
    apply Ok.loop (I := fun t ct => Same c ct ∧ Sizes d ct ∧ OffDiag d ct ∧
      (∀ k < t, ∀ i < d.m, ∀ j < d.m, ct.Q.e (k * d.m + i) (k * d.m + j) = q.e i j) ∧
      (∀ k < t, ∀ a < d.n, ∀ j < d.m, ct.E.e a (k * d.m + j) = 0) ∧
      (∀ k < t, ∀ j < d.m, ct.f.e (k * d.m + j) = f.e j ∧ ct.c.e (k * d.m + j) = f.e j))
    · exact Nat.zero_le _
    · exact ⟨rfl, Z, h.off, by simp, by simp, by simp⟩
    · rintro t ct _ ht ⟨hs, hz, ho, h1, h2, h3⟩
      unfold updateControlStep
      rw [S.uDim, S.xDim]
      have bm : t * d.m + d.m ≤ d.m * d.N := blk_le' ht
      apply Ok.bind; apply Ok.setBlock? (by rw [hz.Qr]; exact bm) (by rw [hz.Qc]; exact bm) (q1.trans D) (q2.trans D)
      apply Ok.bind; apply Ok.setBlock? (by rw [hz.Er]; omega) (by rw [hz.Ec]; exact bm) (by rfl) (by rfl)
      apply Ok.bind; apply Ok.setSegment? (by rw [hz.fr]; exact bm) (f1.trans D)
      apply Ok.bind; apply Ok.segment? (by show _ ≤ ct.f.rows; rw [hz.fr]; exact bm)
      apply Ok.bind; apply Ok.setSegment? (by rw [hz.cr]; exact bm) (by rfl)
      apply Ok.pure'
      refine ⟨hs.trans rfl, ⟨hz.Qr, hz.Qc, hz.cr, hz.Er, hz.Ec, hz.fr⟩, ?_, ?_, ?_, ?_⟩
      · intro hk' hf' k hkN l hl hkl i hi j hj
        show (ct.Q.setBlock _ _ _ _ q).e _ _ = 0
        rw [setBlock_blk _ _ hi hj, if_neg (fun x => hkl (x.1.trans x.2.symm))]
        exact ho hk' hf' k hkN l hl hkl i hi j hj
      · intro k hkt i hi j hj
        show (ct.Q.setBlock _ _ _ _ q).e _ _ = _
        rw [setBlock_blk _ _ hi hj]
        by_cases hkk : k = t
        · rw [if_pos ⟨hkk, hkk⟩]
        · rw [if_neg (fun x => hkk x.1)]
          exact h1 k (by omega) i hi j hj
      · intro k hkt a ha j hj
        show (ct.E.setBlock _ _ _ _ _).e _ _ = _
        rw [Mat.setBlock_e]
        by_cases hkk : k = t
        · split
          · rfl
          · rename_i hne
            exfalso
            apply hne
            have := (blk_iff (a := t) hj).2 hkk
            exact ⟨by omega, by omega, this.1, this.2⟩
        · rw [if_neg]
          · exact h2 k (by omega) a ha j hj
          · rintro ⟨_, _, x, y⟩
            exact hkk ((blk_iff hj).1 ⟨x, y⟩)
      · intro k hkt j hj
        show (ct.f.setSegment _ _ f).e _ = _ ∧ (ct.c.setSegment _ _ ((ct.f.setSegment _ _ f).segment _ _)).e _ = _
        rw [setSegment_blk _ _ hj, setSegment_blk _ _ hj]
        by_cases hkk : k = t
        · rw [if_pos hkk, if_pos hkk, Vec.segment_e, setSegment_blk _ _ hj, if_pos rfl]
          exact ⟨rfl, rfl⟩
        · rw [if_neg hkk, if_neg hkk]
          exact h3 k (by omega) j hj
    · rintro ct ⟨hs', hz, ho, h1, h2, h3⟩
      have hP : ∀ k r j, c.P d ps k r j = 0 := by intro k r j; unfold P stateRow; rw [hk]
      have hT : ∀ k r l, ∀ j < d.m, c.T d ps k r (l * d.m + j) = if l = k then c.N.e r j else 0 := by
        intro k r l j hj
        unfold T stateRow ctrlRow; rw [hk]; simp only [hf, zero_add]
        rw [blk_div hj, blk_mod hj]
        simp
      have hV : ∀ k r, c.V d ps k r = c.p.neg.e r := by
        intro k r; unfold V stateRow; rw [hk]; simp
      refine ⟨⟨by rw [hs'.weights, hs'.p]; exact h.wr, ?_, hz, ho⟩, ⟨hs', ?_, ?_, ?_, ?_⟩⟩
      · have := h.data
        unfold DataOk at this ⊢
        rw [hs'.kind, hs'.M, hs'.N, hs'.p, hs'.full]; exact this
      · intro a ha b hb
        rw [if_neg hacc, zero_add, hs]
        rw [Nat.mul_comm] at ha hb
        obtain ⟨k, i, hk', hi, rfl⟩ := blk_split ha
        obtain ⟨l, j, hl, hj, rfl⟩ := blk_split hb
        by_cases hkl : k = l
        · subst hkl
          rw [h1 k hk' i hi j hj, q3, Finset.sum_eq_single k]
          · exact eE_congr (fun r _ => by rw [hT k r k i hi, if_pos rfl]) (fun r _ => by rw [hT k r k j hj, if_pos rfl])
          · intro s _ hsk
            unfold eE
            apply Finset.sum_eq_zero
            intro r _
            rw [hT s r k i hi, if_neg (Ne.symm hsk), zero_mul, zero_mul]
          · intro x; exact absurd (Finset.mem_range.2 hk') x
        · rw [ho (by rw [hs'.kind]; exact hk) (by rw [hs'.full]; exact hf) k hk' l hl hkl i hi j hj]
          symm
          apply Finset.sum_eq_zero
          intro s _
          unfold eE
          apply Finset.sum_eq_zero
          intro r _
          rw [hT s r k i hi, hT s r l j hj]
          by_cases hks : k = s
          · rw [if_neg (fun x => hkl (hks.trans x.symm) : ¬ l = s), mul_zero]
          · rw [if_neg hks, zero_mul, zero_mul]
      · intro a ha b hb
        rw [if_neg hacc, zero_add]
        rw [Nat.mul_comm] at hb
        obtain ⟨l, j, hl, hj, rfl⟩ := blk_split hb
        rw [h2 l hl a ha j hj]
        symm
        apply Finset.sum_eq_zero
        intro s _
        unfold eE
        apply Finset.sum_eq_zero
        intro r _
        rw [hP, zero_mul, zero_mul]
      · intro b hb
        rw [if_neg hacc, zero_add, hs]
        rw [Nat.mul_comm] at hb
        obtain ⟨l, j, hl, hj, rfl⟩ := blk_split hb
        rw [(h3 l hl j hj).1, f2, Finset.sum_eq_single l]
        · exact fE_congr (fun r _ => (hV l r).symm) (fun r _ => by rw [hT l r l j hj, if_pos rfl])
        · intro s _ hsl
          unfold fE
          apply Finset.sum_eq_zero
          intro r _
          rw [hT s r l j hj, if_neg (Ne.symm hsl), mul_zero]
        · intro x; exact absurd (Finset.mem_range.2 hl) x
      · intro b hb
        rw [if_neg (fun x => hacc x.1), zero_add]
        rw [Nat.mul_comm] at hb
        obtain ⟨l, j, hl, hj, rfl⟩ := blk_split hb
        rw [(h3 l hl j hj).2, (h3 l hl j hj).1]
        rw [Finset.sum_eq_zero]
        · rw [zero_add]
        · intro a ha
          rw [h2 l hl a (Finset.mem_range.1 ha) j hj, zero_mul]

/-- Every update of a registered cost succeeds and computes the terms. -/
theorem update_ok {d : Dims} {ps : PreviewSystem K} {c : Cost K} (h : Pre d c) (S : SysShape d ps)
    (hx : ps.x0.rows = d.n) : Ok (c.update ps) fun c' => Reg d c' ∧ Updated d ps c c' := by
  unfold update
  cases hk : c.kind
  · exact updateTrajectory_ok hk h S hx
  · exact updateTarget_ok hk h S hx
  · exact updateControl_ok hk h S
  · exact updateMixed_ok hk h S hx

end Cost
end Copra
