import Verif.Eigen
import Mathlib.Tactic.Ring
import Mathlib.Tactic.Linarith
import Mathlib.Algebra.BigOperators.Intervals

/-! # Reasoning about checked computations and block indices -/

namespace Copra

/-- The computation succeeds with a result satisfying `P`. -/
def Ok {α : Type} (o : Option α) (P : α → Prop) : Prop := ∃ a, o = some a ∧ P a

namespace Ok
variable {α β σ K : Type}

theorem bind {o : Option α} {f : α → Option β} {P : β → Prop}
    (h : Ok o fun a => Ok (f a) P) : Ok (o >>= f) P := by
  obtain ⟨a, rfl, b, hb, hP⟩ := h
  exact ⟨b, by simpa using hb, hP⟩

theorem pure {a : α} {P : α → Prop} (h : P a) : Ok (some a) P := ⟨a, rfl, h⟩

theorem pure' {a : α} {P : α → Prop} (h : P a) : Ok (Pure.pure a : Option α) P := ⟨a, rfl, h⟩

theorem mono {o : Option α} {P Q : α → Prop} (h : Ok o P) (hPQ : ∀ a, P a → Q a) : Ok o Q := by
  obtain ⟨a, h1, h2⟩ := h
  exact ⟨a, h1, hPQ a h2⟩

theorem of_eq {o : Option α} {P : α → Prop} {a : α} (h : Ok o P) (he : o = some a) : P a := by
  obtain ⟨b, h1, h2⟩ := h
  rw [h1] at he
  cases he
  exact h2

theorem chkInt {n : Nat} {P : Nat → Prop} (h : n ≤ intMax) (hP : P n) : Ok (Copra.chkInt n) P :=
  ⟨n, by simp [Copra.chkInt, h], hP⟩

theorem foldlM {l : List α} {f : σ → α → Option σ} {s : σ} {P : σ → Prop}
    (I : List α → List α → σ → Prop) (h0 : I [] l s)
    (hstep : ∀ done x rest s, l = done ++ x :: rest → I done (x :: rest) s →
      Ok (f s x) (I (done ++ [x]) rest))
    (hpost : ∀ s, I l [] s → P s) : Ok (l.foldlM f s) P := by
  have key : ∀ (rest done : List α) (s : σ), l = done ++ rest → I done rest s →
      Ok (rest.foldlM f s) (I l []) := by
    intro rest
    induction rest with
    | nil =>
      intro done s hl hI
      simp only [List.append_nil] at hl
      subst hl
      exact Ok.pure' hI
    | cons x rest ih =>
      intro done s hl hI
      rw [List.foldlM_cons]
      apply Ok.bind
      refine (hstep done x rest s hl hI).mono ?_
      intro s' hs'
      exact ih (done ++ [x]) s' (by simp [hl]) hs'
  exact (key l [] s rfl h0).mono hpost

theorem loop {a b : Nat} {f : Nat → σ → Option σ} {s : σ} {P : σ → Prop}
    (I : Nat → σ → Prop) (hab : a ≤ b) (h0 : I a s)
    (hstep : ∀ i s, a ≤ i → i < b → I i s → Ok (f i s) (I (i + 1)))
    (hpost : ∀ s, I b s → P s) : Ok (Copra.loop a b f s) P := by
  unfold Copra.loop
  have key : ∀ (k i : Nat) (s : σ), a ≤ i → i + k = b → I i s →
      Ok ((List.range' i k).foldlM (fun s i => f i s) s) (I b) := by
    intro k
    induction k with
    | zero =>
      intro i s _ hb hI
      simp only [Nat.add_zero] at hb
      subst hb
      exact Ok.pure' hI
    | succ k ih =>
      intro i s ha hb hI
      rw [List.range'_succ, List.foldlM_cons]
      apply Ok.bind
      refine (hstep i s ha (by omega) hI).mono ?_
      intro s' hs'
      exact ih (i + 1) s' (by omega) (by omega) hs'
  exact (key (b - a) a s (le_refl _) (by omega) h0).mono hpost

section ops
variable [Field K]

theorem mul? {A B : Mat K} {P : Mat K → Prop} (h : A.cols = B.rows) (hP : P (A.mul B)) :
    Ok (A.mul? B) P := ⟨_, by simp [Mat.mul?, h], hP⟩

theorem add? {A B : Mat K} {P : Mat K → Prop} (h1 : A.rows = B.rows) (h2 : A.cols = B.cols)
    (hP : P (A.add B)) : Ok (A.add? B) P := ⟨_, by simp [Mat.add?, h1, h2], hP⟩

theorem mulVec? {A : Mat K} {v : Vec K} {P : Vec K → Prop} (h : A.cols = v.rows)
    (hP : P (A.mulVec v)) : Ok (A.mulVec? v) P := ⟨_, by simp [Mat.mulVec?, h], hP⟩

theorem vecMul? {A : Mat K} {v : Vec K} {P : Vec K → Prop} (h : v.rows = A.rows)
    (hP : P (Mat.vecMul v A)) : Ok (Mat.vecMul? v A) P := ⟨_, by simp [Mat.vecMul?, h], hP⟩

theorem mulDiag? {A : Mat K} {v : Vec K} {P : Mat K → Prop} (h : A.cols = v.rows)
    (hP : P (A.mulDiag v)) : Ok (A.mulDiag? v) P := ⟨_, by simp [Mat.mulDiag?, h], hP⟩

theorem vsub? {u v : Vec K} {P : Vec K → Prop} (h : u.rows = v.rows)
    (hP : P (u.sub v)) : Ok (u.sub? v) P := ⟨_, by simp [Vec.sub?, h], hP⟩

theorem vadd? {u v : Vec K} {P : Vec K → Prop} (h : u.rows = v.rows)
    (hP : P (u.add v)) : Ok (u.add? v) P := ⟨_, by simp [Vec.add?, h], hP⟩

theorem subFin? {u : Vec (Ext K)} {v : Vec K} {P : Vec (Ext K) → Prop} (h : u.rows = v.rows)
    (hP : P (u.subFin v)) : Ok (u.subFin? v) P := ⟨_, by simp [Vec.subFin?, h], hP⟩

theorem cmul? {u v : Vec K} {P : Vec K → Prop} (h : u.rows = v.rows)
    (hP : P (u.cmul v)) : Ok (u.cmul? v) P := ⟨_, by simp [Vec.cmul?, h], hP⟩

theorem dot? {u v : Vec K} {P : K → Prop} (h : u.rows = v.rows)
    (hP : P (∑ k ∈ Finset.range u.rows, u.e k * v.e k)) : Ok (u.dot? v) P :=
  ⟨_, if_pos h, hP⟩

theorem addBlock? {A : Mat K} {i j m n : Nat} {S : Mat K} {P : Mat K → Prop}
    (h1 : i + m ≤ A.rows) (h2 : j + n ≤ A.cols) (h3 : S.rows = m) (h4 : S.cols = n)
    (hP : P (A.setBlock i j m n ((A.block i j m n).add S))) : Ok (A.addBlock? i j m n S) P := by
  refine ⟨_, ?_, hP⟩
  simp [Mat.addBlock?, Mat.block?, h1, h2, Mat.add?, h3, h4, Mat.setBlock?, Mat.block, Mat.add]

theorem addSegment? {v : Vec K} {i m : Nat} {s : Vec K} {P : Vec K → Prop}
    (h1 : i + m ≤ v.rows) (h2 : s.rows = m)
    (hP : P (v.setSegment i m ((v.segment i m).add s))) : Ok (v.addSegment? i m s) P := by
  refine ⟨_, ?_, hP⟩
  simp [Vec.addSegment?, Vec.segment?, h1, Vec.add?, h2, Vec.setSegment?, Vec.segment, Vec.add]

end ops

theorem block? {A : Mat K} {i j m n : Nat} {P : Mat K → Prop} (h1 : i + m ≤ A.rows)
    (h2 : j + n ≤ A.cols) (hP : P (A.block i j m n)) : Ok (A.block? i j m n) P :=
  ⟨_, by simp [Mat.block?, h1, h2], hP⟩

theorem setBlock? {A : Mat K} {i j m n : Nat} {S : Mat K} {P : Mat K → Prop} (h1 : i + m ≤ A.rows)
    (h2 : j + n ≤ A.cols) (h3 : S.rows = m) (h4 : S.cols = n) (hP : P (A.setBlock i j m n S)) :
    Ok (A.setBlock? i j m n S) P := ⟨_, by simp [Mat.setBlock?, h1, h2, h3, h4], hP⟩

theorem row? {A : Mat K} {i : Nat} {P : Vec K → Prop} (h : i < A.rows)
    (hP : P ⟨A.cols, fun c => A.e i c⟩) : Ok (A.row? i) P := ⟨_, by simp [Mat.row?, h], hP⟩

theorem setRow? {A : Mat K} {i : Nat} {v : Vec K} {P : Mat K → Prop} (h : i < A.rows)
    (h2 : v.rows = A.cols) (hP : P { A with e := fun r c => if r = i then v.e c else A.e r c }) :
    Ok (A.setRow? i v) P := ⟨_, by simp [Mat.setRow?, h, h2], hP⟩

theorem at? {v : Vec α} {i : Nat} {P : α → Prop} (h : i < v.rows) (hP : P (v.e i)) :
    Ok (v.at? i) P := ⟨_, by simp [Vec.at?, h], hP⟩

theorem setAt? {v : Vec α} {i : Nat} {a : α} {P : Vec α → Prop} (h : i < v.rows)
    (hP : P { v with e := fun r => if r = i then a else v.e r }) :
    Ok (v.setAt? i a) P := ⟨_, by simp [Vec.setAt?, h], hP⟩

theorem segment? {v : Vec α} {i m : Nat} {P : Vec α → Prop} (h : i + m ≤ v.rows)
    (hP : P (v.segment i m)) : Ok (v.segment? i m) P := ⟨_, by simp [Vec.segment?, h], hP⟩

theorem setSegment? {v : Vec α} {i m : Nat} {s : Vec α} {P : Vec α → Prop} (h : i + m ≤ v.rows)
    (h2 : s.rows = m) (hP : P (v.setSegment i m s)) : Ok (v.setSegment? i m s) P :=
  ⟨_, by simp [Vec.setSegment?, h, h2], hP⟩

end Ok

/-! ## Sizes of results -/

section sizes
variable {K α : Type}

@[simp] theorem Mat.mul_rows [Field K] (A B : Mat K) : (A.mul B).rows = A.rows := rfl
@[simp] theorem Mat.mul_cols [Field K] (A B : Mat K) : (A.mul B).cols = B.cols := rfl
@[simp] theorem Mat.add_rows [Field K] (A B : Mat K) : (A.add B).rows = A.rows := rfl
@[simp] theorem Mat.add_cols [Field K] (A B : Mat K) : (A.add B).cols = A.cols := rfl
@[simp] theorem Mat.scale_rows [Field K] (A : Mat K) (s : K) : (A.scale s).rows = A.rows := rfl
@[simp] theorem Mat.scale_cols [Field K] (A : Mat K) (s : K) : (A.scale s).cols = A.cols := rfl
@[simp] theorem Mat.neg_rows [Field K] (A : Mat K) : A.neg.rows = A.rows := rfl
@[simp] theorem Mat.neg_cols [Field K] (A : Mat K) : A.neg.cols = A.cols := rfl
@[simp] theorem Mat.mulVec_rows [Field K] (A : Mat K) (v : Vec K) : (A.mulVec v).rows = A.rows := rfl
@[simp] theorem Mat.vecMul_rows [Field K] (A : Mat K) (v : Vec K) : (Mat.vecMul v A).rows = A.cols := rfl
@[simp] theorem Mat.mulDiag_rows [Field K] (A : Mat K) (v : Vec K) : (A.mulDiag v).rows = A.rows := rfl
@[simp] theorem Mat.mulDiag_cols [Field K] (A : Mat K) (v : Vec K) : (A.mulDiag v).cols = A.cols := rfl
@[simp] theorem Mat.block_rows (A : Mat K) (i j m n : Nat) : (A.block i j m n).rows = m := rfl
@[simp] theorem Mat.block_cols (A : Mat K) (i j m n : Nat) : (A.block i j m n).cols = n := rfl
@[simp] theorem Mat.setBlock_rows (A : Mat K) (i j m n : Nat) (S : Mat K) :
    (A.setBlock i j m n S).rows = A.rows := rfl
@[simp] theorem Mat.setBlock_cols (A : Mat K) (i j m n : Nat) (S : Mat K) :
    (A.setBlock i j m n S).cols = A.cols := rfl
@[simp] theorem Mat.transpose_rows (A : Mat K) : A.transpose.rows = A.cols := rfl
@[simp] theorem Mat.transpose_cols (A : Mat K) : A.transpose.cols = A.rows := rfl
@[simp] theorem Mat.transpose_e (A : Mat K) (i j : Nat) : A.transpose.e i j = A.e j i := rfl
@[simp] theorem Mat.zero_rows [Field K] (r c : Nat) : (Mat.zero r c : Mat K).rows = r := rfl
@[simp] theorem Mat.zero_cols [Field K] (r c : Nat) : (Mat.zero r c : Mat K).cols = c := rfl
@[simp] theorem Mat.zero_e [Field K] (r c i j : Nat) : (Mat.zero r c : Mat K).e i j = 0 := rfl
@[simp] theorem Mat.identity_rows [Field K] (r c : Nat) : (Mat.identity r c : Mat K).rows = r := rfl
@[simp] theorem Mat.identity_cols [Field K] (r c : Nat) : (Mat.identity r c : Mat K).cols = c := rfl
@[simp] theorem Mat.resize_rows (r c : Nat) (u : Nat → Nat → K) : (Mat.resize r c u).rows = r := rfl
@[simp] theorem Mat.resize_cols (r c : Nat) (u : Nat → Nat → K) : (Mat.resize r c u).cols = c := rfl
@[simp] theorem Mat.empty_rows [Field K] : (Mat.empty : Mat K).rows = 0 := rfl
@[simp] theorem Mat.empty_cols [Field K] : (Mat.empty : Mat K).cols = 0 := rfl
@[simp] theorem Vec.resize_rows (r : Nat) (u : Nat → α) : (Vec.resize r u).rows = r := rfl
@[simp] theorem Vec.zero_rows [Zero α] (r : Nat) : (Vec.zero r : Vec α).rows = r := rfl
@[simp] theorem Vec.zero_e [Zero α] (r i : Nat) : (Vec.zero r : Vec α).e i = 0 := rfl
@[simp] theorem Vec.const_rows (r : Nat) (a : α) : (Vec.const r a).rows = r := rfl
@[simp] theorem Vec.const_e (r i : Nat) (a : α) : (Vec.const r a).e i = a := rfl
@[simp] theorem Vec.toExt_rows (v : Vec K) : v.toExt.rows = v.rows := rfl
@[simp] theorem Vec.toExt_e (v : Vec K) (i : Nat) : v.toExt.e i = .fin (v.e i) := rfl
@[simp] theorem Vec.add_rows [Add α] (u v : Vec α) : (u.add v).rows = u.rows := rfl
@[simp] theorem Vec.add_e [Add α] (u v : Vec α) (i : Nat) : (u.add v).e i = u.e i + v.e i := rfl
@[simp] theorem Vec.sub_rows [Sub α] (u v : Vec α) : (u.sub v).rows = u.rows := rfl
@[simp] theorem Vec.sub_e [Sub α] (u v : Vec α) (i : Nat) : (u.sub v).e i = u.e i - v.e i := rfl
@[simp] theorem Vec.neg_rows [Neg α] (u : Vec α) : u.neg.rows = u.rows := rfl
@[simp] theorem Vec.neg_e [Neg α] (u : Vec α) (i : Nat) : u.neg.e i = - u.e i := rfl
@[simp] theorem Vec.subFin_rows [Sub K] (u : Vec (Ext K)) (v : Vec K) : (u.subFin v).rows = u.rows := rfl
@[simp] theorem Vec.subFin_e [Sub K] (u : Vec (Ext K)) (v : Vec K) (i : Nat) :
    (u.subFin v).e i = (u.e i).sub (v.e i) := rfl
@[simp] theorem Vec.cmul_rows [Mul α] (u v : Vec α) : (u.cmul v).rows = u.rows := rfl
@[simp] theorem Vec.cmul_e [Mul α] (u v : Vec α) (i : Nat) : (u.cmul v).e i = u.e i * v.e i := rfl
@[simp] theorem Vec.segment_rows (v : Vec α) (i m : Nat) : (v.segment i m).rows = m := rfl
@[simp] theorem Vec.segment_e (v : Vec α) (i m r : Nat) : (v.segment i m).e r = v.e (i + r) := rfl
@[simp] theorem Vec.setSegment_rows (v : Vec α) (i m : Nat) (s : Vec α) :
    (v.setSegment i m s).rows = v.rows := rfl
@[simp] theorem Mat.block_e (A : Mat K) (i j m n r c : Nat) :
    (A.block i j m n).e r c = A.e (i + r) (j + c) := rfl
@[simp] theorem Mat.add_e [Field K] (A B : Mat K) (i j : Nat) : (A.add B).e i j = A.e i j + B.e i j := rfl
@[simp] theorem Mat.neg_e [Field K] (A : Mat K) (i j : Nat) : A.neg.e i j = - A.e i j := rfl
@[simp] theorem Mat.scale_e [Field K] (A : Mat K) (s : K) (i j : Nat) :
    (A.scale s).e i j = A.e i j * s := rfl
@[simp] theorem Mat.mulDiag_e [Field K] (A : Mat K) (v : Vec K) (i j : Nat) :
    (A.mulDiag v).e i j = A.e i j * v.e j := rfl
theorem Mat.mul_e [Field K] (A B : Mat K) (i j : Nat) :
    (A.mul B).e i j = ∑ k ∈ Finset.range A.cols, A.e i k * B.e k j := rfl
theorem Mat.mulVec_e [Field K] (A : Mat K) (v : Vec K) (i : Nat) :
    (A.mulVec v).e i = ∑ k ∈ Finset.range A.cols, A.e i k * v.e k := rfl
theorem Mat.vecMul_e [Field K] (A : Mat K) (v : Vec K) (j : Nat) :
    (Mat.vecMul v A).e j = ∑ k ∈ Finset.range v.rows, v.e k * A.e k j := rfl
theorem Mat.identity_e [Field K] (r c i j : Nat) :
    (Mat.identity r c : Mat K).e i j = if i = j then 1 else 0 := rfl
theorem Mat.setBlock_e (A : Mat K) (i j m n : Nat) (S : Mat K) (r c : Nat) :
    (A.setBlock i j m n S).e r c =
      if i ≤ r ∧ r < i + m ∧ j ≤ c ∧ c < j + n then S.e (r - i) (c - j) else A.e r c := rfl
theorem Vec.setSegment_e (v : Vec α) (i m : Nat) (s : Vec α) (r : Nat) :
    (v.setSegment i m s).e r = if i ≤ r ∧ r < i + m then s.e (r - i) else v.e r := rfl

end sizes

/-! ## Block indices -/

theorem blk_le {i M n : Nat} (h : i < M) : i * n + n ≤ M * n := by
  have : (i + 1) * n ≤ M * n := Nat.mul_le_mul_right n h
  linarith [Nat.succ_mul i n]

theorem blk_lt {i M n r : Nat} (h : i < M) (hr : r < n) : i * n + r < M * n := by
  have := blk_le (n := n) h
  omega

theorem blk_lt' {i M n r : Nat} (h : i < M) (hr : r < n) : i * n + r < n * M := by
  rw [Nat.mul_comm n M]; exact blk_lt h hr

theorem blk_le' {i M n : Nat} (h : i < M) : i * n + n ≤ n * M := by
  rw [Nat.mul_comm n M]; exact blk_le h

theorem blk_div {k n r : Nat} (hr : r < n) : (k * n + r) / n = k := by
  rw [Nat.mul_comm, Nat.mul_add_div (by omega), Nat.div_eq_of_lt hr]; rfl

theorem blk_mod {k n r : Nat} (hr : r < n) : (k * n + r) % n = r := by
  rw [Nat.mul_comm, Nat.mul_add_mod, Nat.mod_eq_of_lt hr]

theorem blk_iff {a k n r : Nat} (hr : r < n) : (a * n ≤ k * n + r ∧ k * n + r < a * n + n) ↔ k = a := by
  constructor
  · rintro ⟨h1, h2⟩
    rcases Nat.lt_trichotomy k a with h | h | h
    · have := blk_lt h hr; omega
    · exact h
    · have := blk_le (n := n) h; omega
  · rintro rfl; omega

theorem blk_split {i M n : Nat} (h : i < M * n) : ∃ k r, k < M ∧ r < n ∧ i = k * n + r := by
  have hn : 0 < n := by
    rcases Nat.eq_zero_or_pos n with h0 | h0
    · subst h0; omega
    · exact h0
  refine ⟨i / n, i % n, ?_, Nat.mod_lt _ hn, ?_⟩
  · exact Nat.div_lt_of_lt_mul (by rwa [Nat.mul_comm])
  · have := Nat.div_add_mod i n; rw [Nat.mul_comm n] at this; exact this.symm

theorem blk_inj {k k' n r r' : Nat} (hr : r < n) (hr' : r' < n) (h : k * n + r = k' * n + r') :
    k = k' ∧ r = r' := by
  constructor
  · rw [← blk_div (k := k) hr, h, blk_div hr']
  · rw [← blk_mod (k := k) hr, h, blk_mod hr']

variable {K α : Type}

theorem setBlock_blk (A : Mat K) {a b m n : Nat} (S : Mat K) {k j r c : Nat} (hr : r < m) (hc : c < n) :
    (A.setBlock (a * m) (b * n) m n S).e (k * m + r) (j * n + c) =
      if k = a ∧ j = b then S.e r c else A.e (k * m + r) (j * n + c) := by
  rw [Mat.setBlock_e]
  have h1 := blk_iff (a := a) (k := k) hr
  have h2 := blk_iff (a := b) (k := j) hc
  by_cases h : k = a ∧ j = b
  · rw [if_pos h, if_pos ⟨(h1.2 h.1).1, (h1.2 h.1).2, (h2.2 h.2).1, (h2.2 h.2).2⟩]
    obtain ⟨rfl, rfl⟩ := h
    congr 1 <;> omega
  · rw [if_neg h, if_neg]
    rintro ⟨x1, x2, x3, x4⟩
    exact h ⟨h1.1 ⟨x1, x2⟩, h2.1 ⟨x3, x4⟩⟩

/-- Writing a block of full rows `a*m ..` (all columns `0 ≤ c < n`). -/
theorem setBlock_rowblk (A : Mat K) {a m n : Nat} (S : Mat K) {k r c : Nat} (hr : r < m) (hc : c < n) :
    (A.setBlock (a * m) 0 m n S).e (k * m + r) c =
      if k = a then S.e r c else A.e (k * m + r) c := by
  have h := setBlock_blk A (a := a) (b := 0) S (k := k) (j := 0) hr hc
  simpa using h

theorem setSegment_blk (v : Vec α) {a m : Nat} (s : Vec α) {k r : Nat} (hr : r < m) :
    (v.setSegment (a * m) m s).e (k * m + r) = if k = a then s.e r else v.e (k * m + r) := by
  rw [Vec.setSegment_e]
  have h1 := blk_iff (a := a) (k := k) hr
  by_cases h : k = a
  · rw [if_pos h, if_pos (h1.2 h)]
    subst h
    congr 1; omega
  · rw [if_neg h, if_neg]
    exact fun x => h (h1.1 x)

theorem sum_blk [AddCommMonoid K] (f : Nat → K) (M n : Nat) :
    ∑ i ∈ Finset.range (M * n), f i =
      ∑ k ∈ Finset.range M, ∑ r ∈ Finset.range n, f (k * n + r) := by
  induction M with
  | zero => simp
  | succ M ih => rw [Nat.succ_mul, Finset.sum_range_add, ih, Finset.sum_range_succ]

theorem sum_blk' [AddCommMonoid K] (f : Nat → K) (M n : Nat) :
    ∑ i ∈ Finset.range (n * M), f i =
      ∑ k ∈ Finset.range M, ∑ r ∈ Finset.range n, f (k * n + r) := by
  rw [Nat.mul_comm, sum_blk]

end Copra
