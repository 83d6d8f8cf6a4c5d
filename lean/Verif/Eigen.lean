import Mathlib.Algebra.BigOperators.Group.Finset.Basic
import Mathlib.Algebra.BigOperators.Ring.Finset
import Mathlib.Algebra.Order.Field.Basic

/-!
# The part of Eigen (and of C++) that copra relies on

Trusted reading of `Eigen::MatrixXd` / `Eigen::VectorXd` / `double` / exceptions / `int`.

* A dynamic matrix is its number of rows and columns and an entry function.  Only entries with
  in-range indices are meaningful; every access below is checked.
* Every Eigen operation that asserts on dimensions or index ranges (in debug builds; undefined
  behaviour when compiled with `NDEBUG`) is a *checked* operation returning `Option`;
  `none` means "Eigen assertion fails / undefined behaviour".
* Scalars are elements of an arbitrary type `K` with the operations of `double` (`Arith` below); the theorems about
  values take `K` to be a linearly ordered field (exact arithmetic, no rounding, no NaN), those about sizes, exceptions
  and undefined behaviour hold for every `K`.  Constraint right-hand sides and bounds may also be infinite: `Ext K`.

Eigen and the C++ language are not part of /repo; the comment of each definition names the operation it stands for.  Where
copra uses them: sizes, blocks and segments in src/PreviewSystem.cpp 35-74, src/constraints.cpp 45-367,
src/costFunctions.cpp 24-215, src/LMPC.cpp 199-286, src/InitialStateLMPC.cpp 52-128; diagonal weights in
src/costFunctions.cpp 67-211; `head`, `tail` and corners in src/InitialStateLMPC.cpp 32, 81-83, 114-127; infinite right-hand
sides in include/constraints.h 247-254; uninitialised memory after every `resize`; exceptions at src/PreviewSystem.cpp 19-33,
src/AutoSpan.cpp 10-47 and in the initialisation of constraints and costs; `int` dimensions in include/PreviewSystem.h 55-60.
-/

namespace Copra

/-! ## Extended scalars -/

/-- A `double` that may be infinite (no NaN): models `std::numeric_limits<double>::infinity()` as
used in `include/constraints.h` 247-254 and in user supplied bounds / right-hand sides. -/
inductive Ext (K : Type) where
  | ninf
  | fin (k : K)
  | pinf
  deriving DecidableEq

namespace Ext
variable {K : Type}

/-- The IEEE order on non-NaN doubles. -/
def le [LE K] : Ext K → Ext K → Prop
  | ninf, _ => True
  | _, pinf => True
  | fin a, fin b => a ≤ b
  | _, _ => False

instance [LE K] : LE (Ext K) := ⟨le⟩

/-- Subtraction of a finite number (never produces NaN). -/
def sub [Sub K] : Ext K → K → Ext K
  | ninf, _ => ninf
  | pinf, _ => pinf
  | fin a, k => fin (a - k)

/-- Negation. -/
def neg [Neg K] : Ext K → Ext K
  | ninf => pinf
  | pinf => ninf
  | fin a => fin (-a)

end Ext

/-! ## Arithmetic

The model runs on any scalar type with the operations of `double`.  The machine operations `+`, `-`, unary `-` and `*`
are the corresponding operations of `K`; the entries of matrix products and the constant `1e-6` come from `Arith`.
For a field `K` the instance below is exact arithmetic. -/

/-- `dot (r, c, i, j) n f g` is what Eigen computes for entry `(i, j)` of an `r`-by-`c` product from the row `f` and the
column `g` of length `n`.  The order of the additions and the use of fused operations may depend on the sizes and on the
position, but the result depends on nothing else. -/
class Arith (K : Type) where
  dot : Nat × Nat × Nat × Nat → Nat → (Nat → K) → (Nat → K) → K
  dot_congr : ∀ s n f g f' g', (∀ k < n, f k = f' k) → (∀ k < n, g k = g' k) → dot s n f g = dot s n f' g'
  /-- `1e-6` -/
  micro : K

/-- Exact arithmetic. -/
instance [Field K] : Arith K where
  dot _ n f g := ∑ k ∈ Finset.range n, f k * g k
  dot_congr _ _ _ _ _ _ hf hg := Finset.sum_congr rfl fun k hk => by
    rw [hf k (Finset.mem_range.1 hk), hg k (Finset.mem_range.1 hk)]
  micro := 1 / 1000000

theorem dot_eq [Field K] (s : Nat × Nat × Nat × Nat) (n : Nat) (f g : Nat → K) :
    Arith.dot s n f g = ∑ k ∈ Finset.range n, f k * g k := rfl

/-! ## Outcomes of mutating functions -/

/-- The exception types thrown by copra (`include/debugUtils.h` 40-42). -/
inductive Exn where
  | domainError
  | runtimeError
  deriving DecidableEq, Repr

/-- Outcome of a C++ member function that mutates an object: normal return with the new object,
exception with the (possibly partially mutated) object, or undefined behaviour. -/
inductive Res (α : Type) where
  | ok (a : α)
  | thrown (e : Exn) (a : α)
  | ub

namespace Res
/-- Sequencing of two mutations of the same object: an exception in the first skips the second. -/
def andThen {α : Type} : Res α → (α → Res α) → Res α
  | ok a, f => f a
  | thrown e a, _ => thrown e a
  | ub, _ => ub

/-- Run a mutation of a part of an object and store the (possibly partially mutated) part back. -/
def map {α β : Type} (f : α → β) : Res α → Res β
  | ok a => ok (f a)
  | thrown e a => thrown e (f a)
  | ub => ub

/-- A computation that can only succeed or be undefined. -/
def ofOption {α : Type} : Option α → Res α
  | some a => ok a
  | none => ub
end Res

/-- `INT_MAX` for the 32-bit `int` in which copra keeps its derived dimensions. -/
def intMax : Nat := 2147483647

/-- Value of a (mathematically non-negative) `int` expression; signed overflow is undefined. -/
def chkInt (n : Nat) : Option Nat := if n ≤ intMax then some n else none

/-- `for (i = a; i < b; ++i) s = f(i, s)` where the body may be undefined. -/
def loop {σ : Type} (a b : Nat) (f : Nat → σ → Option σ) (s : σ) : Option σ :=
  (List.range' a (b - a)).foldlM (fun s i => f i s) s

/-! ## Matrices and vectors -/

/-- `Eigen::MatrixXd`. -/
structure Mat (K : Type) where
  rows : Nat
  cols : Nat
  e : Nat → Nat → K

/-- `Eigen::VectorXd` (with entries in `K`, or in `Ext K` for right-hand sides and bounds). -/
structure Vec (α : Type) where
  rows : Nat
  e : Nat → α

/-- Contents of freshly allocated, uninitialised memory, one function per allocation site of a call.
Every theorem quantifies over it. -/
structure Junk (K : Type) where
  m : Nat → Nat → Nat → K
  v : Nat → Nat → K
  x : Nat → Nat → Ext K

namespace Mat
variable {K : Type}

/-- `resize(r, c)`: the contents are unspecified (old contents if the size is unchanged, otherwise
uninitialised); `u` is that unspecified contents. -/
def resize (r c : Nat) (u : Nat → Nat → K) : Mat K := ⟨r, c, u⟩

/-- `Zero(r, c)` / `setZero()`. -/
def zero [Zero K] (r c : Nat) : Mat K := ⟨r, c, fun _ _ => 0⟩

/-- `Identity(r, c)` / `setIdentity()`. -/
def identity [Zero K] [One K] (r c : Nat) : Mat K := ⟨r, c, fun i j => if i = j then 1 else 0⟩

/-- The empty matrix of a default-constructed `MatrixXd`. -/
def empty [Zero K] : Mat K := zero 0 0

/-- `transpose()`. -/
def transpose (A : Mat K) : Mat K := ⟨A.cols, A.rows, fun i j => A.e j i⟩

/-- `A * B` without the dimension check. -/
def mul [Arith K] (A B : Mat K) : Mat K :=
  ⟨A.rows, B.cols, fun i j => Arith.dot (A.rows, B.cols, i, j) A.cols (fun k => A.e i k) (fun k => B.e k j)⟩

/-- `A * B`. -/
def mul? [Arith K] (A B : Mat K) : Option (Mat K) :=
  if A.cols = B.rows then some (A.mul B) else none

/-- `A + B` without the dimension check. -/
def add [Add K] (A B : Mat K) : Mat K := ⟨A.rows, A.cols, fun i j => A.e i j + B.e i j⟩

/-- `A + B`, `A += B`. -/
def add? [Add K] (A B : Mat K) : Option (Mat K) :=
  if A.rows = B.rows ∧ A.cols = B.cols then some (A.add B) else none

/-- `A *= s` for a scalar. -/
def scale [Mul K] (A : Mat K) (s : K) : Mat K := ⟨A.rows, A.cols, fun i j => A.e i j * s⟩

/-- `-A`. -/
def neg [Neg K] (A : Mat K) : Mat K := ⟨A.rows, A.cols, fun i j => - A.e i j⟩

/-- `A * v` without the dimension check. -/
def mulVec [Arith K] (A : Mat K) (v : Vec K) : Vec K :=
  ⟨A.rows, fun i => Arith.dot (A.rows, 1, i, 0) A.cols (fun k => A.e i k) v.e⟩

/-- `A * v`. -/
def mulVec? [Arith K] (A : Mat K) (v : Vec K) : Option (Vec K) :=
  if A.cols = v.rows then some (A.mulVec v) else none

/-- `v.transpose() * A` without the dimension check, stored as a (column) vector. -/
def vecMul [Arith K] (v : Vec K) (A : Mat K) : Vec K :=
  ⟨A.cols, fun j => Arith.dot (1, A.cols, 0, j) v.rows v.e (fun k => A.e k j)⟩

/-- `v.transpose() * A` (Eigen transposes row-vector expressions assigned to a `VectorXd`). -/
def vecMul? [Arith K] (v : Vec K) (A : Mat K) : Option (Vec K) :=
  if v.rows = A.rows then some (vecMul v A) else none

/-- `A * w.asDiagonal()` without the dimension check. -/
def mulDiag [Mul K] (A : Mat K) (w : Vec K) : Mat K := ⟨A.rows, A.cols, fun i j => A.e i j * w.e j⟩

/-- `A * w.asDiagonal()`. -/
def mulDiag? [Mul K] (A : Mat K) (w : Vec K) : Option (Mat K) :=
  if A.cols = w.rows then some (A.mulDiag w) else none

/-- `A.block(i, j, m, n)` as an rvalue, without the range check. -/
def block (A : Mat K) (i j m n : Nat) : Mat K := ⟨m, n, fun r c => A.e (i + r) (j + c)⟩

/-- `A.block(i, j, m, n)` as an rvalue. -/
def block? (A : Mat K) (i j m n : Nat) : Option (Mat K) :=
  if i + m ≤ A.rows ∧ j + n ≤ A.cols then some (A.block i j m n) else none

/-- `A.block(i, j, m, n) = S` without the checks. -/
def setBlock (A : Mat K) (i j m n : Nat) (S : Mat K) : Mat K :=
  { A with e := fun r c =>
      if i ≤ r ∧ r < i + m ∧ j ≤ c ∧ c < j + n then S.e (r - i) (c - j) else A.e r c }

/-- `A.block(i, j, m, n) = S`. -/
def setBlock? (A : Mat K) (i j m n : Nat) (S : Mat K) : Option (Mat K) :=
  if i + m ≤ A.rows ∧ j + n ≤ A.cols ∧ S.rows = m ∧ S.cols = n
  then some (A.setBlock i j m n S) else none

/-- `A.block(i, j, m, n) += S`. -/
def addBlock? [Add K] (A : Mat K) (i j m n : Nat) (S : Mat K) : Option (Mat K) := do
  let B ← A.block? i j m n
  let B' ← B.add? S
  A.setBlock? i j m n B'

/-- `A.row(i)` as an rvalue. -/
def row? (A : Mat K) (i : Nat) : Option (Vec K) :=
  if i < A.rows then some ⟨A.cols, fun c => A.e i c⟩ else none

/-- `A.row(i) = v`. -/
def setRow? (A : Mat K) (i : Nat) (v : Vec K) : Option (Mat K) :=
  if i < A.rows ∧ v.rows = A.cols
  then some { A with e := fun r c => if r = i then v.e c else A.e r c } else none

end Mat

namespace Vec
variable {α K : Type}

/-- `resize(n)`, contents unspecified. -/
def resize (n : Nat) (u : Nat → α) : Vec α := ⟨n, u⟩

/-- `Zero(n)` / `setZero()`. -/
def zero [Zero α] (n : Nat) : Vec α := ⟨n, fun _ => 0⟩

/-- `setConstant(n, a)` / `Constant`. -/
def const (n : Nat) (a : α) : Vec α := ⟨n, fun _ => a⟩

/-- Conversion of a finite vector to a vector of possibly infinite doubles (the identity in C++). -/
def toExt (v : Vec K) : Vec (Ext K) := ⟨v.rows, fun i => .fin (v.e i)⟩

/-- `u + v` without the dimension check. -/
def add [Add α] (u v : Vec α) : Vec α := ⟨u.rows, fun i => u.e i + v.e i⟩

/-- `u + v`, `u += v`. -/
def add? [Add α] (u v : Vec α) : Option (Vec α) :=
  if u.rows = v.rows then some (u.add v) else none

/-- `u - v` without the dimension check. -/
def sub [Sub α] (u v : Vec α) : Vec α := ⟨u.rows, fun i => u.e i - v.e i⟩

/-- `u - v`. -/
def sub? [Sub α] (u v : Vec α) : Option (Vec α) :=
  if u.rows = v.rows then some (u.sub v) else none

/-- `-u`. -/
def neg [Neg α] (u : Vec α) : Vec α := ⟨u.rows, fun i => - u.e i⟩

/-- `u - v` where `u` may have infinite entries, without the dimension check. -/
def subFin [Sub K] (u : Vec (Ext K)) (v : Vec K) : Vec (Ext K) :=
  ⟨u.rows, fun i => (u.e i).sub (v.e i)⟩

/-- `u - v` where `u` may have infinite entries. -/
def subFin? [Sub K] (u : Vec (Ext K)) (v : Vec K) : Option (Vec (Ext K)) :=
  if u.rows = v.rows then some (u.subFin v) else none

/-- `v.transpose() * w.asDiagonal()`, stored as a (column) vector, without the dimension check. -/
def cmul [Mul α] (v w : Vec α) : Vec α := ⟨v.rows, fun i => v.e i * w.e i⟩

/-- `v.transpose() * w.asDiagonal()`, stored as a (column) vector. -/
def cmul? [Mul α] (v w : Vec α) : Option (Vec α) :=
  if v.rows = w.rows then some (v.cmul w) else none

/-- `u.dot(v)` (row times column). -/
def dot? [Arith α] (u v : Vec α) : Option α :=
  if u.rows = v.rows then some (Arith.dot (1, 1, 0, 0) u.rows u.e v.e) else none

/-- `v(i)` as an rvalue. -/
def at? (v : Vec α) (i : Nat) : Option α := if i < v.rows then some (v.e i) else none

/-- `v(i) = a`. -/
def setAt? (v : Vec α) (i : Nat) (a : α) : Option (Vec α) :=
  if i < v.rows then some { v with e := fun r => if r = i then a else v.e r } else none

/-- `v.segment(i, m)` as an rvalue, without the range check. -/
def segment (v : Vec α) (i m : Nat) : Vec α := ⟨m, fun r => v.e (i + r)⟩

/-- `v.segment(i, m)` as an rvalue. -/
def segment? (v : Vec α) (i m : Nat) : Option (Vec α) :=
  if i + m ≤ v.rows then some (v.segment i m) else none

/-- `v.segment(i, m) = s` without the checks. -/
def setSegment (v : Vec α) (i m : Nat) (s : Vec α) : Vec α :=
  { v with e := fun r => if i ≤ r ∧ r < i + m then s.e (r - i) else v.e r }

/-- `v.segment(i, m) = s`. -/
def setSegment? (v : Vec α) (i m : Nat) (s : Vec α) : Option (Vec α) :=
  if i + m ≤ v.rows ∧ s.rows = m then some (v.setSegment i m s) else none

/-- `v.segment(i, m) += s`. -/
def addSegment? [Add α] (v : Vec α) (i m : Nat) (s : Vec α) : Option (Vec α) := do
  let t ← v.segment? i m
  let t' ← t.add? s
  v.setSegment? i m t'

end Vec

end Copra
