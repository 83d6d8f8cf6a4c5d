import Verif.SpecRound
import Mathlib.Data.Rat.Floor
import Mathlib.Algebra.Order.Field.Rat

/-! # IEEE 754 double precision

`Mach fl` are machine numbers with rounding function `fl`; `fl64` is rounding to the nearest binary64 number, ties to even,
with subnormal numbers and overflow. -/

namespace Copra.Spec

/-- A machine number: a rational, or `none` for NaN and infinities. -/
structure Mach (fl : ℚ → Option ℚ) where
  val : Option ℚ

namespace Mach
variable {fl : ℚ → Option ℚ}

/-- A rounded operation. -/
def op (f : ℚ → ℚ → ℚ) (a b : Mach fl) : Mach fl := ⟨a.val.bind fun x => b.val.bind fun y => fl (f x y)⟩

instance : Zero (Mach fl) := ⟨⟨some 0⟩⟩
instance : One (Mach fl) := ⟨⟨some 1⟩⟩
instance : Neg (Mach fl) := ⟨fun a => ⟨a.val.map fun x => -x⟩⟩
instance : Add (Mach fl) := ⟨op fun x y => x + y⟩
instance : Sub (Mach fl) := ⟨op fun x y => x - y⟩
instance : Mul (Mach fl) := ⟨op fun x y => x * y⟩

/-- Products are summed up from left to right. -/
def sum (f g : Nat → Mach fl) : Nat → Mach fl
  | 0 => 0
  | n + 1 => sum f g n + f n * g n

theorem sum_congr {f g f' g' : Nat → Mach fl} {n : Nat} (hf : ∀ k < n, f k = f' k) (hg : ∀ k < n, g k = g' k) :
    sum f g n = sum f' g' n := by
  induction n with
  | zero => rfl
  | succ n ih =>
    unfold sum
    rw [ih (fun k hk => hf k (Nat.lt_succ_of_lt hk)) fun k hk => hg k (Nat.lt_succ_of_lt hk), hf n (Nat.lt_succ_self n),
      hg n (Nat.lt_succ_self n)]

instance : Arith (Mach fl) where
  dot _ n f g := sum f g n
  dot_congr _ _ _ _ _ _ hf hg := sum_congr hf hg
  micro := ⟨fl (1 / 1000000)⟩

end Mach

/-- `γ` and `β` of a left-to-right sum of `n` products. -/
def seqGam (u : ℚ) : Nat → ℚ
  | 0 => 0
  | n + 1 => (1 + u) * (seqGam u n + u) + u
def seqBet (u eta : ℚ) : Nat → ℚ
  | 0 => 0
  | n + 1 => (1 + u) * (seqBet u eta n + eta) + eta

/-- The parameters of an arithmetic with left-to-right sums. -/
def seqFP (u eta big : ℚ) : FP ℚ where
  u := u
  eta := eta
  big := big
  gam := seqGam u
  bet := seqBet u eta
  mic := u * (1 / 1000000) + eta

/-! ## Rounding to binary64 -/

/-- `2 ^ e` -/
def pow2 : Int → ℚ
  | .ofNat n => ((2 ^ n : Nat) : ℚ)
  | .negSucc n => mkRat 1 (2 ^ (n + 1))

/-- The exponent of `x`: `2 ^ expo x ≤ |x| < 2 ^ (expo x + 1)` for `x ≠ 0`. -/
def expo (x : ℚ) : Int :=
  let e : Int := (Nat.log2 x.num.natAbs : Int) - Nat.log2 x.den
  if pow2 e ≤ |x| then e else e - 1

/-- The nearest integer, ties to even. -/
def nearest (x : ℚ) : Int :=
  let f := ⌊x⌋
  if x - f < 1 / 2 then f else if 1 / 2 < x - f then f + 1 else if f % 2 = 0 then f else f + 1

/-- The unit in the last place of a binary64 number near `x` (subnormal numbers included). -/
def ulp64 (x : ℚ) : ℚ := pow2 (max (expo x) (-1022) - 52)

/-- The largest finite binary64 number. -/
def max64 : ℚ := (2 - pow2 (-52)) * pow2 1023

/-- Rounding to the nearest binary64 number; `none` on overflow. -/
def fl64 (x : ℚ) : Option ℚ :=
  let z := nearest (x / ulp64 x) * ulp64 x
  if |z| ≤ max64 then some z else none

/-- The parameters of binary64. -/
def binary64 : FP ℚ := seqFP (pow2 (-53)) (pow2 (-1075)) (pow2 1023)

/-- IEEE double precision. -/
abbrev Double := Mach fl64

end Copra.Spec
