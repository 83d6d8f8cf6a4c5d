import Verif.SpecIeee
import Verif.Props.Rounding
import Mathlib.Tactic.Positivity
import Mathlib.Tactic.FieldSimp
import Mathlib.Tactic.NormNum

/-! # IEEE double precision obeys the standard model -/

namespace Copra.Spec

/-! ## Left-to-right sums -/

theorem seqGam_nonneg {u : ℚ} (h : 0 ≤ u) (n : Nat) : 0 ≤ seqGam u n := by
  induction n with
  | zero => exact le_refl _
  | succ n ih => unfold seqGam; positivity

theorem seqBet_nonneg {u eta : ℚ} (h : 0 ≤ u) (h' : 0 ≤ eta) (n : Nat) : 0 ≤ seqBet u eta n := by
  induction n with
  | zero => exact le_refl _
  | succ n ih => unfold seqBet; positivity

section
variable {fl : ℚ → Option ℚ} {u eta big : ℚ}

theorem mach_op (hfl : ∀ x, |x| ≤ big → ∃ z, fl x = some z ∧ |z - x| ≤ u * |x| + eta) (f : ℚ → ℚ → ℚ) {a b : Mach fl} {x y : ℚ}
    (ha : a.val = some x) (hb : b.val = some y) (h : |f x y| ≤ big) :
    ∃ z, (Mach.op f a b).val = some z ∧ |z - f x y| ≤ u * |f x y| + eta := by
  obtain ⟨z, hz, k⟩ := hfl _ h
  refine ⟨z, ?_, k⟩
  unfold Mach.op
  dsimp only
  rw [ha, hb]
  exact hz

/-- The error of a left-to-right sum. -/
theorem mach_sum (hu : 0 ≤ u) (he : 0 ≤ eta) (hfl : ∀ x, |x| ≤ big → ∃ z, fl x = some z ∧ |z - x| ≤ u * |x| + eta)
    {f g : Nat → Mach fl} {x y : Nat → ℚ} (n : Nat) (hf : ∀ k < n, (f k).val = some (x k)) (hg : ∀ k < n, (g k).val = some (y k))
    (h : (∑ k ∈ Finset.range n, |x k * y k|) + (seqGam u n * (∑ k ∈ Finset.range n, |x k * y k|) + seqBet u eta n) ≤ big) :
    ∃ z, (Mach.sum f g n).val = some z ∧
      |z - ∑ k ∈ Finset.range n, x k * y k| ≤ seqGam u n * (∑ k ∈ Finset.range n, |x k * y k|) + seqBet u eta n := by
  induction n with
  | zero => exact ⟨0, rfl, by simp [seqGam, seqBet]⟩
  | succ n ih =>
    rw [Finset.sum_range_succ] at h ⊢
    rw [Finset.sum_range_succ]
    have S0 : (0 : ℚ) ≤ ∑ k ∈ Finset.range n, |x k * y k| := Finset.sum_nonneg fun _ _ => abs_nonneg _
    have T := Finset.abs_sum_le_sum_abs (fun k => x k * y k) (Finset.range n)
    generalize (∑ k ∈ Finset.range n, |x k * y k|) = S at *
    generalize hP : (∑ k ∈ Finset.range n, x k * y k) = P at *
    have a0 := abs_nonneg (x n * y n)
    have g0 := seqGam_nonneg hu n
    have b0 := seqBet_nonneg hu he n
    unfold seqGam seqBet at h ⊢
    generalize seqGam u n = γ at *
    generalize seqBet u eta n = β at *
    have m1 : 0 ≤ γ * |x n * y n| := mul_nonneg g0 a0
    have m2 : 0 ≤ u * (γ * (S + |x n * y n|)) := mul_nonneg hu (mul_nonneg g0 (add_nonneg S0 a0))
    have m3 : 0 ≤ u * S := mul_nonneg hu S0
    have m4 : 0 ≤ u * |x n * y n| := mul_nonneg hu a0
    have m5 : 0 ≤ u * (u * (S + |x n * y n|)) := mul_nonneg hu (mul_nonneg hu (add_nonneg S0 a0))
    have m6 : 0 ≤ u * β := mul_nonneg hu b0
    have m7 : 0 ≤ u * eta := mul_nonneg hu he
    have m8 : 0 ≤ γ * S := mul_nonneg g0 S0
    have m9 : 0 ≤ u * (u * S) := mul_nonneg hu m3
    have m10 : 0 ≤ u * (γ * |x n * y n|) := mul_nonneg hu m1
    obtain ⟨s, hs, ks⟩ := ih (fun k hk => hf k (Nat.lt_succ_of_lt hk)) (fun k hk => hg k (Nat.lt_succ_of_lt hk)) (by nlinarith)
    obtain ⟨p, hp, kp⟩ := mach_op hfl (fun x y => x * y) (hf n (Nat.lt_succ_self n)) (hg n (Nat.lt_succ_self n)) (by
      show |x n * y n| ≤ big
      nlinarith)
    have kp' : |p - x n * y n| ≤ u * |x n * y n| + eta := kp
    have c1 : |s + p - (P + x n * y n)| ≤ γ * S + β + (u * |x n * y n| + eta) := by
      rw [add_sub_add_comm]
      exact (abs_add_le _ _).trans (add_le_add ks kp')
    have c2 : |s + p| ≤ S + |x n * y n| + (γ * S + β + (u * |x n * y n| + eta)) := by
      have := Tr.abs_le_of c1
      have t2 := abs_add_le P (x n * y n)
      linarith
    obtain ⟨z, hz, kz⟩ := mach_op hfl (fun x y => x + y) hs hp (by
      show |s + p| ≤ big
      nlinarith)
    have kz' : |z - (s + p)| ≤ u * |s + p| + eta := kz
    refine ⟨z, hz, ?_⟩
    have c3 : |z - (P + x n * y n)| ≤ |z - (s + p)| + |s + p - (P + x n * y n)| := by
      have := abs_add_le (z - (s + p)) (s + p - (P + x n * y n))
      rwa [sub_add_sub_cancel] at this
    have c4 : u * |s + p| ≤ u * (S + |x n * y n| + (γ * S + β + (u * |x n * y n| + eta))) := mul_le_mul_of_nonneg_left c2 hu
    nlinarith

/-- Any arithmetic with correctly rounded operations and left-to-right sums obeys the standard model. -/
theorem mach_rounds (hu : 0 ≤ u) (he : 0 ≤ eta) (hfl : ∀ x, |x| ≤ big → ∃ z, fl x = some z ∧ |z - x| ≤ u * |x| + eta)
    (hb : 1 / 1000000 ≤ big) : Rounds (seqFP u eta big) (Mach.val (fl := fl)) where
  zero := rfl
  one := rfl
  neg h := by
    show Option.map _ _ = _
    rw [h]; rfl
  add ha hb h := mach_op hfl (fun x y => x + y) ha hb h
  sub ha hb h := mach_op hfl (fun x y => x - y) ha hb h
  mul ha hb h := mach_op hfl (fun x y => x * y) ha hb h
  dot hf hg h := mach_sum hu he hfl _ hf hg h
  micro := by
    obtain ⟨z, hz, k⟩ := hfl (1 / 1000000) (by rw [abs_of_nonneg (by norm_num)]; exact hb)
    rw [abs_of_nonneg (by norm_num : (0 : ℚ) ≤ 1 / 1000000)] at k
    exact ⟨z, hz, k⟩
  u_nonneg := hu
  gam_nonneg := seqGam_nonneg hu

end

/-! ## Rounding to binary64 -/

theorem pow2_eq (e : Int) : pow2 e = (2 : ℚ) ^ e := by
  cases e with
  | ofNat n => unfold pow2; simp
  | negSucc n =>
    show mkRat 1 (2 ^ (n + 1)) = _
    rw [zpow_negSucc, Rat.mkRat_eq_div]
    simp

theorem pow2_pos (e : Int) : 0 < pow2 e := by rw [pow2_eq]; exact zpow_pos (by norm_num) e

theorem expo_le {x : ℚ} (hx : x ≠ 0) : pow2 (expo x) ≤ |x| := by
  unfold expo
  dsimp only
  split
  · assumption
  · rw [pow2_eq, zpow_sub_one₀ (by norm_num), zpow_sub₀ (by norm_num), zpow_natCast, zpow_natCast]
    have hn : x.num.natAbs ≠ 0 := by simpa using hx
    have h1 : (2 : ℚ) ^ Nat.log2 x.num.natAbs ≤ x.num.natAbs := by exact_mod_cast Nat.log2_self_le hn
    have h2 : (x.den : ℚ) < 2 ^ (Nat.log2 x.den + 1) := by exact_mod_cast Nat.lt_log2_self
    have h3 : |x| = x.num.natAbs / x.den := by
      conv_lhs => rw [← Rat.num_div_den x]
      rw [abs_div, Nat.abs_cast, Nat.cast_natAbs, Int.cast_abs]
    rw [h3]
    have d0 : (0 : ℚ) < x.den := by exact_mod_cast x.den_pos
    rw [pow_succ] at h2
    rw [le_div_iff₀ d0, div_mul_eq_mul_div, div_mul_eq_mul_div, div_le_iff₀ (by positivity)]
    have : (2 : ℚ) ^ Nat.log2 x.num.natAbs * 2⁻¹ * x.den ≤ (2 : ℚ) ^ Nat.log2 x.num.natAbs * 2⁻¹ * (2 ^ Nat.log2 x.den * 2) :=
      mul_le_mul_of_nonneg_left h2.le (by positivity)
    nlinarith [mul_le_mul_of_nonneg_right h1 (by positivity : (0 : ℚ) ≤ 2 ^ Nat.log2 x.den)]

theorem nearest_error (x : ℚ) : |(nearest x : ℚ) - x| ≤ 1 / 2 := by
  unfold nearest
  dsimp only
  have h1 := Int.floor_le x
  have h2 := Int.lt_floor_add_one x
  split
  · rw [abs_le]; constructor <;> linarith
  · split
    · push_cast; rw [abs_le]; constructor <;> linarith
    · split
      · rw [abs_le]; constructor <;> linarith
      · push_cast; rw [abs_le]; constructor <;> linarith

theorem ulp64_error {x : ℚ} (hx : x ≠ 0) : ulp64 x / 2 ≤ pow2 (-53) * |x| + pow2 (-1075) := by
  unfold ulp64
  have e : pow2 (max (expo x) (-1022) - 52) / 2 = pow2 (-53) * pow2 (max (expo x) (-1022)) := by
    rw [pow2_eq, pow2_eq, pow2_eq, zpow_sub₀ (by norm_num)]
    norm_num
    ring
  rw [e]
  rcases le_total (expo x) (-1022) with h | h
  · rw [max_eq_right h]
    have : pow2 (-53) * pow2 (-1022) = pow2 (-1075) := by
      rw [pow2_eq, pow2_eq, pow2_eq, ← zpow_add₀ (by norm_num)]; norm_num
    rw [this]
    have := mul_nonneg (pow2_pos (-53)).le (abs_nonneg x)
    linarith
  · rw [max_eq_left h]
    have := mul_le_mul_of_nonneg_left (expo_le hx) (pow2_pos (-53)).le
    have := pow2_pos (-1075)
    linarith

/-- Rounding to binary64 has relative error `2^-53` and absolute error `2^-1075`, and does not overflow up to `2^1023`. -/
theorem fl64_error (x : ℚ) (h : |x| ≤ pow2 1023) : ∃ z, fl64 x = some z ∧ |z - x| ≤ pow2 (-53) * |x| + pow2 (-1075) := by
  by_cases hx : x = 0
  · subst hx
    exact ⟨0, by decide +kernel, by rw [sub_self, abs_zero, mul_zero, zero_add]; exact (pow2_pos _).le⟩
  have hu : 0 < ulp64 x := pow2_pos _
  have k : |nearest (x / ulp64 x) * ulp64 x - x| ≤ pow2 (-53) * |x| + pow2 (-1075) := by
    refine le_trans ?_ (ulp64_error hx)
    have e : nearest (x / ulp64 x) * ulp64 x - x = (nearest (x / ulp64 x) - x / ulp64 x) * ulp64 x := by
      rw [sub_mul, div_mul_cancel₀ _ hu.ne']
    rw [e, abs_mul, abs_of_pos hu]
    have := mul_le_mul_of_nonneg_right (nearest_error (x / ulp64 x)) hu.le
    linarith
  refine ⟨nearest (x / ulp64 x) * ulp64 x, ?_, k⟩
  unfold fl64
  dsimp only
  rw [if_pos]
  have b := Tr.abs_le_of k
  have b2 := mul_le_mul_of_nonneg_left h (pow2_pos (-53)).le
  have c : pow2 1023 + (pow2 (-53) * pow2 1023 + pow2 (-1075)) ≤ max64 := by decide +kernel
  linarith

/-- C98: IEEE double precision, rounding to nearest, obeys the standard model. -/
theorem c98_binary64 : Rounds binary64 (Mach.val (fl := fl64)) :=
  mach_rounds (pow2_pos _).le (pow2_pos _).le fl64_error (by decide +kernel)

end Copra.Spec
