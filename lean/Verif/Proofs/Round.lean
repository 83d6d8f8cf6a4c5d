import Verif.SpecRound
import Verif.Proofs.Shadow

/-! # Error bars are sound -/

set_option linter.unusedSectionVars false

namespace Copra.Spec
variable {K L : Type} [Zero K] [One K] [Add K] [Sub K] [Neg K] [Mul K] [Arith K] [Field L] [LinearOrder L] [IsStrictOrderedRing L]
  {ρ : FP L} {val : K → Option L}

namespace Tr

theorem zero_def : (0 : Tr ρ) = ⟨0, some 0⟩ := rfl
theorem one_def : (1 : Tr ρ) = ⟨1, some 0⟩ := rfl

theorem rounded_some {v : L} {e : Option L} {r : L} (h : rounded ρ v e = some r) :
    ∃ e', e = some e' ∧ |v| + e' ≤ ρ.big ∧ r = e' + (ρ.u * (|v| + e') + ρ.eta) := by
  unfold rounded at h
  obtain ⟨e', h1, h⟩ := Option.bind_eq_some_iff.1 h
  split at h
  · next h2 => injection h with h; exact ⟨e', h1, h2, h.symm⟩
  · cases h

/-- A rounded result: `y` is the exact result on the machine numbers, `z` the rounded one. -/
theorem rounded_le (hu : 0 ≤ ρ.u) {v y z e : L} (hy : |y - v| ≤ e) (hz : |z - y| ≤ ρ.u * |y| + ρ.eta) :
    |z - v| ≤ e + (ρ.u * (|v| + e) + ρ.eta) := by
  have h1 : |y| ≤ |v| + e := by
    have := abs_add_le (y - v) v
    rw [sub_add_cancel] at this
    linarith
  have h2 : |z - v| ≤ |z - y| + |y - v| := by
    have := abs_add_le (z - y) (y - v)
    rwa [sub_add_sub_cancel] at this
  have h3 : ρ.u * |y| ≤ ρ.u * (|v| + e) := mul_le_mul_of_nonneg_left h1 hu
  linarith

theorem abs_le_of {v y e : L} (hy : |y - v| ≤ e) : |y| ≤ |v| + e := by
  have := abs_add_le (y - v) v
  rw [sub_add_cancel] at this
  linarith

theorem prod_le {a b x y e f : L} (h : |x - a| ≤ e) (g : |y - b| ≤ f) : |x * y - a * b| ≤ |a| * f + |b| * e + e * f := by
  have e1 : x * y - a * b = a * (y - b) + b * (x - a) + (x - a) * (y - b) := by ring
  rw [e1]
  have := abs_add_le (a * (y - b) + b * (x - a)) ((x - a) * (y - b))
  have h1 := abs_add_le (a * (y - b)) (b * (x - a))
  rw [abs_mul, abs_mul] at h1
  rw [abs_mul (x - a)] at this
  have k1 := mul_le_mul_of_nonneg_left g (abs_nonneg a)
  have k2 := mul_le_mul_of_nonneg_left h (abs_nonneg b)
  have k3 := mul_le_mul h g (abs_nonneg _) ((abs_nonneg _).trans h)
  linarith

theorem two_some {o p : Option L} {f : L → L → L} {r : L} (h : (o.bind fun x => p.map fun y => f x y) = some r) :
    ∃ x y, o = some x ∧ p = some y ∧ r = f x y := by
  obtain ⟨x, h1, h⟩ := Option.bind_eq_some_iff.1 h
  obtain ⟨y, h2, h⟩ := Option.map_eq_some_iff.1 h
  exact ⟨x, y, h1, h2, h.symm⟩

theorem bars_some {f g : Nat → K} {f' g' : Nat → Tr ρ} {n : Nat} {S E : L} (hf : ∀ k < n, Encloses val (f k) (f' k))
    (hg : ∀ k < n, Encloses val (g k) (g' k)) (h : bars f' g' n = some (S, E)) :
    ∃ x y : Nat → L, (∀ k < n, val (f k) = some (x k)) ∧ (∀ k < n, val (g k) = some (y k)) ∧
      (∑ k ∈ Finset.range n, |x k * y k|) ≤ S ∧
      |(∑ k ∈ Finset.range n, x k * y k) - ∑ k ∈ Finset.range n, (f' k).val * (g' k).val| ≤ E := by
  induction n generalizing S E with
  | zero =>
    unfold bars at h
    injection h with h
    obtain ⟨rfl, rfl⟩ := Prod.mk.inj h
    exact ⟨fun _ => 0, fun _ => 0, fun k hk => absurd hk (Nat.not_lt_zero k), fun k hk => absurd hk (Nat.not_lt_zero k), by simp,
      by simp⟩
  | succ n ih =>
    unfold bars at h
    obtain ⟨⟨S1, E1⟩, h1, h⟩ := Option.bind_eq_some_iff.1 h
    obtain ⟨e, h2, h⟩ := Option.map_eq_some_iff.1 h
    obtain ⟨rfl, rfl⟩ := Prod.mk.inj h
    obtain ⟨x, y, hx, hy, b1, b2⟩ := ih (fun k hk => hf k (Nat.lt_succ_of_lt hk)) (fun k hk => hg k (Nat.lt_succ_of_lt hk)) h1
    obtain ⟨p, r, h3, h4, rfl⟩ := two_some h2
    obtain ⟨a, ha, ha'⟩ := hf n (Nat.lt_succ_self n) p h3
    obtain ⟨b, hb, hb'⟩ := hg n (Nat.lt_succ_self n) r h4
    have k1 := prod_le ha' hb'
    have k2 := abs_le_of k1
    refine ⟨fun k => if k = n then a else x k, fun k => if k = n then b else y k, fun k hk => ?_, fun k hk => ?_, ?_, ?_⟩
    · dsimp only
      by_cases e : k = n
      · rw [if_pos e, e, ha]
      · rw [if_neg e]; exact hx k (by omega)
    · dsimp only
      by_cases e : k = n
      · rw [if_pos e, e, hb]
      · rw [if_neg e]; exact hy k (by omega)
    · dsimp only
      rw [Finset.sum_range_succ, if_pos rfl, if_pos rfl]
      rw [Finset.sum_congr rfl (g := fun k => |x k * y k|)]
      · exact add_le_add b1 k2
      · intro k hk
        have : k ≠ n := (Finset.mem_range.1 hk).ne
        rw [if_neg this, if_neg this]
    · dsimp only
      rw [Finset.sum_range_succ, Finset.sum_range_succ, if_pos rfl, if_pos rfl]
      rw [Finset.sum_congr rfl (g := fun k => x k * y k)]
      · have := abs_add_le ((∑ k ∈ Finset.range n, x k * y k) - ∑ k ∈ Finset.range n, (f' k).val * (g' k).val)
          (a * b - (f' n).val * (g' n).val)
        rw [add_sub_add_comm]
        exact this.trans (add_le_add b2 k1)
      · intro k hk
        have : k ≠ n := (Finset.mem_range.1 hk).ne
        rw [if_neg this, if_neg this]

/-- The operations on error bars are sound. -/
theorem scalar_encloses (H : Rounds ρ val) : ScalarRel (Encloses (ρ := ρ) val) where
  zero e h := by
    injection h with h
    exact ⟨0, H.zero, by rw [← h]; show |(0 : L) - 0| ≤ 0; simp⟩
  one e h := by
    injection h with h
    exact ⟨1, H.one, by rw [← h]; show |(1 : L) - 1| ≤ 0; simp⟩
  add {a b a' b'} ha hb e h := by
    obtain ⟨e1, h1, h2, rfl⟩ := rounded_some h
    obtain ⟨p, r, h3, h4, rfl⟩ := two_some h1
    obtain ⟨x, hx, kx⟩ := ha p h3
    obtain ⟨y, hy, ky⟩ := hb r h4
    have k : |x + y - (a'.val + b'.val)| ≤ p + r := by
      rw [add_sub_add_comm]
      exact (abs_add_le _ _).trans (add_le_add kx ky)
    obtain ⟨z, hz, kz⟩ := H.add hx hy ((abs_le_of k).trans h2)
    exact ⟨z, hz, rounded_le H.u_nonneg k kz⟩
  sub {a b a' b'} ha hb e h := by
    obtain ⟨e1, h1, h2, rfl⟩ := rounded_some h
    obtain ⟨p, r, h3, h4, rfl⟩ := two_some h1
    obtain ⟨x, hx, kx⟩ := ha p h3
    obtain ⟨y, hy, ky⟩ := hb r h4
    have k : |x - y - (a'.val - b'.val)| ≤ p + r := by
      have e : x - y - (a'.val - b'.val) = (x - a'.val) - (y - b'.val) := by ring
      rw [e]
      exact (abs_sub _ _).trans (add_le_add kx ky)
    obtain ⟨z, hz, kz⟩ := H.sub hx hy ((abs_le_of k).trans h2)
    exact ⟨z, hz, rounded_le H.u_nonneg k kz⟩
  neg {a a'} ha e h := by
    obtain ⟨x, hx, kx⟩ := ha e h
    refine ⟨-x, H.neg hx, ?_⟩
    show |-x - -a'.val| ≤ e
    rw [← abs_neg]
    have : -(-x - -a'.val) = x - a'.val := by ring
    rwa [this]
  mul {a b a' b'} ha hb e h := by
    obtain ⟨e1, h1, h2, rfl⟩ := rounded_some h
    obtain ⟨p, r, h3, h4, rfl⟩ := two_some h1
    obtain ⟨x, hx, kx⟩ := ha p h3
    obtain ⟨y, hy, ky⟩ := hb r h4
    have k := prod_le kx ky
    obtain ⟨z, hz, kz⟩ := H.mul hx hy ((abs_le_of k).trans h2)
    exact ⟨z, hz, rounded_le H.u_nonneg k kz⟩
  dot {s n f g f' g'} hf hg e h := by
    obtain ⟨⟨S, E⟩, h1, h⟩ := Option.bind_eq_some_iff.1 h
    split at h
    · next h2 =>
      injection h with h
      obtain ⟨x, y, hx, hy, b1, b2⟩ := bars_some hf hg h1
      have k : ρ.gam n * (∑ k ∈ Finset.range n, |x k * y k|) ≤ ρ.gam n * S := mul_le_mul_of_nonneg_left b1 (H.gam_nonneg n)
      obtain ⟨z, hz, kz⟩ := H.dot (s := s) hx hy (by dsimp only at h2; linarith)
      refine ⟨z, hz, ?_⟩
      show |z - ∑ k ∈ Finset.range n, (f' k).val * (g' k).val| ≤ e
      have := abs_add_le (z - ∑ k ∈ Finset.range n, x k * y k)
        ((∑ k ∈ Finset.range n, x k * y k) - ∑ k ∈ Finset.range n, (f' k).val * (g' k).val)
      rw [sub_add_sub_cancel] at this
      dsimp only at h
      linarith
    · cases h
  micro e h := by
    injection h with h
    obtain ⟨z, hz, kz⟩ := H.micro
    exact ⟨z, hz, by rw [← h]; exact kz⟩

theorem scalar_exact : ScalarRel (Exact (ρ := ρ)) where
  zero := rfl
  one := rfl
  add h g := by unfold Exact at *; rw [← h, ← g]; rfl
  sub h g := by unfold Exact at *; rw [← h, ← g]; rfl
  neg h := by unfold Exact at *; rw [← h]; rfl
  mul h g := by unfold Exact at *; rw [← h, ← g]; rfl
  dot {s n f g f' g'} hf hg := by
    unfold Exact at *
    rw [dot_eq]
    show ∑ k ∈ Finset.range n, (f k).val * (g k).val = _
    exact Finset.sum_congr rfl fun k hk => by rw [hf k (Finset.mem_range.1 hk), hg k (Finset.mem_range.1 hk)]
  micro := rfl

theorem lift_encloses (a : K) : Encloses val a (lift ρ val a) := by
  intro e h
  unfold lift at *
  cases hv : val a with
  | none => rw [hv] at h; cases h
  | some x =>
    rw [hv] at h
    injection h with h
    exact ⟨x, rfl, by rw [← h]; simp⟩

theorem lift_taken (a : K) : Taken val a (lift ρ val a) := rfl

theorem lift_zero (H : Rounds ρ val) : lift ρ val 0 = 0 := by unfold lift; rw [H.zero]; rfl
theorem lift_one (H : Rounds ρ val) : lift ρ val 1 = 1 := by unfold lift; rw [H.one]; rfl

end Tr

/-- The three programs stay together, whatever they compute. -/
theorem Side.related {rel : K → Tr ρ → Prop} {dmax : K} {tmax : Tr ρ} {w : World K} {t : World (Tr ρ)} {v : World L} (H : Rounds ρ val)
    (hm : Tr.Encloses val dmax tmax) (h : Side val rel dmax tmax w t v) : WorldR (Tr.Encloses val) w t ∧ WorldR Tr.Exact t v := by
  induction h with
  | start _ _ _ h _ g => exact ⟨h, g⟩
  | ok _ ho _ ho' h1 h2 h3 ih =>
    have k1 := ih.1.step (Tr.scalar_encloses H) (dm := dmax) (dm' := tmax) hm ho
    have k2 := ih.2.step (Tr.scalar_exact) (dm := tmax) (dm' := tmax.val) rfl ho'
    rw [h1, h2] at k1
    rw [h2, h3] at k2
    exact ⟨k1, k2⟩
  | thrown _ ho _ ho' h1 h2 h3 ih =>
    have k1 := ih.1.step (Tr.scalar_encloses H) (dm := dmax) (dm' := tmax) hm ho
    have k2 := ih.2.step (Tr.scalar_exact) (dm := tmax) (dm' := tmax.val) rfl ho'
    rw [h1, h2] at k1
    rw [h2, h3] at k2
    exact ⟨k1.2, k2.2⟩

end Copra.Spec
