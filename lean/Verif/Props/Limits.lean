import Verif.SpecLimits
import Verif.Props.AffineLaw

/-! # C112: between two plans that touch the same limits the control is affine in the initial state -/

namespace Copra
open Spec

set_option linter.unusedSectionVars false
set_option maxRecDepth 100000

section
variable {K : Type} [Field K] [LinearOrder K] [IsStrictOrderedRing K]

/-- True for all small nonnegative steps. -/
def Soon (P : K → Prop) : Prop := ∃ δ, 0 < δ ∧ ∀ t : K, 0 ≤ t → t ≤ δ → P t

theorem Soon.always {P : K → Prop} (h : ∀ t, P t) : Soon P := ⟨1, one_pos, fun t _ _ => h t⟩

theorem Soon.imp {P Q : K → Prop} (h : Soon P) (f : ∀ t, P t → Q t) : Soon Q := by
  obtain ⟨δ, h0, H⟩ := h
  exact ⟨δ, h0, fun t a b => f t (H t a b)⟩

theorem Soon.and {P Q : K → Prop} (h : Soon P) (h' : Soon Q) : Soon fun t => P t ∧ Q t := by
  obtain ⟨a, ha, A⟩ := h
  obtain ⟨b, hb, B⟩ := h'
  exact ⟨min a b, lt_min ha hb, fun t t0 t1 => ⟨A t t0 (t1.trans (min_le_left _ _)), B t t0 (t1.trans (min_le_right _ _))⟩⟩

theorem Soon.list {α : Type} {l : List α} {P : α → K → Prop} (h : ∀ i ∈ l, Soon (P i)) : Soon fun t => ∀ i ∈ l, P i t := by
  induction l with
  | nil => exact Soon.always fun _ i hi => by cases hi
  | cons i l ih =>
    refine ((h i List.mem_cons_self).and (ih fun j hj => h j (List.mem_cons_of_mem _ hj))).imp fun t H j hj => ?_
    rcases List.mem_cons.1 hj with rfl | hj
    · exact H.1
    · exact H.2 j hj

theorem Soon.lt {n : Nat} {P : Nat → K → Prop} (h : ∀ i < n, Soon (P i)) : Soon fun t => ∀ i < n, P i t :=
  (Soon.list (l := List.range n) fun i hi => h i (List.mem_range.1 hi)).imp fun _ H i hi => H i (List.mem_range.2 hi)

theorem Soon.le {n : Nat} {P : Nat → K → Prop} (h : ∀ i ≤ n, Soon (P i)) : Soon fun t => ∀ i ≤ n, P i t :=
  (Soon.lt (n := n + 1) fun i hi => h i (Nat.lt_succ_iff.1 hi)).imp fun _ H i hi => H i (Nat.lt_succ_iff.2 hi)

theorem soon_lt {a b : K} (h : a < b) (v : K) : Soon fun t => a + t * v ≤ b := by
  refine ⟨(b - a) / (|v| + 1), div_pos (by linarith) (by positivity), fun t t0 t1 => ?_⟩
  rw [le_div_iff₀ (by positivity)] at t1
  have := mul_le_mul_of_nonneg_left (le_abs_self v) t0
  nlinarith

theorem soon_le_ext {s v m : K} {b : Ext K} (hs : Ext.fin s ≤ b) (hv : Ext.fin v ≤ b) (H : Ext.fin s = b → Ext.fin m = b) :
    Soon fun t => Ext.fin (s + t * (v - m)) ≤ b := by
  cases b with
  | ninf => exact Soon.always fun _ => hs
  | pinf => exact Soon.always fun _ => trivial
  | fin b =>
    have hs : s ≤ b := hs
    have hv : v ≤ b := hv
    show Soon fun t => s + t * (v - m) ≤ b
    rcases hs.lt_or_eq with h | rfl
    · exact soon_lt h _
    · have e : m = s := by injection H rfl
      subst e
      exact ⟨1, one_pos, fun t t0 _ => by nlinarith⟩

theorem soon_ge_ext {s v m : K} {b : Ext K} (hs : b ≤ Ext.fin s) (hv : b ≤ Ext.fin v) (H : Ext.fin s = b → Ext.fin m = b) :
    Soon fun t => b ≤ Ext.fin (s + t * (v - m)) := by
  cases b with
  | pinf => exact Soon.always fun _ => hs
  | ninf => exact Soon.always fun _ => trivial
  | fin b =>
    have hs : b ≤ s := hs
    have hv : b ≤ v := hv
    show Soon fun t => b ≤ s + t * (v - m)
    rcases hs.lt_or_eq with h | rfl
    · refine (soon_lt (neg_lt_neg h) (-(v - m))).imp fun t ht => by linarith
    · have e : m = b := by injection H rfl
      subst e
      exact ⟨1, one_pos, fun t t0 _ => by nlinarith⟩

theorem soon_rel {q : Bool} {s v m : K} {b : Ext K} (hs : Spec.Rel q s b) (hv : Spec.Rel q v b) (hm : Spec.Rel q m b)
    (H : Ext.fin s = b → Ext.fin m = b) : Soon fun t => Spec.Rel q (s + t * (v - m)) b := by
  unfold Spec.Rel at *
  split at hs
  · rw [if_pos ‹_›] at hv
    simp only [if_pos ‹q = true›]
    exact soon_le_ext hs hv H
  · rw [if_neg ‹_›] at hv hm
    simp only [if_neg ‹¬ q = true›]
    refine Soon.always fun t => ?_
    rw [← hm] at hv
    injection hv with hv
    rw [hv, sub_self, mul_zero, add_zero]
    exact hs

theorem sum_step (t : K) (s : Finset Nat) (e x y z : Nat → K) :
    ∑ c ∈ s, e c * (x c + t * (y c - z c)) = (∑ c ∈ s, e c * x c) + t * ((∑ c ∈ s, e c * y c) - ∑ c ∈ s, e c * z c) := by
  rw [← Finset.sum_sub_distrib, Finset.mul_sum, ← Finset.sum_add_distrib]
  exact Finset.sum_congr rfl fun c _ => by ring

theorem sum2_step (t : K) (s u : Finset Nat) (e : Nat → Nat → K) (X Y Z : Nat → Nat → K) :
    ∑ k ∈ s, ∑ c ∈ u, e k c * (X k c + t * (Y k c - Z k c)) =
      (∑ k ∈ s, ∑ c ∈ u, e k c * X k c) + t * ((∑ k ∈ s, ∑ c ∈ u, e k c * Y k c) - ∑ k ∈ s, ∑ c ∈ u, e k c * Z k c) := by
  rw [← Finset.sum_sub_distrib, Finset.mul_sum, ← Finset.sum_add_distrib]
  exact Finset.sum_congr rfl fun k _ => sum_step t u _ _ _ _

/-- From a point that touches no more limits than another one, small steps in the directions admissible at that one are admissible. -/
theorem holds_soon {d : Dims} {X Y Z : Nat → Nat → K} {U V W : Nat → K} {D : ConstrData K} (hX : D.Holds d X U)
    (hY : D.Holds d Y V) (hZ : D.Holds d Z W) (H : ∀ k r up, D.Touches d X U k r up → D.Touches d Z W k r up) :
    Soon fun t => D.Holds d (fun k r => X k r + t * (Y k r - Z k r)) fun j => U j + t * (V j - W j) := by
  have C : ∀ (t : K) (k c : Nat), ctrl d (fun j => U j + t * (V j - W j)) k c = ctrl d U k c + t * (ctrl d V k c - ctrl d W k c) :=
    fun _ _ _ => rfl
  cases D <;> simp only [ConstrData.Holds] at hX hY hZ ⊢ <;> simp only [ConstrData.Touches] at H
  case trajectory q E f =>
    split <;> rename_i hc
    · rw [if_pos hc] at hX hY hZ
      simp only [if_pos hc] at H
      refine Soon.le fun k hk => Soon.lt fun r hr => ?_
      simp only [sum_step]
      exact soon_rel (hX k hk r hr) (hY k hk r hr) (hZ k hk r hr) fun e => (H k r true ⟨hr, hk, e⟩).2.2
    · rw [if_neg hc] at hX hY hZ
      simp only [if_neg hc] at H
      refine Soon.lt fun r hr => ?_
      simp only [sum2_step _ _ _ fun k c => E.e r (k * d.n + c)]
      exact soon_rel (hX r hr) (hY r hr) (hZ r hr) fun e => (H 0 r true ⟨hr, e⟩).2
  case control q G f =>
    split <;> rename_i hc
    · rw [if_pos hc] at hX hY hZ
      simp only [if_pos hc] at H
      refine Soon.lt fun k hk => Soon.lt fun r hr => ?_
      simp only [C, sum_step]
      exact soon_rel (hX k hk r hr) (hY k hk r hr) (hZ k hk r hr) fun e => (H k r true ⟨hr, hk, e⟩).2.2
    · rw [if_neg hc] at hX hY hZ
      simp only [if_neg hc] at H
      refine Soon.lt fun r hr => ?_
      simp only [C, sum2_step _ _ _ fun k c => G.e r (k * d.m + c)]
      exact soon_rel (hX r hr) (hY r hr) (hZ r hr) fun e => (H 0 r true ⟨hr, e⟩).2
  case mixed q E G f =>
    have split : ∀ a b c x y z t : K, a + t * (b - c) + (x + t * (y - z)) = (a + x) + t * ((b + y) - (c + z)) := fun a b c x y z t => by ring
    split <;> rename_i hc
    · rw [if_pos hc] at hX hY hZ
      simp only [if_pos hc] at H
      refine Soon.lt fun k hk => Soon.lt fun r hr => ?_
      simp only [C, sum_step, split]
      exact soon_rel (hX k hk r hr) (hY k hk r hr) (hZ k hk r hr) fun e => (H k r true ⟨hr, hk, e⟩).2.2
    · rw [if_neg hc] at hX hY hZ
      simp only [if_neg hc] at H
      refine Soon.lt fun r hr => ?_
      simp only [C, sum2_step _ _ _ fun k c => G.e r (k * d.m + c), sum2_step _ _ _ fun k c => E.e r (k * d.n + c), split]
      exact soon_rel (hX r hr) (hY r hr) (hZ r hr) fun e => (H 0 r true ⟨hr, e⟩).2
  case trajBound l u =>
    split <;> rename_i hc
    · rw [if_pos hc] at hX hY
      simp only [if_pos hc] at H
      exact Soon.le fun k hk => Soon.lt fun r hr =>
        (soon_ge_ext (hX k hk r hr).1 (hY k hk r hr).1 fun e => (H k r false ⟨hk, hr, e⟩).2.2).and
        (soon_le_ext (hX k hk r hr).2 (hY k hk r hr).2 fun e => (H k r true ⟨hk, hr, e⟩).2.2)
    · rw [if_neg hc] at hX hY
      simp only [if_neg hc] at H
      exact Soon.le fun k hk => Soon.lt fun r hr =>
        (soon_ge_ext (hX k hk r hr).1 (hY k hk r hr).1 fun e => (H k r false ⟨hk, hr, e⟩).2.2).and
        (soon_le_ext (hX k hk r hr).2 (hY k hk r hr).2 fun e => (H k r true ⟨hk, hr, e⟩).2.2)
  case ctrlBound l u =>
    split <;> rename_i hc
    · rw [if_pos hc] at hX hY
      simp only [if_pos hc] at H
      exact Soon.lt fun k hk => Soon.lt fun r hr =>
        (soon_ge_ext (hX k hk r hr).1 (hY k hk r hr).1 fun e => (H k r false ⟨hk, hr, e⟩).2.2).and
        (soon_le_ext (hX k hk r hr).2 (hY k hk r hr).2 fun e => (H k r true ⟨hk, hr, e⟩).2.2)
    · rw [if_neg hc] at hX hY
      simp only [if_neg hc] at H
      exact Soon.lt fun k hk => Soon.lt fun r hr =>
        (soon_ge_ext (hX k hk r hr).1 (hY k hk r hr).1 fun e => (H k r false ⟨hk, hr, e⟩).2.2).and
        (soon_le_ext (hX k hk r hr).2 (hY k hk r hr).2 fun e => (H k r true ⟨hk, hr, e⟩).2.2)

/-! ## The limits touched in between -/

theorem fin_mix {a s t : K} {b : Ext K} (hs : Ext.fin s = b) (ht : Ext.fin t = b) : Ext.fin (a * s + (1 - a) * t) = b := by
  rw [← ht] at hs ⊢
  injection hs with hs
  rw [hs]; congr 1; ring

theorem touches_mix {d : Dims} {X Y : Nat → Nat → K} {U V : Nat → K} {D : ConstrData K} {k r : Nat} {up : Bool} (a : K)
    (hX : D.Touches d X U k r up) (hY : D.Touches d Y V k r up) :
    D.Touches d (fun k => mix a (X k) (Y k)) (mix a U V) k r up := by
  have split : ∀ s t x y : K, a * s + (1 - a) * t + (a * x + (1 - a) * y) = a * (s + x) + (1 - a) * (t + y) := fun s t x y => by ring
  cases D <;> simp only [ConstrData.Touches] at hX hY ⊢
  case trajectory q E f =>
    refine ⟨hX.1, ?_⟩
    replace hX := hX.2
    replace hY := hY.2
    split <;> rename_i hc
    · rw [if_pos hc] at hX hY
      rw [sum_mix]
      exact ⟨hX.1, fin_mix hX.2 hY.2⟩
    · rw [if_neg hc] at hX hY
      rw [sum2_mix a _ _ (fun k c => E.e r (k * d.n + c))]
      exact fin_mix hX hY
  case control q G f =>
    refine ⟨hX.1, ?_⟩
    replace hX := hX.2
    replace hY := hY.2
    split <;> rename_i hc
    · rw [if_pos hc] at hX hY
      rw [ctrl_mix, sum_mix]
      exact ⟨hX.1, fin_mix hX.2 hY.2⟩
    · rw [if_neg hc] at hX hY
      simp only [ctrl_mix]
      rw [sum2_mix a _ _ (fun k c => G.e r (k * d.m + c))]
      exact fin_mix hX hY
  case mixed q E G f =>
    refine ⟨hX.1, ?_⟩
    replace hX := hX.2
    replace hY := hY.2
    split <;> rename_i hc
    · rw [if_pos hc] at hX hY
      rw [ctrl_mix, sum_mix, sum_mix, split]
      exact ⟨hX.1, fin_mix hX.2 hY.2⟩
    · rw [if_neg hc] at hX hY
      simp only [ctrl_mix]
      rw [sum2_mix a _ _ (fun k c => G.e r (k * d.m + c)), sum2_mix a _ _ (fun k c => E.e r (k * d.n + c)), split]
      exact fin_mix hX hY
  case trajBound l u => exact ⟨hX.1, hX.2.1, fin_mix hX.2.2 hY.2.2⟩
  case ctrlBound l u => exact ⟨hX.1, hX.2.1, fin_mix hX.2.2 hY.2.2⟩

theorem fin_of_le_mix {a s t : K} {b : Ext K} (h0 : 0 < a) (h1 : a ≤ 1) (hs : Ext.fin s ≤ b) (ht : Ext.fin t ≤ b)
    (e : Ext.fin (a * s + (1 - a) * t) = b) : Ext.fin s = b := by
  rw [← e] at hs ht ⊢
  have hs : s ≤ a * s + (1 - a) * t := hs
  have ht : t ≤ a * s + (1 - a) * t := ht
  have p : a * t ≤ a * s := by linarith
  have q : t ≤ s := le_of_mul_le_mul_left p h0
  have := mul_le_mul_of_nonneg_left q (sub_nonneg.2 h1)
  congr 1; linarith

theorem fin_of_ge_mix {a s t : K} {b : Ext K} (h0 : 0 < a) (h1 : a ≤ 1) (hs : b ≤ Ext.fin s) (ht : b ≤ Ext.fin t)
    (e : Ext.fin (a * s + (1 - a) * t) = b) : Ext.fin s = b := by
  rw [← e] at hs ht ⊢
  have hs : a * s + (1 - a) * t ≤ s := hs
  have ht : a * s + (1 - a) * t ≤ t := ht
  have p : a * s ≤ a * t := by linarith
  have q : s ≤ t := le_of_mul_le_mul_left p h0
  have := mul_le_mul_of_nonneg_left q (sub_nonneg.2 h1)
  congr 1; linarith

theorem fin_of_rel_mix {q : Bool} {a s t : K} {b : Ext K} (h0 : 0 < a) (h1 : a ≤ 1) (hs : Spec.Rel q s b) (ht : Spec.Rel q t b)
    (e : Ext.fin (a * s + (1 - a) * t) = b) : Ext.fin s = b := by
  unfold Spec.Rel at *
  split at hs
  · rw [if_pos ‹_›] at ht
    exact fin_of_le_mix h0 h1 hs ht e
  · exact hs

/-- A limit that an average of two admissible points touches is touched by the points. -/
theorem touches_of_mix {d : Dims} {a : K} (h0 : 0 < a) (h1 : a ≤ 1) {X Y : Nat → Nat → K} {U V : Nat → K} {D : ConstrData K}
    (hX : D.Holds d X U) (hY : D.Holds d Y V) {k r : Nat} {up : Bool}
    (h : D.Touches d (fun k => mix a (X k) (Y k)) (mix a U V) k r up) : D.Touches d X U k r up := by
  have split : ∀ s t x y : K, a * s + (1 - a) * t + (a * x + (1 - a) * y) = a * (s + x) + (1 - a) * (t + y) := fun s t x y => by ring
  cases D <;> simp only [ConstrData.Holds] at hX hY <;> simp only [ConstrData.Touches] at h ⊢
  case trajectory q E f =>
    refine ⟨h.1, ?_⟩
    split <;> rename_i hc
    · rw [if_pos hc] at hX hY
      have h2 := h.2
      rw [if_pos hc, sum_mix] at h2
      exact ⟨h2.1, fin_of_rel_mix h0 h1 (hX k h2.1 r h.1) (hY k h2.1 r h.1) h2.2⟩
    · rw [if_neg hc] at hX hY
      have h2 := h.2
      rw [if_neg hc, sum2_mix a _ _ (fun k c => E.e r (k * d.n + c))] at h2
      exact fin_of_rel_mix h0 h1 (hX r h.1) (hY r h.1) h2
  case control q G f =>
    refine ⟨h.1, ?_⟩
    split <;> rename_i hc
    · rw [if_pos hc] at hX hY
      have h2 := h.2
      rw [if_pos hc, ctrl_mix, sum_mix] at h2
      exact ⟨h2.1, fin_of_rel_mix h0 h1 (hX k h2.1 r h.1) (hY k h2.1 r h.1) h2.2⟩
    · rw [if_neg hc] at hX hY
      have h2 := h.2
      rw [if_neg hc] at h2
      simp only [ctrl_mix] at h2
      rw [sum2_mix a _ _ (fun k c => G.e r (k * d.m + c))] at h2
      exact fin_of_rel_mix h0 h1 (hX r h.1) (hY r h.1) h2
  case mixed q E G f =>
    refine ⟨h.1, ?_⟩
    split <;> rename_i hc
    · rw [if_pos hc] at hX hY
      have h2 := h.2
      rw [if_pos hc, ctrl_mix, sum_mix, sum_mix, split] at h2
      exact ⟨h2.1, fin_of_rel_mix h0 h1 (hX k h2.1 r h.1) (hY k h2.1 r h.1) h2.2⟩
    · rw [if_neg hc] at hX hY
      have h2 := h.2
      rw [if_neg hc] at h2
      simp only [ctrl_mix] at h2
      rw [sum2_mix a _ _ (fun k c => G.e r (k * d.m + c)), sum2_mix a _ _ (fun k c => E.e r (k * d.n + c)), split] at h2
      exact fin_of_rel_mix h0 h1 (hX r h.1) (hY r h.1) h2
  case trajBound l u =>
    obtain ⟨hk, hr, e⟩ := h
    refine ⟨hk, hr, ?_⟩
    have e : Ext.fin (a * X k r + (1 - a) * Y k r) = _ := e
    split at hX <;> rename_i hc <;> [rw [if_pos hc] at hY e ⊢; rw [if_neg hc] at hY e ⊢] <;> cases up
    · exact fin_of_ge_mix h0 h1 (hX k hk r hr).1 (hY k hk r hr).1 e
    · exact fin_of_le_mix h0 h1 (hX k hk r hr).2 (hY k hk r hr).2 e
    · exact fin_of_ge_mix h0 h1 (hX k hk r hr).1 (hY k hk r hr).1 e
    · exact fin_of_le_mix h0 h1 (hX k hk r hr).2 (hY k hk r hr).2 e
  case ctrlBound l u =>
    obtain ⟨hk, hr, e⟩ := h
    refine ⟨hk, hr, ?_⟩
    rw [ctrl_mix] at e
    have e : Ext.fin (a * ctrl d U k r + (1 - a) * ctrl d V k r) = _ := e
    split at hX <;> rename_i hc <;> [rw [if_pos hc] at hY e ⊢; rw [if_neg hc] at hY e ⊢] <;> cases up
    · exact fin_of_ge_mix h0 h1 (hX k hk r hr).1 (hY k hk r hr).1 e
    · exact fin_of_le_mix h0 h1 (hX k hk r hr).2 (hY k hk r hr).2 e
    · exact fin_of_ge_mix h0 h1 (hX k hk r hr).1 (hY k hk r hr).1 e
    · exact fin_of_le_mix h0 h1 (hX k hk r hr).2 (hY k hk r hr).2 e

/-- An average of two admissible points that touch the same limits touches these limits and no others. -/
theorem sameTouched_mix {d : Dims} {a : K} (h0 : 0 ≤ a) (h1 : a ≤ 1) {X Y : Nat → Nat → K} {U V : Nat → K} {D : ConstrData K}
    (hX : D.Holds d X U) (hY : D.Holds d Y V) (S : D.SameTouched d X U Y V) :
    D.SameTouched d X U (fun k => mix a (X k) (Y k)) (mix a U V) := by
  intro k r up
  refine ⟨fun h => touches_mix a h ((S k r up).1 h), fun h => ?_⟩
  rcases h0.lt_or_eq with h0 | rfl
  · exact touches_of_mix h0 h1 hX hY h
  · have e : ∀ x y : Nat → K, mix 0 x y = y := fun x y => by funext j; unfold mix; ring
    simp only [e] at h
    exact (S k r up).2 h

theorem touches_congr_traj {d : Dims} {X Y : Nat → Nat → K} (h : ∀ k ≤ d.N, ∀ r < d.n, X k r = Y k r) {U : Nat → K} {k r : Nat}
    {up : Bool} (D : ConstrData K) : D.Touches d X U k r up ↔ D.Touches d Y U k r up := by
  have S : ∀ (e : Nat → K) (k : Nat), k ≤ d.N → ∑ c ∈ Finset.range d.n, e c * X k c = ∑ c ∈ Finset.range d.n, e c * Y k c :=
    fun e k hk => Finset.sum_congr rfl fun c hc => by rw [h k hk c (Finset.mem_range.1 hc)]
  have S2 : ∀ e : Nat → Nat → K, ∑ k ∈ Finset.range (d.N + 1), ∑ c ∈ Finset.range d.n, e k c * X k c =
      ∑ k ∈ Finset.range (d.N + 1), ∑ c ∈ Finset.range d.n, e k c * Y k c :=
    fun e => Finset.sum_congr rfl fun k hk => S _ k (Nat.lt_succ_iff.1 (Finset.mem_range.1 hk))
  cases D <;> simp only [ConstrData.Touches]
  case trajectory q E f =>
    refine and_congr_right fun _ => ?_
    split
    · exact and_congr_right fun hk => by rw [S _ k hk]
    · rw [S2 fun k c => E.e r (k * d.n + c)]
  case mixed q E G f =>
    refine and_congr_right fun _ => ?_
    split
    · exact and_congr_right fun hk => by rw [S _ k hk.le]
    · rw [S2 fun k c => E.e r (k * d.n + c)]
  case trajBound l u => exact and_congr_right fun hk => and_congr_right fun hr => by rw [h k hk r hr]

namespace World

variable {d : Dims} {dmax a : K} {w1 w2 w3 w1' w2' w3' : World K} {g1 g2 g3 : Ghost} {p1 p2 p3 : Nat} {e1 e2 e3 : SolveEnv K}
  {b1 b3 : Bool} {q1 q2 q3 : QP K}

/-- From a plan that touches no more limits than a plan `W` from another initial state, small steps towards what is
admissible for the latter are admissible. -/
theorem feasible_soon (S1 : PlainSolve d dmax w1 g1 p1 e1 w1' b1 q1) (S3 : PlainSolve d dmax w3 g3 p3 e3 w3' b3 q3)
    (R : AlikeButStart w1 p1 w3 p3) {U V W : Nat → K} (hU : Feasible q1 U) (hV : Feasible q3 V) (hW : Feasible q3 W)
    (T : ∀ i ∈ w1.ctl.spConstr, ∀ k r up, (w1.cons i).userData.Touches d (Spec.traj d w1 p1 U) U k r up →
      (w1.cons i).userData.Touches d (Spec.traj d w3 p3 W) W k r up)
    (rU : w1.ctl.spBoundConstr = [] → ∀ j < d.m * d.N, |U j| < dmax) :
    Soon fun t => Feasible q1 fun j => U j + t * (V j - W j) := by
  have F1 := fun U => c30_feasible_set S1.hist (fun _ _ h => h.1) S1.allowed S1.plain S1.clean S1.honest S1.solve S1.ps U
  have F3 := fun U => c30_feasible_set S3.hist (fun _ _ h => h.1) S3.allowed S3.plain S3.clean S3.honest S3.solve S3.ps U
  have tr : ∀ t : K, Spec.traj d w1 p1 (fun j => U j + t * (V j - W j)) =
      fun k r => Spec.traj d w1 p1 U k r + t * (Spec.traj d w3 p3 V k r - Spec.traj d w3 p3 W k r) := by
    intro t
    funext k
    unfold Spec.traj
    rw [← R.A, ← R.B, ← R.bias]
    exact sim_line d _ _ _ t _ _ U V W k
  have L := Soon.list (l := w1.ctl.spConstr) fun i hi => holds_soon (((F1 U).1 hU).1 i hi)
    ((AlikeButStart.mem R fun D => D.Holds d (Spec.traj d w3 p3 V) V).2 ((F3 V).1 hV).1 i hi)
    ((AlikeButStart.mem R fun D => D.Holds d (Spec.traj d w3 p3 W) W).2 ((F3 W).1 hW).1 i hi) (T i hi)
  have B : Soon fun t => w1.ctl.spBoundConstr = [] → ∀ j < d.m * d.N, -dmax ≤ U j + t * (V j - W j) ∧ U j + t * (V j - W j) ≤ dmax := by
    by_cases hb : w1.ctl.spBoundConstr = []
    · refine (Soon.lt (n := d.m * d.N) fun j hj => ?_).imp fun t H _ => H
      have hu := abs_lt.1 (rU hb j hj)
      exact ((soon_lt (by linarith : -U j < dmax) (-(V j - W j))).imp fun t ht => by linarith).and (soon_lt hu.2 _)
    · exact Soon.always fun _ h => absurd h hb
  refine (L.and B).imp fun t H => (F1 _).2 ⟨?_, H.2⟩
  rw [tr]
  exact H.1

/-- A slope that does not help in small nonnegative steps is nonnegative. -/
theorem slope_nonneg {g h : K} (H : Soon fun t => 0 ≤ t * g + t ^ 2 * h) : 0 ≤ g := by
  by_contra hg
  have hg : g < 0 := not_le.1 hg
  obtain ⟨δ, h0, H⟩ := H
  have hh : 0 ≤ |h| := abs_nonneg h
  let s := min δ (-g / (2 * (|h| + 1)))
  have s0 : 0 < s := lt_min h0 (div_pos (by linarith) (by positivity))
  have s2 : s * (2 * (|h| + 1)) ≤ -g := by
    have : s ≤ -g / (2 * (|h| + 1)) := min_le_right _ _
    rwa [le_div_iff₀ (by positivity)] at this
  have h1 := H s s0.le (min_le_left _ _)
  have h2 : s ^ 2 * h ≤ s ^ 2 * |h| := mul_le_mul_of_nonneg_left (le_abs_self h) (sq_nonneg s)
  have h3 := mul_le_mul_of_nonneg_left s2 s0.le
  nlinarith [mul_pos s0 s0, mul_neg_of_pos_of_neg s0 hg]

/-- **C112**: between two plans that touch the same limits the control is affine in the initial state. Two solves, from two
initial states, with the same system, constraints and costs (added in any order, after any histories), return
minimisers that touch the same limits of the same constraints. Then from every state `a x1 + (1 - a) x2` between them
the same average of the two controls is a minimiser. -/
theorem c112_affine (h0 : 0 ≤ a) (h1 : a ≤ 1) (S1 : PlainSolve d dmax w1 g1 p1 e1 w1' true q1)
    (S2 : PlainSolve d dmax w2 g2 p2 e2 w2' true q2) (S3 : PlainSolve d dmax w3 g3 p3 e3 w3' b3 q3)
    (R1 : AlikeButStart w1 p1 w3 p3) (R2 : AlikeButStart w2 p2 w3 p3)
    (hx : ∀ r < d.n, (w3.pss p3).x0.e r = mix a (w1.pss p1).x0.e (w2.pss p2).x0.e r)
    (f1 : CostsFresh d w1 g1) (f2 : CostsFresh d w2 g2) (f3 : CostsFresh d w3 g3)
    (o1 : IsOptimal q1 (e1.answer q1).2.e) (o2 : IsOptimal q2 (e2.answer q2).2.e)
    (same : ∀ i ∈ w3.ctl.spConstr, (w3.cons i).userData.SameTouched d (Spec.traj d w1 p1 w1'.ctl.control.e) w1'.ctl.control.e
      (Spec.traj d w2 p2 w2'.ctl.control.e) w2'.ctl.control.e)
    (r1 : w1.ctl.spBoundConstr = [] → ∀ j < d.m * d.N, |w1'.ctl.control.e j| < dmax)
    (r2 : w2.ctl.spBoundConstr = [] → ∀ j < d.m * d.N, |w2'.ctl.control.e j| < dmax) :
    IsOptimal q3 (mix a w1'.ctl.control.e w2'.ctl.control.e) := by
  rw [← c40_control_is_answer S1.plain S1.solve] at o1
  rw [← c40_control_is_answer S2.plain S2.solve] at o2
  generalize w1'.ctl.control.e = U1 at *
  generalize w2'.ctl.control.e = U2 at *
  have F1 := fun U => c30_feasible_set S1.hist (fun _ _ h => h.1) S1.allowed S1.plain S1.clean S1.honest S1.solve S1.ps U
  have F2 := fun U => c30_feasible_set S2.hist (fun _ _ h => h.1) S2.allowed S2.plain S2.clean S2.honest S2.solve S2.ps U
  have F3 := fun U => c30_feasible_set S3.hist (fun _ _ h => h.1) S3.allowed S3.plain S3.clean S3.honest S3.solve S3.ps U
  have T : ∀ k ≤ d.N, ∀ r < d.n, Spec.traj d w3 p3 (mix a U1 U2) k r = mix a (Spec.traj d w1 p1 U1 k) (Spec.traj d w2 p2 U2 k) r := by
    intro k hk r hr
    unfold Spec.traj
    rw [sim_congr d _ _ _ (V := mix a U1 U2) hx (fun _ _ => rfl) k hk r hr, sim_mix, R1.A, R1.B, R1.bias, R2.A, R2.B, R2.bias]
  have feas : Feasible q3 (mix a U1 U2) := (F3 _).2 (admissible_mix h0 h1 S1.hist.good S2.hist.good S3.hist.good S1.ps S2.ps S3.ps
    R1 R2 hx ((F1 U1).1 o1.1) ((F2 U2).1 o2.1))
  have both : ∀ i ∈ w3.ctl.spConstr, ∀ k r up, ((w3.cons i).userData.Touches d (Spec.traj d w1 p1 U1) U1 k r up →
      (w3.cons i).userData.Touches d (Spec.traj d w3 p3 (mix a U1 U2)) (mix a U1 U2) k r up) ∧
      ((w3.cons i).userData.Touches d (Spec.traj d w2 p2 U2) U2 k r up →
      (w3.cons i).userData.Touches d (Spec.traj d w3 p3 (mix a U1 U2)) (mix a U1 U2) k r up) := by
    intro i hi k r up
    exact ⟨fun h => (touches_congr_traj T _).2 (touches_mix a h ((same i hi k r up).1 h)),
      fun h => (touches_congr_traj T _).2 (touches_mix a ((same i hi k r up).2 h) h)⟩
  refine ⟨feas, fun V hV => ?_⟩
  obtain ⟨k1, O1⟩ := c32_objective S1.hist S1.allowed S1.plain f1 S1.solve S1.ps
  obtain ⟨k2, O2⟩ := c32_objective S2.hist S2.allowed S2.plain f2 S2.solve S2.ps
  obtain ⟨k3, O3⟩ := c32_objective S3.hist S3.allowed S3.plain f3 S3.solve S3.ps
  obtain ⟨g, h, line, aff, nn⟩ := Curve.total (d := d) (p := p3) (registered_nonneg S3.hist fun _ _ h => h.2)
  dsimp only at line
  have z1 : 0 ≤ g (w1.pss p1).x0.e U1 (fun j => V j - mix a U1 U2 j) := by
    have T1 := (AlikeButStart.mem R1 fun D => ∀ k r up, D.Touches d (Spec.traj d w1 p1 U1) U1 k r up →
      D.Touches d (Spec.traj d w3 p3 (mix a U1 U2)) (mix a U1 U2) k r up).2 fun i hi k r up => (both i hi k r up).1
    refine slope_nonneg (h := h fun j => V j - mix a U1 U2 j) ((feasible_soon S1 S3 R1 o1.1 hV feas T1 r1).imp fun t H => ?_)
    have := o1.2 _ H
    rw [O1, O1, AlikeButStart.total R1, AlikeButStart.total R1, line _ _ (fun j => V j - mix a U1 U2 j)] at this
    linarith
  have z2 : 0 ≤ g (w2.pss p2).x0.e U2 (fun j => V j - mix a U1 U2 j) := by
    have T2 := (AlikeButStart.mem R2 fun D => ∀ k r up, D.Touches d (Spec.traj d w2 p2 U2) U2 k r up →
      D.Touches d (Spec.traj d w3 p3 (mix a U1 U2)) (mix a U1 U2) k r up).2 fun i hi k r up => (both i hi k r up).2
    refine slope_nonneg (h := h fun j => V j - mix a U1 U2 j) ((feasible_soon S2 S3 R2 o2.1 hV feas T2 r2).imp fun t H => ?_)
    have := o2.2 _ H
    rw [O2, O2, AlikeButStart.total R2, AlikeButStart.total R2, line _ _ (fun j => V j - mix a U1 U2 j)] at this
    linarith
  have tot : ∀ U, totalCost d w3 p3 U = totalCostFrom d w3 p3 (mix a (w1.pss p1).x0.e (w2.pss p2).x0.e) U := by
    intro U
    unfold totalCost totalCostFrom
    have : ∀ k ≤ d.N, ∀ r < d.n, Spec.traj d w3 p3 U k r = trajFrom d w3 p3 (mix a (w1.pss p1).x0.e (w2.pss p2).x0.e) U k r := by
      intro k hk r hr
      unfold Spec.traj Spec.trajFrom
      exact sim_congr d _ _ _ hx (fun _ _ => rfl) k hk r hr
    simp only [value_congr_traj this]
  have eV : V = fun j => mix a U1 U2 j + 1 * (V j - mix a U1 U2 j) := by funext j; ring
  rw [O3, O3, tot, tot]
  conv_rhs => rw [eV]
  rw [line _ _ (fun j => V j - mix a U1 U2 j), aff]
  have := nn fun j => V j - mix a U1 U2 j
  have := mul_nonneg h0 z1
  have := mul_nonneg (sub_nonneg.2 h1) z2
  linarith

/-- **C112**, the limits: the average plan touches the same limits as the two plans, so that the same can be said of it
and of each of them. -/
theorem c112_limits (h0 : 0 ≤ a) (h1 : a ≤ 1) (S1 : PlainSolve d dmax w1 g1 p1 e1 w1' true q1)
    (S2 : PlainSolve d dmax w2 g2 p2 e2 w2' true q2)
    (R1 : AlikeButStart w1 p1 w3 p3) (R2 : AlikeButStart w2 p2 w3 p3)
    (hx : ∀ r < d.n, (w3.pss p3).x0.e r = mix a (w1.pss p1).x0.e (w2.pss p2).x0.e r)
    (o1 : Feasible q1 (e1.answer q1).2.e) (o2 : Feasible q2 (e2.answer q2).2.e)
    (same : ∀ i ∈ w3.ctl.spConstr, (w3.cons i).userData.SameTouched d (Spec.traj d w1 p1 w1'.ctl.control.e) w1'.ctl.control.e
      (Spec.traj d w2 p2 w2'.ctl.control.e) w2'.ctl.control.e) :
    ∀ i ∈ w3.ctl.spConstr, (w3.cons i).userData.SameTouched d (Spec.traj d w1 p1 w1'.ctl.control.e) w1'.ctl.control.e
      (Spec.traj d w3 p3 (mix a w1'.ctl.control.e w2'.ctl.control.e)) (mix a w1'.ctl.control.e w2'.ctl.control.e) := by
  rw [← c40_control_is_answer S1.plain S1.solve] at o1
  rw [← c40_control_is_answer S2.plain S2.solve] at o2
  generalize w1'.ctl.control.e = U1 at *
  generalize w2'.ctl.control.e = U2 at *
  have F1 := (c30_feasible_set S1.hist (fun _ _ h => h.1) S1.allowed S1.plain S1.clean S1.honest S1.solve S1.ps U1).1 o1
  have F2 := (c30_feasible_set S2.hist (fun _ _ h => h.1) S2.allowed S2.plain S2.clean S2.honest S2.solve S2.ps U2).1 o2
  have T : ∀ k ≤ d.N, ∀ r < d.n, Spec.traj d w3 p3 (mix a U1 U2) k r = mix a (Spec.traj d w1 p1 U1 k) (Spec.traj d w2 p2 U2 k) r := by
    intro k hk r hr
    unfold Spec.traj
    rw [sim_congr d _ _ _ (V := mix a U1 U2) hx (fun _ _ => rfl) k hk r hr, sim_mix, R1.A, R1.B, R1.bias, R2.A, R2.B, R2.bias]
  intro i hi k r up
  rw [touches_congr_traj T]
  exact sameTouched_mix h0 h1 ((AlikeButStart.mem R1 fun D => D.Holds d (Spec.traj d w1 p1 U1) U1).1 F1.1 i hi)
    ((AlikeButStart.mem R2 fun D => D.Holds d (Spec.traj d w2 p2 U2) U2).1 F2.1 i hi) (same i hi) k r up

/-- **C112**, the results: when the third solve succeeds and returns a minimiser, its `control()` and `trajectory()` are the
same averages of the first two. -/
theorem c112_results (h0 : 0 ≤ a) (h1 : a ≤ 1) (S1 : PlainSolve d dmax w1 g1 p1 e1 w1' true q1)
    (S2 : PlainSolve d dmax w2 g2 p2 e2 w2' true q2) (S3 : PlainSolve d dmax w3 g3 p3 e3 w3' true q3)
    (R1 : AlikeButStart w1 p1 w3 p3) (R2 : AlikeButStart w2 p2 w3 p3)
    (hx : ∀ r < d.n, (w3.pss p3).x0.e r = mix a (w1.pss p1).x0.e (w2.pss p2).x0.e r)
    (f1 : CostsFresh d w1 g1) (f2 : CostsFresh d w2 g2) (f3 : CostsFresh d w3 g3)
    (o1 : IsOptimal q1 (e1.answer q1).2.e) (o2 : IsOptimal q2 (e2.answer q2).2.e) (o3 : IsOptimal q3 (e3.answer q3).2.e)
    (same : ∀ i ∈ w3.ctl.spConstr, (w3.cons i).userData.SameTouched d (Spec.traj d w1 p1 w1'.ctl.control.e) w1'.ctl.control.e
      (Spec.traj d w2 p2 w2'.ctl.control.e) w2'.ctl.control.e)
    (r1 : w1.ctl.spBoundConstr = [] → ∀ j < d.m * d.N, |w1'.ctl.control.e j| < dmax)
    (r2 : w2.ctl.spBoundConstr = [] → ∀ j < d.m * d.N, |w2'.ctl.control.e j| < dmax) :
    (∀ j < d.m * d.N, w3'.ctl.control.e j = a * w1'.ctl.control.e j + (1 - a) * w2'.ctl.control.e j) ∧
    ∀ k ≤ d.N, ∀ r < d.n, w3'.ctl.trajectory.e (k * d.n + r) =
      a * w1'.ctl.trajectory.e (k * d.n + r) + (1 - a) * w2'.ctl.trajectory.e (k * d.n + r) := by
  have O := c112_affine h0 h1 S1 S2 S3 R1 R2 hx f1 f2 f3 o1 o2 same r1 r2
  have U := c29_unique_minimiser S3.hist (fun _ _ h => h.2) S3.allowed S3.plain S3.solve o3 O
  have nv : q3.nrVar = d.m * d.N := by
    obtain ⟨_, _, _, e, _, _, v⟩ := c50_solve_defined S3.hist S3.allowed
    rw [S3.solve] at e; cases e
    rw [v]; unfold numVars; rw [S3.plain]; rfl
  rw [← c40_control_is_answer S3.plain S3.solve] at U
  have c : ∀ j < d.m * d.N, w3'.ctl.control.e j = mix a w1'.ctl.control.e w2'.ctl.control.e j := fun j hj => U j (by rw [nv]; exact hj)
  refine ⟨c, fun k hk r hr => ?_⟩
  have T1 := ((c40_success S1.hist S1.allowed S1.solve S1.ps).2.1 S1.plain).2.2 k r hk hr
  have T2 := ((c40_success S2.hist S2.allowed S2.solve S2.ps).2.1 S2.plain).2.2 k r hk hr
  have T3 := ((c40_success S3.hist S3.allowed S3.solve S3.ps).2.1 S3.plain).2.2 k r hk hr
  rw [T1, T2, T3]
  unfold Spec.traj
  rw [sim_congr d _ _ _ hx c k hk r hr, sim_mix, R1.A, R1.B, R1.bias, R2.A, R2.B, R2.bias]
  rfl

end World
end
end Copra
