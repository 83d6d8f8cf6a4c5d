import Verif.Spec
import Mathlib.LinearAlgebra.Dual.Lemmas
import Mathlib.LinearAlgebra.BilinearMap
import Mathlib.LinearAlgebra.FiniteDimensional.Basic
import Mathlib.Algebra.BigOperators.Fin
import Mathlib.Tactic.Linarith
import Mathlib.Tactic.Ring
import Mathlib.Tactic.FieldSimp

/-! # Strictly convex quadratic programs have a minimiser, over every ordered field

No completeness of the field is used: the minimiser is found by linear algebra and by induction on the inequalities. -/

namespace Copra
open Spec

set_option linter.unusedSectionVars false
set_option linter.unusedVariables false

namespace Existence
variable {K V : Type} [Field K] [LinearOrder K] [IsStrictOrderedRing K] [AddCommGroup V] [Module K V]

/-- A quadratic function. -/
def quad (B : V →ₗ[K] V →ₗ[K] K) (l : V →ₗ[K] K) (x : V) : K := 1 / 2 * B x x + l x

theorem quad_add (B : V →ₗ[K] V →ₗ[K] K) (l : V →ₗ[K] K) (hs : ∀ x y, B x y = B y x) (x s : V) :
    quad B l (x + s) = quad B l x + (B x s + l s) + 1 / 2 * B s s := by
  unfold quad
  rw [map_add, map_add, map_add, LinearMap.add_apply, LinearMap.add_apply, hs s x]
  ring

/-- On a subspace translated to `x0` there is a minimiser. -/
theorem affine_min [FiniteDimensional K V] (B : V →ₗ[K] V →ₗ[K] K) (l : V →ₗ[K] K) (hs : ∀ x y, B x y = B y x)
    (S : Submodule K V) (hp : ∀ x ∈ S, x ≠ 0 → 0 < B x x) (x0 : V) :
    ∃ z, z - x0 ∈ S ∧ ∀ y, y - x0 ∈ S → quad B l z ≤ quad B l y := by
  let T : S →ₗ[K] (S →ₗ[K] K) := (B.domRestrict₁₂ S S)
  have inj : Function.Injective T := by
    rw [injective_iff_map_eq_zero]
    intro s h
    by_contra hne
    have h1 : B s s = 0 := by
      have := congrArg (fun f => f s) h
      simpa [T, LinearMap.domRestrict₁₂_apply] using this
    have := hp s s.2 (fun h => hne (Subtype.ext h))
    linarith
  have sur : Function.Surjective T :=
    (LinearMap.injective_iff_surjective_of_finrank_eq_finrank (Subspace.dual_finrank_eq (K := K) (V := S)).symm).1 inj
  obtain ⟨v, hv⟩ := sur (-((B x0 + l).domRestrict S))
  have key : ∀ s ∈ S, B (x0 + v) s + l s = 0 := by
    intro s hsS
    have := congrArg (fun f => f ⟨s, hsS⟩) hv
    have h2 : B v s = -(B x0 s + l s) := by simpa [T, LinearMap.domRestrict₁₂_apply] using this
    rw [map_add, LinearMap.add_apply, h2]; ring
  refine ⟨x0 + v, by rw [add_sub_cancel_left]; exact v.2, fun y hy => ?_⟩
  have hm : y - (x0 + v) ∈ S := by
    have : y - (x0 + v) = (y - x0) - v := by abel
    rw [this]; exact S.sub_mem hy v.2
  have e : y = (x0 + v) + (y - (x0 + v)) := by abel
  have eq := quad_add B l hs (x0 + v) (y - (x0 + v))
  rw [key _ hm, ← e] at eq
  rw [eq]
  have : 0 ≤ B (y - (x0 + v)) (y - (x0 + v)) := by
    by_cases h0 : y - (x0 + v) = 0
    · rw [h0, map_zero]
    · exact (hp _ hm h0).le
  linarith

/-- A quadratic function with positive form is convex. -/
theorem quad_convex (B : V →ₗ[K] V →ₗ[K] K) (l : V →ₗ[K] K) (hs : ∀ x y, B x y = B y x) {x y : V}
    (hp : 0 ≤ B (y - x) (y - x)) {a : K} (h0 : 0 ≤ a) (h1 : a ≤ 1) : quad B l (x + a • (y - x)) ≤ (1 - a) * quad B l x + a * quad B l y := by
  have e : quad B l y = quad B l x + (B x (y - x) + l (y - x)) + 1 / 2 * B (y - x) (y - x) := by
    rw [← quad_add B l hs, add_sub_cancel]
  rw [quad_add B l hs, e]
  simp only [map_smul, LinearMap.smul_apply, smul_eq_mul]
  have := mul_nonneg (mul_nonneg h0 (sub_nonneg.2 h1)) hp
  nlinarith

/-- On a translated subspace cut by finitely many half-spaces there is a minimiser, if there is a point. -/
theorem polyhedron_min [FiniteDimensional K V] (B : V →ₗ[K] V →ₗ[K] K) (l : V →ₗ[K] K) (hs : ∀ x y, B x y = B y x)
    (L : List ((V →ₗ[K] K) × K)) :
    ∀ (S : Submodule K V) (x0 : V), (∀ x ∈ S, x ≠ 0 → 0 < B x x) → (∀ c ∈ L, c.1 x0 ≤ c.2) →
    ∃ z, z - x0 ∈ S ∧ (∀ c ∈ L, c.1 z ≤ c.2) ∧ ∀ y, y - x0 ∈ S → (∀ c ∈ L, c.1 y ≤ c.2) → quad B l z ≤ quad B l y := by
  induction L with
  | nil =>
    intro S x0 hp _
    obtain ⟨z, h1, h2⟩ := affine_min B l hs S hp x0
    exact ⟨z, h1, by simp, fun y hy _ => h2 y hy⟩
  | cons c L ih =>
    intro S x0 hp hx
    have hp0 : ∀ x ∈ S, 0 ≤ B x x := fun x hx => by
      by_cases h0 : x = 0
      · rw [h0, map_zero]
      · exact (hp _ hx h0).le
    have hxc := hx c List.mem_cons_self
    have hxL : ∀ e ∈ L, e.1 x0 ≤ e.2 := fun e he => hx e (List.mem_cons_of_mem _ he)
    obtain ⟨z, z1, z2, z3⟩ := ih S x0 hp hxL
    by_cases hz : c.1 z ≤ c.2
    · refine ⟨z, z1, fun e he => ?_, fun y hy hyL => z3 y hy fun e he => hyL e (List.mem_cons_of_mem _ he)⟩
      rcases List.mem_cons.1 he with rfl | he
      · exact hz
      · exact z2 e he
    · push Not at hz
      -- the segment from a feasible point to `z` meets the boundary
      have cross : ∀ y, y - x0 ∈ S → (∀ e ∈ c :: L, e.1 y ≤ e.2) →
          ∃ x, x - x0 ∈ S ∧ c.1 x = c.2 ∧ (∀ e ∈ L, e.1 x ≤ e.2) ∧ quad B l x ≤ quad B l y := by
        intro y hy hyL
        have hyc := hyL c List.mem_cons_self
        have hyL' : ∀ e ∈ L, e.1 y ≤ e.2 := fun e he => hyL e (List.mem_cons_of_mem _ he)
        have hd : 0 < c.1 z - c.1 y := by linarith
        let a := (c.2 - c.1 y) / (c.1 z - c.1 y)
        have a0 : 0 ≤ a := div_nonneg (by linarith) hd.le
        have a1 : a ≤ 1 := (div_le_one hd).2 (by linarith)
        have ea : a * (c.1 z - c.1 y) = c.2 - c.1 y := div_mul_cancel₀ _ hd.ne'
        refine ⟨y + a • (z - y), ?_, ?_, fun e he => ?_, ?_⟩
        · have : y + a • (z - y) - x0 = (y - x0) + a • ((z - x0) - (y - x0)) := by
            rw [sub_sub_sub_cancel_right]; abel
          rw [this]; exact S.add_mem hy (S.smul_mem _ (S.sub_mem z1 hy))
        · rw [map_add, map_smul, map_sub, smul_eq_mul, ea]; ring
        · rw [map_add, map_smul, map_sub, smul_eq_mul]
          have i1 := mul_le_mul_of_nonneg_left (z2 e he) a0
          have i2 := mul_le_mul_of_nonneg_left (hyL' e he) (sub_nonneg.2 a1)
          nlinarith
        · have i1 := quad_convex B l hs (x := y) (y := z) (hp0 _ (by
            have : z - y = (z - x0) - (y - x0) := by abel
            rw [this]; exact S.sub_mem z1 hy)) a0 a1
          have i2 := mul_le_mul_of_nonneg_left (z3 y hy hyL') a0
          linarith
      obtain ⟨x1, c1, c2, c3, _⟩ := cross x0 (by rw [sub_self]; exact S.zero_mem) hx
      obtain ⟨t, t1, t2, t3⟩ := ih (S ⊓ LinearMap.ker c.1) x1 (fun x hx => hp x hx.1) c3
      have tc : c.1 t = c.2 := by
        have := LinearMap.mem_ker.1 t1.2
        rw [map_sub] at this; linarith
      refine ⟨t, ?_, fun e he => ?_, fun y hy hyL => ?_⟩
      · have : t - x0 = (t - x1) + (x1 - x0) := by abel
        rw [this]; exact S.add_mem t1.1 c1
      · rcases List.mem_cons.1 he with rfl | he
        · exact tc.le
        · exact t2 e he
      · obtain ⟨x, x1', x2, x3, x4⟩ := cross y hy hyL
        refine le_trans (t3 x ⟨?_, ?_⟩ x3) x4
        · have : x - x1 = (x - x0) - (x1 - x0) := by abel
          rw [this]; exact S.sub_mem x1' c1
        · show c.1 (x - x1) = 0
          rw [map_sub, x2, c2, sub_self]

/-- Sets given by finitely many linear inequalities. -/
def Poly (P : V → Prop) : Prop := ∃ L : List ((V →ₗ[K] K) × K), ∀ x, P x ↔ ∀ c ∈ L, c.1 x ≤ c.2

theorem Poly.and {P Q : V → Prop} (h1 : Poly (K := K) P) (h2 : Poly (K := K) Q) : Poly (K := K) fun x => P x ∧ Q x := by
  obtain ⟨L, hL⟩ := h1
  obtain ⟨M, hM⟩ := h2
  refine ⟨L ++ M, fun x => ?_⟩
  show P x ∧ Q x ↔ _
  rw [hL, hM]
  simp only [List.mem_append, or_imp, forall_and]

theorem Poly.forall {P : Nat → V → Prop} (n : Nat) (h : ∀ i < n, Poly (K := K) (P i)) :
    Poly (K := K) fun x => ∀ i < n, P i x := by
  induction n with
  | zero => exact ⟨[], fun x => by simp⟩
  | succ n ih =>
    obtain ⟨L, hL⟩ := (ih fun i hi => h i (by omega)).and (h n (by omega))
    refine ⟨L, fun x => ?_⟩
    rw [← hL]
    exact ⟨fun H => ⟨fun i hi => H i (by omega), H n (by omega)⟩, fun ⟨H1, H2⟩ i hi => by
      rcases (by omega : i < n ∨ i = n) with h | rfl
      · exact H1 i h
      · exact H2⟩

theorem Poly.le (f : V →ₗ[K] K) (b : Ext K) : Poly (K := K) fun x => Ext.fin (f x) ≤ b := by
  cases b with
  | ninf => exact ⟨[(0, -1)], fun x => by
      simp only [List.mem_singleton, forall_eq, LinearMap.zero_apply]
      exact ⟨fun h => absurd h id, fun h => by linarith⟩⟩
  | pinf => exact ⟨[], fun x => by simp only [List.not_mem_nil, false_imp_iff, implies_true, iff_true]; trivial⟩
  | fin b => exact ⟨[(f, b)], fun x => by simp only [List.mem_singleton, forall_eq]; exact Iff.rfl⟩

theorem Poly.ge (f : V →ₗ[K] K) (b : Ext K) : Poly (K := K) fun x => b ≤ Ext.fin (f x) := by
  cases b with
  | pinf => exact ⟨[(0, -1)], fun x => by
      simp only [List.mem_singleton, forall_eq, LinearMap.zero_apply]
      exact ⟨fun h => absurd h id, fun h => by linarith⟩⟩
  | ninf => exact ⟨[], fun x => by simp only [List.not_mem_nil, false_imp_iff, implies_true, iff_true]; trivial⟩
  | fin b => exact ⟨[(-f, -b)], fun x => by
      simp only [List.mem_singleton, forall_eq, LinearMap.neg_apply, neg_le_neg_iff]; exact Iff.rfl⟩

theorem Poly.eq (f : V →ₗ[K] K) (b : Ext K) : Poly (K := K) fun x => Ext.fin (f x) = b := by
  obtain ⟨L, hL⟩ := (Poly.le f b).and (Poly.ge f b)
  refine ⟨L, fun x => ?_⟩
  rw [← hL]
  show _ ↔ Ext.fin (f x) ≤ b ∧ b ≤ Ext.fin (f x)
  cases b with
  | ninf => exact ⟨fun h => (by cases h), fun h => absurd h.1 id⟩
  | pinf => exact ⟨fun h => (by cases h), fun h => absurd h.2 id⟩
  | fin b =>
    refine ⟨fun h => ?_, fun h => ?_⟩
    · injection h with h
      exact ⟨h.le, h.ge⟩
    · exact congrArg Ext.fin (le_antisymm h.1 h.2)

/-- A vector as a function on all naturals. -/
def ext (n : Nat) (x : Fin n → K) (i : Nat) : K := if h : i < n then x ⟨i, h⟩ else 0

theorem ext_lt {n : Nat} (x : Fin n → K) {i : Nat} (h : i < n) : ext n x i = x ⟨i, h⟩ := dif_pos h

/-- A coordinate. -/
def coord (n i : Nat) : (Fin n → K) →ₗ[K] K where
  toFun x := ext n x i
  map_add' x y := by unfold ext; split <;> simp
  map_smul' a x := by unfold ext; split <;> simp

/-- A linear form with coefficients `a`. -/
def form (n m : Nat) (a : Nat → K) : (Fin n → K) →ₗ[K] K := ∑ j ∈ Finset.range m, a j • coord n j

theorem form_apply (n m : Nat) (a : Nat → K) (x : Fin n → K) : form n m a x = ∑ j ∈ Finset.range m, a j * ext n x j := by
  unfold form
  rw [LinearMap.sum_apply]
  rfl

/-- The bilinear form of a matrix. -/
def bil (n m : Nat) (Q : Mat K) : (Fin n → K) →ₗ[K] (Fin n → K) →ₗ[K] K :=
  ∑ i ∈ Finset.range m, (LinearMap.toSpanSingleton K _ (form n m (Q.e i))).comp (coord n i)

theorem bil_apply (n m : Nat) (Q : Mat K) (x y : Fin n → K) :
    bil n m Q x y = ∑ i ∈ Finset.range m, ∑ j ∈ Finset.range m, ext n x i * Q.e i j * ext n y j := by
  unfold bil
  rw [LinearMap.sum_apply, LinearMap.sum_apply]
  refine Finset.sum_congr rfl fun i _ => ?_
  rw [LinearMap.comp_apply, LinearMap.toSpanSingleton_apply, LinearMap.smul_apply, form_apply, smul_eq_mul, Finset.mul_sum]
  refine Finset.sum_congr rfl fun j _ => ?_
  show ext n x i * _ = _
  ring

theorem ext_agree {n : Nat} (x : Nat → K) : ∀ i < n, ext n (fun i => x i.1) i = x i := fun i hi => ext_lt _ hi

theorem feasible_poly (q : QP K)  : Poly (K := K) fun x : Fin q.nrVar → K => Feasible q (ext q.nrVar x) := by
  refine Poly.and (Poly.forall _ fun i _ => ?_) (Poly.and (Poly.forall _ fun i _ => ?_)
    (Poly.and (Poly.forall _ fun i _ => ?_) (Poly.forall _ fun i _ => ?_)))
  · have := Poly.eq (form q.nrVar q.Aeq.cols (q.Aeq.e i)) (q.beq.e i)
    simp only [form_apply] at this; exact this
  · have := Poly.le (form q.nrVar q.Aineq.cols (q.Aineq.e i)) (q.bineq.e i)
    simp only [form_apply] at this; exact this
  · exact Poly.ge (coord q.nrVar i) (q.lb.e i)
  · exact Poly.le (coord q.nrVar i) (q.ub.e i)

end Existence

variable {K : Type} [Field K] [LinearOrder K] [IsStrictOrderedRing K]
open Existence

theorem feasible_agree {q : QP K} (hw : WellSized q) {x y : Nat → K} (h : ∀ i < q.nrVar, x i = y i) (hx : Feasible q x) :
    Feasible q y := by
  obtain ⟨_, _, _, _, h5, _, _, h8, _, h10, h11⟩ := hw
  have R : ∀ A : Mat K, A.cols = q.nrVar → ∀ i, rowValue A x i = rowValue A y i := fun A hA i =>
    Finset.sum_congr rfl fun j hj => by rw [h j (by rw [← hA]; exact Finset.mem_range.1 hj)]
  refine ⟨fun i hi => ?_, fun i hi => ?_, fun j hj => ?_, fun j hj => ?_⟩
  · rw [← R _ h5]; exact hx.1 i hi
  · rw [← R _ h8]; exact hx.2.1 i hi
  · rw [← h j (by omega)]; exact hx.2.2.1 j hj
  · rw [← h j (by omega)]; exact hx.2.2.2 j hj

theorem objective_agree {q : QP K} (hw : WellSized q) {x y : Nat → K} (h : ∀ i < q.nrVar, x i = y i) :
    objective q x = objective q y := by
  unfold objective quadValue
  rw [hw.2.2.1]
  congr 1
  · congr 1
    exact Finset.sum_congr rfl fun i hi => Finset.sum_congr rfl fun j hj => by
      rw [h i (Finset.mem_range.1 hi), h j (Finset.mem_range.1 hj)]
  · exact Finset.sum_congr rfl fun i hi => by rw [h i (Finset.mem_range.1 hi)]

/-- The objective has a minimiser on every nonempty polyhedron whose points agree on the first `m` coordinates, if the
Hessian is positive definite on the others. -/
theorem exists_min_on {q : QP K} (hw : WellSized q) {F : (Nat → K) → Prop}
    (hF : Poly (K := K) fun x : Fin q.nrVar → K => F (ext q.nrVar x)) (ag : ∀ x y, (∀ i < q.nrVar, x i = y i) → F x → F y) (m : Nat) (sym : Symmetric q.nrVar q.Q)
    (P : ∀ x : Nat → K, (∀ i < m, x i = 0) → (∃ i < q.nrVar, x i ≠ 0) →
      0 < ∑ i ∈ Finset.range q.nrVar, ∑ j ∈ Finset.range q.nrVar, x i * q.Q.e i j * x j)
    (fix : ∀ x y, F x → F y → ∀ i < m, x i = y i) (h : ∃ x, F x) :
    ∃ x, F x ∧ ∀ y, F y → objective q x ≤ objective q y := by
  obtain ⟨x, hx⟩ := h
  obtain ⟨L, hL⟩ := hF
  have hx0 : F (ext q.nrVar fun i => x i) := ag _ _ (fun i hi => (ext_agree x i hi).symm) hx
  let S : Submodule K (Fin q.nrVar → K) :=
    { carrier := {x | ∀ i : Fin q.nrVar, i.1 < m → x i = 0}
      add_mem' := fun ha hb i hi => by rw [Pi.add_apply, ha i hi, hb i hi, add_zero]
      zero_mem' := fun _ _ => rfl
      smul_mem' := fun a x hx i hi => by rw [Pi.smul_apply, hx i hi, smul_zero] }
  obtain ⟨z, _, z2, z3⟩ := polyhedron_min (bil q.nrVar q.nrVar q.Q) (form q.nrVar q.nrVar q.c.e)
    (fun x y => by
      rw [bil_apply, bil_apply, Finset.sum_comm]
      exact Finset.sum_congr rfl fun i hi => Finset.sum_congr rfl fun j hj => by
        rw [sym i (Finset.mem_range.1 hi) j (Finset.mem_range.1 hj)]; ring)
    L S _
    (fun x hxS hne => by
      rw [bil_apply]
      refine P (ext q.nrVar x) (fun i hi => ?_) ?_
      · unfold ext
        split
        · exact hxS _ hi
        · rfl
      by_contra hn
      push Not at hn
      exact hne (funext fun i => by rw [← ext_lt x i.2]; exact hn i i.2))
    ((hL fun i => x i).1 hx0)
  have O : ∀ x : Fin q.nrVar → K, quad (bil q.nrVar q.nrVar q.Q) (form q.nrVar q.nrVar q.c.e) x = objective q (ext q.nrVar x) := by
    intro x
    unfold quad objective quadValue
    rw [bil_apply, form_apply, hw.2.2.1]
  refine ⟨ext q.nrVar z, (hL z).2 z2, fun y hy => ?_⟩
  have hy0 : F (ext q.nrVar fun i => y i) := ag _ _ (fun i hi => (ext_agree y i hi).symm) hy
  have := z3 (fun i => y i) (fun i hi => sub_eq_zero.2 (fix _ _ hy hx i hi)) ((hL _).1 hy0)
  rw [O, O] at this
  exact this.trans (objective_agree hw (ext_agree y)).le

/-- A feasible problem has a minimiser if its feasible points agree on the first `m` coordinates and the Hessian is
positive definite on the others. -/
theorem exists_optimal_fixed {q : QP K} (hw : WellSized q) (m : Nat) (sym : Symmetric q.nrVar q.Q)
    (P : ∀ x : Nat → K, (∀ i < m, x i = 0) → (∃ i < q.nrVar, x i ≠ 0) →
      0 < ∑ i ∈ Finset.range q.nrVar, ∑ j ∈ Finset.range q.nrVar, x i * q.Q.e i j * x j)
    (fix : ∀ x y, Feasible q x → Feasible q y → ∀ i < m, x i = y i) (h : ∃ x, Feasible q x) : ∃ x, IsOptimal q x :=
  exists_min_on hw (feasible_poly q) (fun _ _ => feasible_agree hw) m sym P fix h

/-- A feasible problem with a positive definite Hessian has a minimiser. -/
theorem exists_optimal {q : QP K} (hw : WellSized q) (P : PD q.nrVar q.Q) (h : ∃ x, Feasible q x) : ∃ x, IsOptimal q x :=
  exists_optimal_fixed hw 0 P.1 (fun x _ => P.2 x) (fun _ _ _ _ i hi => absurd hi (Nat.not_lt_zero i)) h

end Copra
