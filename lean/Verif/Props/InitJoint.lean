import Verif.Props.InitState2

/-! # C61: what an `InitialStateLMPC` optimises over the initial state

A user expects the solver's problem to be: minimise, over the initial state `x` and the controls `U` together, the
declared costs of the trajectory from `x` plus the initial-state cost `1/2 x'Rx + r'x`.  That is not what is built. -/

namespace Copra
open Spec
namespace World

set_option linter.unusedSectionVars false

variable {K : Type} [Field K] [LinearOrder K] [IsStrictOrderedRing K]

/-- Completing the square in the controls. -/
theorem joint_square {M : Nat} {d : Dims} {H R QU W Ex : Mat K} {c : Vec K} (sym : Symmetric M QU)
    (hW : ∀ a < M, ∀ b < M, ∑ k ∈ Finset.range M, QU.e a k * W.e k b = if a = b then 1 else 0)
    (hUU : ∀ a < M, ∀ b < M, H.e (d.n + a) (d.n + b) = QU.e a b)
    (hxU : ∀ a < d.n, ∀ b < M, H.e a (d.n + b) = Ex.e a b) (hUx : ∀ a < d.n, ∀ b < M, H.e (d.n + b) a = Ex.e a b)
    (hxx : ∀ a < d.n, ∀ b < d.n, H.e a b = R.e a b +
      ∑ k ∈ Finset.range M, (∑ l ∈ Finset.range M, Ex.e a l * W.e l k) * Ex.e b k) (x U V : Nat → K)
    (hV : ∀ k, V k = -(∑ t ∈ Finset.range M, W.e k t * ∑ a ∈ Finset.range d.n, Ex.e a t * x a)
      - ∑ t ∈ Finset.range M, W.e k t * c.e (d.n + t)) :
    quadValue (d.n + M) H c (joined d x U) = quadValue d.n R c x
      + 1 / 2 * (∑ k ∈ Finset.range M, ∑ l ∈ Finset.range M, (U k - V k) * QU.e k l * (U l - V l))
      - (∑ k ∈ Finset.range M, c.e (d.n + k) * ∑ t ∈ Finset.range M, W.e k t * ∑ a ∈ Finset.range d.n, Ex.e a t * x a)
      - 1 / 2 * ∑ k ∈ Finset.range M, c.e (d.n + k) * ∑ t ∈ Finset.range M, W.e k t * c.e (d.n + t) := by
  unfold quadValue
  rw [schur sym hW hUU hxU hUx hxx (joined d x U)]
  have j1 : ∀ f : Nat → K → K, ∑ j ∈ Finset.range d.n, f j (joined d x U j) = ∑ j ∈ Finset.range d.n, f j (x j) := by
    intro f; apply Finset.sum_congr rfl; intro j hj; rw [joined_lt (Finset.mem_range.1 hj)]
  have j2 : ∑ a ∈ Finset.range d.n, ∑ b ∈ Finset.range d.n, joined d x U a * R.e a b * joined d x U b =
      ∑ a ∈ Finset.range d.n, ∑ b ∈ Finset.range d.n, x a * R.e a b * x b := by
    apply Finset.sum_congr rfl; intro a ha
    apply Finset.sum_congr rfl; intro b hb
    rw [joined_lt (Finset.mem_range.1 ha), joined_lt (Finset.mem_range.1 hb)]
  rw [j2, Finset.sum_range_add]
  simp only [joined_add]
  rw [j1 fun j s => c.e j * s]
  have j3 : ∀ t, ∑ a ∈ Finset.range d.n, Ex.e a t * joined d x U a = ∑ a ∈ Finset.range d.n, Ex.e a t * x a :=
    fun t => j1 fun a s => Ex.e a t * s
  simp only [j3]
  generalize hs : (fun k => ∑ t ∈ Finset.range M, W.e k t * ∑ a ∈ Finset.range d.n, Ex.e a t * x a) = s
  have hs' : ∀ k, ∑ t ∈ Finset.range M, W.e k t * ∑ a ∈ Finset.range d.n, Ex.e a t * x a = s k := fun k => congrFun hs k
  simp only [hs'] at hV ⊢
  generalize hh : (fun k => ∑ t ∈ Finset.range M, W.e k t * c.e (d.n + t)) = h
  have hh' : ∀ k, ∑ t ∈ Finset.range M, W.e k t * c.e (d.n + t) = h k := fun k => congrFun hh k
  simp only [hh'] at hV ⊢
  have qh : ∀ k < M, ∑ l ∈ Finset.range M, QU.e k l * h l = c.e (d.n + k) := by
    intro k hk
    calc ∑ l ∈ Finset.range M, QU.e k l * h l
        = ∑ l ∈ Finset.range M, ∑ t ∈ Finset.range M, QU.e k l * (W.e l t * c.e (d.n + t)) := by
          apply Finset.sum_congr rfl; intro l _; rw [← hh', Finset.mul_sum]
      _ = ∑ t ∈ Finset.range M, (∑ l ∈ Finset.range M, QU.e k l * W.e l t) * c.e (d.n + t) := by
          rw [Finset.sum_comm]
          apply Finset.sum_congr rfl; intro t _
          rw [Finset.sum_mul]
          apply Finset.sum_congr rfl; intro l _; ring
      _ = ∑ t ∈ Finset.range M, (if k = t then 1 else 0) * c.e (d.n + t) := by
          apply Finset.sum_congr rfl; intro t ht; rw [hW k hk t (Finset.mem_range.1 ht)]
      _ = c.e (d.n + k) := by
          rw [Finset.sum_eq_single k]
          · rw [if_pos rfl, one_mul]
          · intro t _ ht; rw [if_neg (Ne.symm ht), zero_mul]
          · intro h; exact absurd (Finset.mem_range.2 hk) h
  have uh : ∀ u : Nat → K, ∑ k ∈ Finset.range M, ∑ l ∈ Finset.range M, u k * QU.e k l * h l =
      ∑ k ∈ Finset.range M, c.e (d.n + k) * u k := by
    intro u
    apply Finset.sum_congr rfl; intro k hk
    rw [← qh k (Finset.mem_range.1 hk), Finset.sum_mul]
    apply Finset.sum_congr rfl; intro l _; ring
  have hu : ∀ u : Nat → K, ∑ k ∈ Finset.range M, ∑ l ∈ Finset.range M, h k * QU.e k l * u l =
      ∑ k ∈ Finset.range M, c.e (d.n + k) * u k := by
    intro u
    rw [Finset.sum_comm, ← uh u]
    apply Finset.sum_congr rfl; intro k hk
    apply Finset.sum_congr rfl; intro l hl
    rw [sym l (Finset.mem_range.1 hl) k (Finset.mem_range.1 hk)]; ring
  have e : ∀ k l, (s k + U k) * QU.e k l * (s l + U l) = (U k - V k) * QU.e k l * (U l - V l)
      - (U k - V k) * QU.e k l * h l - h k * QU.e k l * (U l - V l) + h k * QU.e k l * h l := by
    intro k l; rw [hV k, hV l]; ring
  have sq : ∑ k ∈ Finset.range M, ∑ l ∈ Finset.range M, (s k + U k) * QU.e k l * (s l + U l) =
      (∑ k ∈ Finset.range M, ∑ l ∈ Finset.range M, (U k - V k) * QU.e k l * (U l - V l))
      - (∑ k ∈ Finset.range M, c.e (d.n + k) * (U k - V k)) - (∑ k ∈ Finset.range M, c.e (d.n + k) * (U k - V k))
      + ∑ k ∈ Finset.range M, c.e (d.n + k) * h k := by
    simp only [e, Finset.sum_add_distrib, Finset.sum_sub_distrib]
    rw [uh fun k => U k - V k, hu fun k => U k - V k, uh h]
  rw [sq]
  have uv : ∑ k ∈ Finset.range M, c.e (d.n + k) * U k = (∑ k ∈ Finset.range M, c.e (d.n + k) * (U k - V k))
      - (∑ k ∈ Finset.range M, c.e (d.n + k) * s k) - ∑ k ∈ Finset.range M, c.e (d.n + k) * h k := by
    rw [← Finset.sum_sub_distrib, ← Finset.sum_sub_distrib]
    apply Finset.sum_congr rfl; intro k _; rw [hV k]; ring
  rw [uv]
  ring

/-- **C61, as built**: the objective handed to the solver is the initial-state cost, plus the *excess* of the declared
costs over the best that (unconstrained) controls `V` can do from that initial state, plus a linear term that vanishes
when the declared costs are best served by zero controls at the zero state, plus a constant.  In particular the
declared costs of the best controls from `x` do not count in the choice of `x`. -/
theorem c61_as_built {d : Dims} {dmax : K} {E : World K → Op K → Prop} {w w' : World K} {g : Ghost}
    {env : SolveEnv K} {b : Bool} {q : QP K} {p : Nat} (h : Hist d dmax E w g) (hE : ∀ w op, E w op → NonnegWeights w op)
    (ho : OpOk d w g (.solve env)) (hi : w.ctl.isInit = true) (hf : CostsFresh d w g) (hinv : TrueInverse d env)
    (hs : w.solve env = some (w', b, q)) (hp : w.ctl.ps = some p) :
    ∃ (ℓ : Nat → K) (κ : K),
      (∀ x : Nat → K, ∃ V : Nat → K, (∀ U, totalCostFrom d w p x V ≤ totalCostFrom d w p x U) ∧
        ∀ U, objective q (joined d x U) = initialCost d w.ctl x
          + (totalCostFrom d w p x U - totalCostFrom d w p x V) - (∑ a ∈ Finset.range d.n, ℓ a * x a) + κ) ∧
      ((∀ U : Nat → K, totalCostFrom d w p (fun _ => 0) (fun _ => 0) ≤ totalCostFrom d w p (fun _ => 0) U) →
        ∀ a, ℓ a = 0) := by
  obtain ⟨hn, QU, W, Ex, hpd, hW, hUU, hxU, hUx, hxx⟩ := hessian_blocks h hE ho hi hinv hs
  obtain ⟨p', hp', S⟩ := h.good.solved ho.2 hs
  rw [hp] at hp'; cases hp'
  have A := S.init hi
  have sq := joint_square (c := q.c) hpd.1 hW hUU hxU hUx hxx
  have nonneg : ∀ x : Nat → K, 0 ≤ ∑ k ∈ Finset.range (d.m * d.N), ∑ l ∈ Finset.range (d.m * d.N), x k * QU.e k l * x l := by
    intro x
    by_cases hx : ∃ i < d.m * d.N, x i ≠ 0
    · exact le_of_lt (hpd.2 x hx)
    · push Not at hx
      apply le_of_eq
      symm
      apply Finset.sum_eq_zero; intro k hk
      apply Finset.sum_eq_zero; intro l _
      rw [hx k (Finset.mem_range.1 hk)]; ring
  have obj : ∀ y, objective q y = quadValue (d.n + d.m * d.N) q.Q q.c y := by
    intro y; unfold objective; rw [A.cr]
  have diff : ∀ x U V, totalCostFrom d w p x U - totalCostFrom d w p x V =
      objective q (joined d x U) - objective q (joined d x V) := by
    intro x U V
    obtain ⟨k, hk⟩ := c58_objective_per_state h ho hi hf hs hp x
    rw [hk U, hk V]; ring
  have zero : ∀ V : Nat → K, ∑ k ∈ Finset.range (d.m * d.N), ∑ l ∈ Finset.range (d.m * d.N), (V k - V k) * QU.e k l * (V l - V l) = 0 := by
    intro V
    apply Finset.sum_eq_zero; intro k _
    apply Finset.sum_eq_zero; intro l _; ring
  have lin : ∀ x : Nat → K, ∑ k ∈ Finset.range (d.m * d.N), q.c.e (d.n + k) * ∑ t ∈ Finset.range (d.m * d.N), W.e k t *
      ∑ a ∈ Finset.range d.n, Ex.e a t * x a = ∑ a ∈ Finset.range d.n, (∑ k ∈ Finset.range (d.m * d.N),
        ∑ t ∈ Finset.range (d.m * d.N), q.c.e (d.n + k) * W.e k t * Ex.e a t) * x a := by
    intro x
    simp only [Finset.mul_sum, Finset.sum_mul]
    rw [Finset.sum_congr rfl fun k _ => Finset.sum_comm, Finset.sum_comm]
    apply Finset.sum_congr rfl; intro a _
    apply Finset.sum_congr rfl; intro k _
    apply Finset.sum_congr rfl; intro t _; ring
  refine ⟨fun a => ∑ k ∈ Finset.range (d.m * d.N), ∑ t ∈ Finset.range (d.m * d.N), q.c.e (d.n + k) * W.e k t * Ex.e a t,
    -(1 / 2 * ∑ k ∈ Finset.range (d.m * d.N), q.c.e (d.n + k) * ∑ t ∈ Finset.range (d.m * d.N), W.e k t * q.c.e (d.n + t)),
    fun x => ?_, fun hz => ?_⟩
  · refine ⟨fun k => -(∑ t ∈ Finset.range (d.m * d.N), W.e k t * ∑ a ∈ Finset.range d.n, Ex.e a t * x a)
      - ∑ t ∈ Finset.range (d.m * d.N), W.e k t * q.c.e (d.n + t), fun U => ?_, fun U => ?_⟩
    · rw [← sub_nonneg, diff, obj, obj, sq x U _ fun _ => rfl, sq x _ _ fun _ => rfl, zero]
      have := nonneg fun k => U k - (-(∑ t ∈ Finset.range (d.m * d.N), W.e k t * ∑ a ∈ Finset.range d.n, Ex.e a t * x a)
        - ∑ t ∈ Finset.range (d.m * d.N), W.e k t * q.c.e (d.n + t))
      linarith
    · rw [diff, obj, obj, sq x _ _ fun _ => rfl, sq x _ _ fun _ => rfl, zero, lin x]
      have : quadValue d.n w.ctl.R q.c x = initialCost d w.ctl x := by
        unfold initialCost quadValue
        congr 1
        apply Finset.sum_congr rfl; intro a ha
        rw [A.cx a (Finset.mem_range.1 ha)]
      rw [this]; ring
  · generalize hV0 : (fun k => -(∑ t ∈ Finset.range (d.m * d.N), W.e k t * ∑ a ∈ Finset.range d.n, Ex.e a t * (0 : K))
      - ∑ t ∈ Finset.range (d.m * d.N), W.e k t * q.c.e (d.n + t)) = V0
    have e0 : ∀ k, V0 k = -∑ t ∈ Finset.range (d.m * d.N), W.e k t * q.c.e (d.n + t) := by
      intro k; rw [← hV0]; simp
    have h0 := sub_nonpos.2 (hz V0)
    rw [diff, obj, obj, sq _ _ V0 fun k => (congrFun hV0 k).symm, sq _ _ V0 fun k => (congrFun hV0 k).symm, zero] at h0
    have hle : ∑ k ∈ Finset.range (d.m * d.N), ∑ l ∈ Finset.range (d.m * d.N), (0 - V0 k) * QU.e k l * (0 - V0 l) ≤ 0 := by
      linarith
    have hv : ∀ k < d.m * d.N, ∑ t ∈ Finset.range (d.m * d.N), W.e k t * q.c.e (d.n + t) = 0 := by
      intro k hk
      by_contra hne
      refine absurd (hpd.2 (fun k => 0 - V0 k) ⟨k, hk, ?_⟩) (not_lt.2 hle)
      rw [e0 k]; simpa using hne
    intro a
    dsimp only
    rw [Finset.sum_comm]
    apply Finset.sum_eq_zero; intro t ht
    have wsym := inverse_symm hpd.1 hW
    have : ∑ k ∈ Finset.range (d.m * d.N), q.c.e (d.n + k) * W.e k t * Ex.e a t =
        (∑ k ∈ Finset.range (d.m * d.N), W.e t k * q.c.e (d.n + k)) * Ex.e a t := by
      rw [Finset.sum_mul]
      apply Finset.sum_congr rfl; intro k hk
      rw [wsym k (Finset.mem_range.1 hk) t (Finset.mem_range.1 ht)]; ring
    rw [this, hv t (Finset.mem_range.1 ht), zero_mul]

end World
end Copra
