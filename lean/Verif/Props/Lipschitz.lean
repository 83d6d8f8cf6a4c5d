import Verif.Props.WellPosed
import Verif.Props.Convex

/-! # C89: the control depends Lipschitz-continuously on the initial state -/

namespace Copra

namespace Spec
variable {K : Type} [Field K]

/-- A constraint on the controls alone. -/
def ConstrData.OnControls : ConstrData K → Prop
  | .control .. | .ctrlBound .. => True
  | _ => False

/-- `|x - y|^2` for two states. -/
def stateDistSq (d : Dims) (x y : Nat → K) : K := ∑ r ∈ Finset.range d.n, (x r - y r) ^ 2

end Spec
open Spec

set_option linter.unusedSectionVars false
set_option maxRecDepth 100000

section
variable {K : Type} [Field K] [LinearOrder K] [IsStrictOrderedRing K]

/-- Affine functions of a state and controls. -/
def Aff (d : Dims) (f : (Nat → K) → (Nat → K) → K) : Prop :=
  ∃ (a b : Nat → K) (c : K), ∀ x U, f x U = (∑ i ∈ Finset.range d.n, a i * x i) + (∑ j ∈ Finset.range (d.m * d.N), b j * U j) + c

theorem Aff.const (d : Dims) (c : K) : Aff d fun _ _ => c := ⟨fun _ => 0, fun _ => 0, c, fun _ _ => by simp⟩

theorem Aff.add {d : Dims} {f g : (Nat → K) → (Nat → K) → K} (hf : Aff d f) (hg : Aff d g) : Aff d fun x U => f x U + g x U := by
  obtain ⟨a, b, c, h⟩ := hf
  obtain ⟨a', b', c', h'⟩ := hg
  refine ⟨fun i => a i + a' i, fun j => b j + b' j, c + c', fun x U => ?_⟩
  simp only [h, h', add_mul, Finset.sum_add_distrib]
  ring

theorem Aff.smul {d : Dims} {f : (Nat → K) → (Nat → K) → K} (k : K) (hf : Aff d f) : Aff d fun x U => k * f x U := by
  obtain ⟨a, b, c, h⟩ := hf
  refine ⟨fun i => k * a i, fun j => k * b j, k * c, fun x U => ?_⟩
  simp only [h, mul_assoc, ← Finset.mul_sum]
  ring

theorem Aff.sum {d : Dims} (n : Nat) {f : Nat → (Nat → K) → (Nat → K) → K} (h : ∀ i < n, Aff d (f i)) :
    Aff d fun x U => ∑ i ∈ Finset.range n, f i x U := by
  induction n with
  | zero => simpa using Aff.const d (0 : K)
  | succ n ih =>
    simp only [Finset.sum_range_succ]
    exact (ih fun i hi => h i (by omega)).add (h n (by omega))

theorem Aff.state (d : Dims) {i : Nat} (hi : i < d.n) : Aff (K := K) d fun x _ => x i :=
  ⟨fun j => if j = i then 1 else 0, fun _ => 0, 0, fun x U => by
    simp only [ite_mul, one_mul, zero_mul, Finset.sum_const_zero, add_zero]
    rw [Finset.sum_ite_eq' (Finset.range d.n) i x, if_pos (Finset.mem_range.2 hi)]⟩

theorem Aff.control (d : Dims) {j : Nat} (hj : j < d.m * d.N) : Aff (K := K) d fun _ U => U j :=
  ⟨fun _ => 0, fun i => if i = j then 1 else 0, 0, fun x U => by
    simp only [ite_mul, one_mul, zero_mul, Finset.sum_const_zero, add_zero, zero_add]
    rw [Finset.sum_ite_eq' (Finset.range (d.m * d.N)) j U, if_pos (Finset.mem_range.2 hj)]⟩

theorem Aff.ctrl (d : Dims) {k c : Nat} (hk : k < d.N) (hc : c < d.m) : Aff (K := K) d fun _ U => Spec.ctrl d U k c := by
  unfold Spec.ctrl
  refine Aff.control d ?_
  calc k * d.m + c < k * d.m + d.m := by omega
    _ = (k + 1) * d.m := by ring
    _ ≤ d.N * d.m := Nat.mul_le_mul_right _ hk
    _ = d.m * d.N := mul_comm _ _

theorem Aff.sim (d : Dims) (A B : Mat K) (b : Vec K) : ∀ k ≤ d.N, ∀ r < d.n, Aff d fun x U => sim d A B b x U k r := by
  intro k
  induction k with
  | zero => exact fun _ r hr => Aff.state d hr
  | succ k ih =>
    intro hk r hr
    simp only [Spec.sim]
    exact (((Aff.sum _ fun c hc => (ih (by omega) c hc).smul _).add
      (Aff.sum _ fun c hc => (Aff.ctrl d (by omega) hc).smul _)).add (Aff.const d _))

/-- The mixed second difference in the state and the controls is bilinear. -/
def Cross (d : Dims) (f : (Nat → K) → (Nat → K) → K) : Prop :=
  ∃ C : Nat → Nat → K, ∀ x y U V, f x V - f x U + f y U - f y V =
    ∑ j ∈ Finset.range (d.m * d.N), (∑ i ∈ Finset.range d.n, C i j * (x i - y i)) * (V j - U j)

theorem Cross.add {d : Dims} {f g : (Nat → K) → (Nat → K) → K} (hf : Cross d f) (hg : Cross d g) :
    Cross d fun x U => f x U + g x U := by
  obtain ⟨C, h⟩ := hf
  obtain ⟨C', h'⟩ := hg
  refine ⟨fun i j => C i j + C' i j, fun x y U V => ?_⟩
  simp only [add_mul, Finset.sum_add_distrib]
  rw [← h, ← h']; ring

theorem Cross.smul {d : Dims} {f : (Nat → K) → (Nat → K) → K} (k : K) (hf : Cross d f) : Cross d fun x U => k * f x U := by
  obtain ⟨C, h⟩ := hf
  refine ⟨fun i j => k * C i j, fun x y U V => ?_⟩
  simp only [mul_assoc, ← Finset.mul_sum]
  rw [← h]; ring

theorem Cross.zero (d : Dims) : Cross (K := K) d fun _ _ => 0 := ⟨fun _ _ => 0, fun x y U V => by simp⟩

theorem Cross.ofControls {d : Dims} (f : (Nat → K) → K) : Cross (K := K) d fun _ U => f U :=
  ⟨fun _ _ => 0, fun x y U V => by simp⟩

theorem Cross.sum {d : Dims} (n : Nat) {f : Nat → (Nat → K) → (Nat → K) → K} (h : ∀ i < n, Cross d (f i)) :
    Cross d fun x U => ∑ i ∈ Finset.range n, f i x U := by
  induction n with
  | zero => simpa using Cross.zero d
  | succ n ih =>
    simp only [Finset.sum_range_succ]
    exact (ih fun i hi => h i (by omega)).add (h n (by omega))

theorem Aff.sq {d : Dims} {f : (Nat → K) → (Nat → K) → K} (h : Aff d f) : Cross d fun x U => f x U ^ 2 := by
  obtain ⟨a, b, c, h⟩ := h
  refine ⟨fun i j => 2 * a i * b j, fun x y U V => ?_⟩
  have e1 : ∀ j, ∑ i ∈ Finset.range d.n, 2 * a i * b j * (x i - y i) = 2 * b j * ∑ i ∈ Finset.range d.n, a i * (x i - y i) := by
    intro j; rw [Finset.mul_sum]; exact Finset.sum_congr rfl fun i _ => by ring
  have e2 : ∑ j ∈ Finset.range (d.m * d.N), (2 * b j * ∑ i ∈ Finset.range d.n, a i * (x i - y i)) * (V j - U j) =
      2 * (∑ i ∈ Finset.range d.n, a i * (x i - y i)) * ∑ j ∈ Finset.range (d.m * d.N), b j * (V j - U j) := by
    rw [Finset.mul_sum]; exact Finset.sum_congr rfl fun j _ => by ring
  simp only [e1, h]
  rw [e2]
  simp only [mul_sub, Finset.sum_sub_distrib]
  ring

theorem Cross.wsq {d : Dims} {n : Nat} {w p : Vec K} {y : Nat → (Nat → K) → (Nat → K) → K} (h : ∀ r < n, Aff d (y r)) :
    Cross d fun x U => wsq n w p fun r => y r x U := by
  unfold Spec.wsq
  refine Cross.sum n fun r hr => Cross.smul _ ?_
  have := ((h r hr).add (Aff.const d (-p.e r))).sq
  simpa only [← sub_eq_add_neg] using this

/-- The value of every kind of cost along the trajectory is a quadratic function of the initial state and the controls. -/
theorem Cross.value (d : Dims) (A B : Mat K) (b : Vec K) (D : CostData K) : Cross d fun x U => D.value d (sim d A B b x U) U := by
  have X : ∀ (e : Nat → K) (k : Nat), k ≤ d.N → Aff d fun x U => ∑ c ∈ Finset.range d.n, e c * sim d A B b x U k c :=
    fun e k hk => Aff.sum _ fun c hc => (Aff.sim d A B b k hk c hc).smul _
  have C : ∀ (e : Nat → K) (k : Nat), k < d.N → Aff d fun _ U => ∑ c ∈ Finset.range d.m, e c * ctrl d U k c :=
    fun e k hk => Aff.sum _ fun c hc => (Aff.ctrl d hk hc).smul _
  have XX : ∀ e : Nat → Nat → K, Aff d fun x U => ∑ k ∈ Finset.range (d.N + 1), ∑ c ∈ Finset.range d.n, e k c * sim d A B b x U k c :=
    fun e => Aff.sum _ fun k hk => X _ k (by omega)
  have CC : ∀ e : Nat → Nat → K, Aff d fun _ U => ∑ k ∈ Finset.range d.N, ∑ c ∈ Finset.range d.m, e k c * ctrl d U k c :=
    fun e => Aff.sum _ fun k hk => C _ k hk
  cases D with
  | trajectory M p w =>
    simp only [CostData.value]
    split
    · exact Cross.sum _ fun k hk => Cross.wsq fun r _ => X _ k (by omega)
    · exact Cross.wsq fun r _ => XX fun k c => M.e r (k * d.n + c)
  | target M p w => exact Cross.wsq fun r _ => X _ _ (le_refl _)
  | control N p w =>
    simp only [CostData.value]
    split
    · exact Cross.sum _ fun k hk => Cross.wsq fun r _ => C _ k hk
    · exact Cross.wsq fun r _ => CC fun k c => N.e r (k * d.m + c)
  | mixed M N p w =>
    simp only [CostData.value]
    split
    · exact Cross.sum _ fun k hk => Cross.wsq fun r _ => (X _ k hk.le).add (C _ k hk)
    · exact Cross.wsq fun r _ => (XX fun k c => M.e r (k * d.n + c)).add (CC fun k c => N.e r (k * d.m + c))

theorem Cross.list {d : Dims} {α : Type} (l : List α) {f : α → (Nat → K) → (Nat → K) → K} (h : ∀ i ∈ l, Cross d (f i)) :
    Cross d fun x U => (l.map fun i => f i x U).sum := by
  induction l with
  | nil => simpa using Cross.zero d
  | cons i l ih =>
    simp only [List.map_cons, List.sum_cons]
    exact (h i List.mem_cons_self).add (ih fun j hj => h j (List.mem_cons_of_mem _ hj))

theorem Cross.total (d : Dims) (w : World K) (p : Nat) : Cross d fun x U => totalCostFrom d w p x U := by
  unfold totalCostFrom
  refine Cross.add (Cross.smul _ (Cross.list _ fun i _ => ?_)) (Cross.ofControls fun U => 1 / 2 * (1 / 1000000) * ∑ j ∈ Finset.range (d.m * d.N), U j ^ 2)
  exact Cross.value d _ _ _ _

/-- The midpoint of two plans from the same state costs less than the average, by `1/8 1e-6 |U - V|^2` at least. -/
theorem totalCostFrom_mid {d : Dims} {w : World K} {p : Nat} (hn : ∀ i ∈ w.ctl.spCost, (w.costs i).userData.Nonneg)
    (x U V : Nat → K) : totalCostFrom d w p x (mix (1 / 2) U V) + 1 / 8 * (1 / 1000000) * normSq d (fun j => U j - V j) ≤
      1 / 2 * totalCostFrom d w p x U + 1 / 2 * totalCostFrom d w p x V := by
  have hx : mix (1 / 2 : K) x x = x := funext fun j => by unfold mix; ring
  have T : trajFrom d w p x (mix (1 / 2) U V) = fun k => mix (1 / 2) (trajFrom d w p x U k) (trajFrom d w p x V k) := by
    funext k
    unfold Spec.trajFrom
    have := sim_mix d (w.pss p).A (w.pss p).B (w.pss p).d (1 / 2) x x U V k
    rw [hx] at this
    exact this
  have h2 : (0 : K) ≤ 1 / 2 := by norm_num
  have h3 : (1 / 2 : K) ≤ 1 := by norm_num
  have L : ∀ l : List Nat, (∀ i ∈ l, (w.costs i).userData.Nonneg) →
      (l.map fun i => (w.costs i).userData.value d (trajFrom d w p x (mix (1 / 2) U V)) (mix (1 / 2) U V)).sum ≤
        1 / 2 * (l.map fun i => (w.costs i).userData.value d (trajFrom d w p x U) U).sum +
        1 / 2 * (l.map fun i => (w.costs i).userData.value d (trajFrom d w p x V) V).sum := by
    intro l hl
    induction l with
    | nil => simp
    | cons i l ih =>
      simp only [List.map_cons, List.sum_cons]
      have e := value_mix h2 h3 (X := trajFrom d w p x U) (Y := trajFrom d w p x V) (U := U) (V := V) (d := d) (hl i List.mem_cons_self)
      rw [← T] at e
      have := ih fun j hj => hl j (List.mem_cons_of_mem _ hj)
      linarith
  have N : ∑ j ∈ Finset.range (d.m * d.N), mix (1 / 2) U V j ^ 2 = 1 / 2 * ∑ j ∈ Finset.range (d.m * d.N), U j ^ 2 +
      1 / 2 * ∑ j ∈ Finset.range (d.m * d.N), V j ^ 2 - 1 / 4 * normSq d (fun j => U j - V j) := by
    unfold Spec.normSq
    rw [Finset.mul_sum, Finset.mul_sum, Finset.mul_sum, ← Finset.sum_add_distrib, ← Finset.sum_sub_distrib]
    exact Finset.sum_congr rfl fun j _ => by unfold mix; ring
  have := L _ hn
  unfold totalCostFrom
  rw [N]
  linarith

/-- Cauchy-Schwarz for the mixed second difference. -/
theorem cross_bound (n m : Nat) (C : Nat → Nat → K) (z D : Nat → K) :
    (∑ j ∈ Finset.range m, (∑ i ∈ Finset.range n, C i j * z i) * D j) ^ 2 ≤
      (∑ j ∈ Finset.range m, ∑ i ∈ Finset.range n, C i j ^ 2) * (∑ i ∈ Finset.range n, z i ^ 2) * ∑ j ∈ Finset.range m, D j ^ 2 := by
  refine (Finset.sum_mul_sq_le_sq_mul_sq _ _ _).trans (mul_le_mul_of_nonneg_right ?_ (Finset.sum_nonneg fun _ _ => sq_nonneg _))
  rw [Finset.sum_mul]
  exact Finset.sum_le_sum fun j _ => Finset.sum_mul_sq_le_sq_mul_sq _ _ _

/-- Two plans, each at least as good as their midpoint from its own state, are no farther apart than a constant times the
distance of the states. -/
theorem plans_close {d : Dims} {w : World K} {p : Nat} (hn : ∀ i ∈ w.ctl.spCost, (w.costs i).userData.Nonneg) :
    ∃ L : K, ∀ x y U V : Nat → K, totalCostFrom d w p x U ≤ totalCostFrom d w p x (mix (1 / 2) U V) →
      totalCostFrom d w p y V ≤ totalCostFrom d w p y (mix (1 / 2) U V) →
      normSq d (fun j => U j - V j) ≤ L * stateDistSq d x y := by
  obtain ⟨C, hC⟩ := Cross.total d w p
  refine ⟨(2 * 1000000) ^ 2 * ∑ j ∈ Finset.range (d.m * d.N), ∑ i ∈ Finset.range d.n, C i j ^ 2, fun x y U V h1 h2 => ?_⟩
  have m1 := totalCostFrom_mid (d := d) (p := p) hn x U V
  have m2 := totalCostFrom_mid (d := d) (p := p) hn y U V
  have c := hC x y U V
  have cs := cross_bound d.n (d.m * d.N) C (fun i => x i - y i) fun j => V j - U j
  have n0 : normSq d (fun j => U j - V j) = ∑ j ∈ Finset.range (d.m * d.N), (V j - U j) ^ 2 := by
    unfold Spec.normSq; exact Finset.sum_congr rfl fun j _ => by ring
  rw [← c, ← n0] at cs
  have nn : 0 ≤ normSq d (fun j => U j - V j) := Finset.sum_nonneg fun _ _ => sq_nonneg _
  have key : 1 / 2 * (1 / 1000000) * normSq d (fun j => U j - V j) ≤
      totalCostFrom d w p x V - totalCostFrom d w p x U + totalCostFrom d w p y U - totalCostFrom d w p y V := by linarith
  have F0 : 0 ≤ ∑ j ∈ Finset.range (d.m * d.N), ∑ i ∈ Finset.range d.n, C i j ^ 2 :=
    Finset.sum_nonneg fun _ _ => Finset.sum_nonneg fun _ _ => sq_nonneg _
  have S0 : 0 ≤ stateDistSq d x y := Finset.sum_nonneg fun _ _ => sq_nonneg _
  change _ ≤ _ * stateDistSq d x y * _ at cs
  generalize normSq d (fun j => U j - V j) = D at *
  generalize (∑ j ∈ Finset.range (d.m * d.N), ∑ i ∈ Finset.range d.n, C i j ^ 2) = F at *
  generalize stateDistSq d x y = S at *
  generalize totalCostFrom d w p x V - totalCostFrom d w p x U + totalCostFrom d w p y U - totalCostFrom d w p y V = T at *
  rcases nn.eq_or_lt with e | hD
  · rw [← e]; positivity
  · have h0 : 0 ≤ 1 / 2 * (1 / 1000000) * D := by positivity
    have sq := pow_le_pow_left₀ h0 key 2
    have : (1 / 2 * (1 / 1000000) * D) ^ 2 ≤ F * S * D := sq.trans cs
    have e : (1 / 2 * (1 / 1000000) * D) ^ 2 = (1 / 2 * (1 / 1000000)) ^ 2 * D * D := by ring
    rw [e] at this
    have := le_of_mul_le_mul_right this hD
    have e2 : (2 * 1000000 : K) ^ 2 * ((1 / 2 * (1 / 1000000)) ^ 2 * D) = D := by
      rw [← mul_assoc, ← mul_pow]; norm_num
    have := mul_le_mul_of_nonneg_left this (by positivity : (0 : K) ≤ (2 * 1000000) ^ 2)
    rw [e2] at this
    linarith

theorem onControls_holds {d : Dims} {X Y : Nat → Nat → K} {U : Nat → K} {D : ConstrData K} (h : D.OnControls) :
    D.Holds d X U ↔ D.Holds d Y U := by
  cases D <;> first | exact h.elim | rfl

namespace World

theorem AlikeButStart.total {d : Dims} {w1 w2 : World K} {p1 p2 : Nat} (R : AlikeButStart w1 p1 w2 p2) (U : Nat → K) :
    totalCost d w1 p1 U = totalCostFrom d w2 p2 (w1.pss p1).x0.e U := by
  have T : Spec.traj d w1 p1 U = trajFrom d w2 p2 (w1.pss p1).x0.e U := by
    funext k; unfold Spec.traj Spec.trajFrom; rw [R.A, R.B, R.bias]
  have s1 := (R.costs.map fun D => D.value d (Spec.traj d w1 p1 U) U).sum_eq
  rw [List.map_map, List.map_map] at s1
  simp only [Function.comp_def] at s1
  unfold totalCost totalCostFrom
  rw [s1, T]

theorem AlikeButStart.nonneg {w1 w2 : World K} {p1 p2 : Nat} (R : AlikeButStart w1 p1 w2 p2)
    (h : ∀ i ∈ w1.ctl.spCost, (w1.costs i).userData.Nonneg) : ∀ i ∈ w2.ctl.spCost, (w2.costs i).userData.Nonneg := by
  intro i hi
  obtain ⟨j, hj, e⟩ := List.mem_map.1 ((R.costs.mem_iff).2 (List.mem_map.2 ⟨i, hi, rfl⟩))
  rw [← e]; exact h j hj

/-- **C89**: the computed control depends Lipschitz-continuously on the initial state. For every system, set of constraints
on the controls and set of costs there is a constant `L` such that, for any two successful solves with that system, these
constraints and costs (added in any order, after any histories) and any two initial states, the squared distance of the
controls returned is at most `L` times the squared distance of the initial states. The solvers return minimisers, the
weights are nonnegative, the costs are fresh (C32). -/
theorem c89_lipschitz (d : Dims) (dmax : K) (w : World K) (p : Nat) : ∃ L : K, ∀ {w1 w2 w1' w2' : World K} {g1 g2 : Ghost}
    {p1 p2 : Nat} {e1 e2 : SolveEnv K} {q1 q2 : QP K},
    PlainSolve d dmax w1 g1 p1 e1 w1' true q1 → PlainSolve d dmax w2 g2 p2 e2 w2' true q2 →
    AlikeButStart w1 p1 w p → AlikeButStart w2 p2 w p →
    (∀ i ∈ w.ctl.spConstr, (w.cons i).userData.OnControls) → CostsFresh d w1 g1 → CostsFresh d w2 g2 →
    IsOptimal q1 (e1.answer q1).2.e → IsOptimal q2 (e2.answer q2).2.e →
    normSq d (fun j => w1'.ctl.control.e j - w2'.ctl.control.e j) ≤ L * stateDistSq d (w1.pss p1).x0.e (w2.pss p2).x0.e := by
  by_cases hn : ∀ i ∈ w.ctl.spCost, (w.costs i).userData.Nonneg
  swap
  · exact ⟨0, fun S1 _ R1 _ => absurd (AlikeButStart.nonneg R1 (registered_nonneg S1.hist fun _ _ h => h.2)) hn⟩
  obtain ⟨L, hL⟩ := plans_close (d := d) (p := p) hn
  refine ⟨L, ?_⟩
  intro w1 w2 w1' w2' g1 g2 p1 p2 e1 e2 q1 q2 S1 S2 R1 R2 hc f1 f2 o1 o2
  have R : AlikeButStart w1 p1 w2 p2 :=
    ⟨R1.A.trans R2.A.symm, R1.B.trans R2.B.symm, R1.bias.trans R2.bias.symm, R1.cons.trans R2.cons.symm, R1.costs.trans R2.costs.symm⟩
  have hc1 := (AlikeButStart.mem R1 _).2 hc
  have hc2 := (AlikeButStart.mem R2 _).2 hc
  have a1 := fun U => c30_feasible_set S1.hist (fun _ _ h => h.1) S1.allowed S1.plain S1.clean S1.honest S1.solve S1.ps U
  have a2 := fun U => c30_feasible_set S2.hist (fun _ _ h => h.1) S2.allowed S2.plain S2.clean S2.honest S2.solve S2.ps U
  have F1 := (a1 _).1 o1.1
  have F2 := (a2 _).1 o2.1
  have h0 : (0 : K) ≤ 1 / 2 := by norm_num
  have h1 : (1 / 2 : K) ≤ 1 := by norm_num
  have B : w1.ctl.spBoundConstr = [] → ∀ j < d.m * d.N, -dmax ≤ mix (1 / 2) (e1.answer q1).2.e (e2.answer q2).2.e j ∧
      mix (1 / 2) (e1.answer q1).2.e (e2.answer q2).2.e j ≤ dmax := by
    intro hb j hj
    have b1 := F1.2 hb j hj
    have b2 := F2.2 ((AlikeButStart.bound R S1.hist.good S2.hist.good S1.ps S2.ps).1 hb) j hj
    exact ⟨(ge_mix_ext (b := .fin (-dmax)) h0 h1 b1.1 b2.1 :), (le_mix_ext (b := .fin dmax) h0 h1 b1.2 b2.2 :)⟩
  have M1 : Feasible q1 (mix (1 / 2) (e1.answer q1).2.e (e2.answer q2).2.e) := by
    refine (a1 _).2 ⟨fun i hi => ?_, B⟩
    have := (AlikeButStart.mem R fun D => D.Holds d (Spec.traj d w2 p2 (e2.answer q2).2.e) (e2.answer q2).2.e).2 F2.1 i hi
    exact (onControls_holds (hc1 i hi)).1 (holds_mix h0 h1 (F1.1 i hi) this)
  have M2 : Feasible q2 (mix (1 / 2) (e1.answer q1).2.e (e2.answer q2).2.e) := by
    refine (a2 _).2 ⟨fun i hi => ?_, fun hb => B ((AlikeButStart.bound R S1.hist.good S2.hist.good S1.ps S2.ps).2 hb)⟩
    have := (AlikeButStart.mem R fun D => D.Holds d (Spec.traj d w1 p1 (e1.answer q1).2.e) (e1.answer q1).2.e).1 F1.1 i hi
    exact (onControls_holds (hc2 i hi)).1 (holds_mix h0 h1 this (F2.1 i hi))
  obtain ⟨k1, O1⟩ := c32_objective S1.hist S1.allowed S1.plain f1 S1.solve S1.ps
  obtain ⟨k2, O2⟩ := c32_objective S2.hist S2.allowed S2.plain f2 S2.solve S2.ps
  have l1 := o1.2 _ M1
  have l2 := o2.2 _ M2
  rw [O1, O1, AlikeButStart.total R1, AlikeButStart.total R1] at l1
  rw [O2, O2, AlikeButStart.total R2, AlikeButStart.total R2] at l2
  rw [c40_control_is_answer S1.plain S1.solve, c40_control_is_answer S2.plain S2.solve]
  exact hL _ _ _ _ (by linarith) (by linarith)

end World
end
end Copra
