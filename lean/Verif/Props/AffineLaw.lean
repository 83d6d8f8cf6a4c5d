import Verif.Props.Lipschitz

/-! # C94: while no inequality is active, the control is an affine function of the initial state -/

namespace Copra

namespace Spec
variable {K : Type} [Field K]

/-- An equality constraint. -/
def ConstrData.IsEquality : ConstrData K → Prop
  | .trajectory q _ _ | .control q _ _ | .mixed q _ _ _ => q = false
  | _ => False

/-- The constraint still holds when the trajectory and the controls change a little: it is not active. -/
def ConstrData.HoldsWithMargin [LinearOrder K] (d : Dims) (X : Nat → Nat → K) (U : Nat → K) (D : ConstrData K) : Prop :=
  ∃ ε, 0 < ε ∧ ∀ X' U', (∀ k ≤ d.N, ∀ r < d.n, |X' k r - X k r| ≤ ε) → (∀ j < d.m * d.N, |U' j - U j| ≤ ε) → D.Holds d X' U'

/-- No inequality constraint and no bound is active under the controls `U`; without registered control bounds the
controls stay away from the largest representable number. -/
def NoActive [LinearOrder K] (d : Dims) (dmax : K) (w : World K) (p : Nat) (U : Nat → K) : Prop :=
  (∀ i ∈ w.ctl.spConstr, ¬ (w.cons i).userData.IsEquality → (w.cons i).userData.HoldsWithMargin d (traj d w p U) U) ∧
  (w.ctl.spBoundConstr = [] → ∀ j < d.m * d.N, |U j| < dmax)

end Spec
open Spec

set_option linter.unusedSectionVars false
set_option maxRecDepth 100000

section
variable {K : Type} [Field K] [LinearOrder K] [IsStrictOrderedRing K]

/-! ## Quadratic functions along lines -/

/-- `f x (U + t v) = f x U + t g(x, U, v) + t² h(v)` with `g` affine in the state and the controls and `h ≥ 0`. -/
def Curve (f : (Nat → K) → (Nat → K) → K) : Prop :=
  ∃ (g : (Nat → K) → (Nat → K) → (Nat → K) → K) (h : (Nat → K) → K),
    (∀ x U v t, f x (fun j => U j + t * v j) = f x U + t * g x U v + t ^ 2 * h v) ∧
    (∀ a x y U V v, g (mix a x y) (mix a U V) v = a * g x U v + (1 - a) * g y V v) ∧ ∀ v, 0 ≤ h v

theorem Curve.zero : Curve (K := K) fun _ _ => 0 :=
  ⟨fun _ _ _ => 0, fun _ => 0, fun _ _ _ _ => by simp, fun _ _ _ _ _ _ => by simp, fun _ => le_rfl⟩

theorem Curve.add {f f' : (Nat → K) → (Nat → K) → K} (h : Curve f) (h' : Curve f') : Curve fun x U => f x U + f' x U := by
  obtain ⟨g, q, a, b, c⟩ := h
  obtain ⟨g', q', a', b', c'⟩ := h'
  refine ⟨fun x U v => g x U v + g' x U v, fun v => q v + q' v, fun x U v t => ?_, fun _ _ _ _ _ _ => ?_,
    fun v => add_nonneg (c v) (c' v)⟩
  · dsimp only; rw [a, a']; ring
  · dsimp only; rw [b, b']; ring

theorem Curve.smul {f : (Nat → K) → (Nat → K) → K} {k : K} (hk : 0 ≤ k) (h : Curve f) : Curve fun x U => k * f x U := by
  obtain ⟨g, q, a, b, c⟩ := h
  refine ⟨fun x U v => k * g x U v, fun v => k * q v, fun x U v t => ?_, fun _ _ _ _ _ _ => ?_, fun v => mul_nonneg hk (c v)⟩
  · dsimp only; rw [a]; ring
  · dsimp only; rw [b]; ring

theorem Curve.sum (n : Nat) {f : Nat → (Nat → K) → (Nat → K) → K} (h : ∀ i < n, Curve (f i)) :
    Curve fun x U => ∑ i ∈ Finset.range n, f i x U := by
  induction n with
  | zero => simpa using Curve.zero
  | succ n ih =>
    simp only [Finset.sum_range_succ]
    exact (ih fun i hi => h i (by omega)).add (h n (by omega))

theorem Curve.list {α : Type} (l : List α) {f : α → (Nat → K) → (Nat → K) → K} (h : ∀ i ∈ l, Curve (f i)) :
    Curve fun x U => (l.map fun i => f i x U).sum := by
  induction l with
  | nil => simpa using Curve.zero
  | cons i l ih =>
    simp only [List.map_cons, List.sum_cons]
    exact (h i List.mem_cons_self).add (ih fun j hj => h j (List.mem_cons_of_mem _ hj))

theorem Aff.curve {d : Dims} {f : (Nat → K) → (Nat → K) → K} (h : Aff d f) : Curve fun x U => f x U ^ 2 := by
  obtain ⟨a, b, c, h⟩ := h
  refine ⟨fun x U v => 2 * f x U * ∑ j ∈ Finset.range (d.m * d.N), b j * v j,
    fun v => (∑ j ∈ Finset.range (d.m * d.N), b j * v j) ^ 2, fun x U v t => ?_, fun s x y U V v => ?_, fun v => sq_nonneg _⟩
  · have e : ∑ j ∈ Finset.range (d.m * d.N), b j * (U j + t * v j) =
        (∑ j ∈ Finset.range (d.m * d.N), b j * U j) + t * ∑ j ∈ Finset.range (d.m * d.N), b j * v j := by
      rw [Finset.mul_sum, ← Finset.sum_add_distrib]
      exact Finset.sum_congr rfl fun j _ => by ring
    simp only [h, e]
    ring
  · simp only [h, sum_mix]
    ring

theorem Curve.wsq {d : Dims} {n : Nat} {w p : Vec K} {y : Nat → (Nat → K) → (Nat → K) → K} (hw : ∀ r < n, 0 ≤ w.e r)
    (h : ∀ r < n, Aff d (y r)) : Curve fun x U => wsq n w p fun r => y r x U := by
  unfold Spec.wsq
  refine Curve.sum n fun r hr => Curve.smul (hw r hr) ?_
  have := ((h r hr).add (Aff.const d (-p.e r))).curve
  simpa only [← sub_eq_add_neg] using this

theorem Curve.value (d : Dims) (A B : Mat K) (b : Vec K) {D : CostData K} (hn : D.Nonneg) :
    Curve fun x U => D.value d (sim d A B b x U) U := by
  have X : ∀ (e : Nat → K) (k : Nat), k ≤ d.N → Aff d fun x U => ∑ c ∈ Finset.range d.n, e c * sim d A B b x U k c :=
    fun e k hk => Aff.sum _ fun c hc => (Aff.sim d A B b k hk c hc).smul _
  have C : ∀ (e : Nat → K) (k : Nat), k < d.N → Aff d fun _ U => ∑ c ∈ Finset.range d.m, e c * ctrl d U k c :=
    fun e k hk => Aff.sum _ fun c hc => (Aff.ctrl d hk hc).smul _
  have XX : ∀ e : Nat → Nat → K, Aff d fun x U => ∑ k ∈ Finset.range (d.N + 1), ∑ c ∈ Finset.range d.n, e k c * sim d A B b x U k c :=
    fun e => Aff.sum _ fun k hk => X _ k (by omega)
  have CC : ∀ e : Nat → Nat → K, Aff d fun _ U => ∑ k ∈ Finset.range d.N, ∑ c ∈ Finset.range d.m, e k c * ctrl d U k c :=
    fun e => Aff.sum _ fun k hk => C _ k hk
  cases D with
  | trajectory M p w =>
    simp only [CostData.value]
    split
    · exact Curve.sum _ fun k hk => Curve.wsq hn fun r _ => X _ k (by omega)
    · exact Curve.wsq hn fun r _ => XX fun k c => M.e r (k * d.n + c)
  | target M p w => exact Curve.wsq hn fun r _ => X _ _ (le_refl _)
  | control N p w =>
    simp only [CostData.value]
    split
    · exact Curve.sum _ fun k hk => Curve.wsq hn fun r _ => C _ k hk
    · exact Curve.wsq hn fun r _ => CC fun k c => N.e r (k * d.m + c)
  | mixed M N p w =>
    simp only [CostData.value]
    split
    · exact Curve.sum _ fun k hk => Curve.wsq hn fun r _ => (X _ k hk.le).add (C _ k hk)
    · exact Curve.wsq hn fun r _ => (XX fun k c => M.e r (k * d.n + c)).add (CC fun k c => N.e r (k * d.m + c))

theorem Curve.total {d : Dims} {w : World K} {p : Nat} (hn : ∀ i ∈ w.ctl.spCost, (w.costs i).userData.Nonneg) :
    Curve fun x U => totalCostFrom d w p x U := by
  unfold totalCostFrom
  refine Curve.add (Curve.smul (by norm_num) (Curve.list _ fun i hi => ?_)) (Curve.smul (by norm_num) (Curve.sum _ fun j hj => ?_))
  · exact Curve.value d _ _ _ (hn i hi)
  · exact (Aff.control d hj).curve

/-- A slope that never helps, in either direction, is zero. -/
theorem slope_zero {g h δ : K} (hδ : 0 < δ) (H : ∀ t : K, |t| ≤ δ → 0 ≤ t * g + t ^ 2 * h) : g = 0 := by
  by_contra hg
  have hpos : 0 < |g| := abs_pos.2 hg
  have hh : 0 ≤ |h| := abs_nonneg h
  -- step of size s against the slope
  let s := min δ (|g| / (2 * (|h| + 1)))
  have s0 : 0 < s := lt_min hδ (by positivity)
  have s1 : s ≤ δ := min_le_left _ _
  have s2 : s * (2 * (|h| + 1)) ≤ |g| := by
    have : s ≤ |g| / (2 * (|h| + 1)) := min_le_right _ _
    rwa [le_div_iff₀ (by positivity)] at this
  have key : ∀ t : K, |t| = s → t * g = -(s * |g|) → False := by
    intro t ht e
    have h1 := H t (by rw [ht]; exact s1)
    have e2 : t ^ 2 = s ^ 2 := by rw [← sq_abs, ht]
    rw [e, e2] at h1
    have h2 : s ^ 2 * h ≤ s ^ 2 * |h| := mul_le_mul_of_nonneg_left (le_abs_self h) (sq_nonneg s)
    have h3 := mul_le_mul_of_nonneg_left s2 s0.le
    nlinarith [mul_pos s0 hpos, mul_pos s0 s0]
  rcases le_or_gt 0 g with h0 | h0
  · exact key (-s) (by rw [abs_neg, abs_of_pos s0]) (by rw [abs_of_nonneg h0]; ring)
  · exact key s (abs_of_pos s0) (by rw [abs_of_neg h0]; ring)

/-! ## Equality constraints are affine -/

theorem rel_mix_eq {a s t : K} {b : Ext K} (hs : Spec.Rel false s b) (ht : Spec.Rel false t b) : Spec.Rel false (a * s + (1 - a) * t) b := by
  unfold Spec.Rel at *
  simp only [Bool.false_eq_true, if_false] at *
  rw [← ht] at hs ⊢
  injection hs with hs
  rw [hs]; congr 1; ring

theorem holds_mix_eq {d : Dims} {X Y : Nat → Nat → K} {U V : Nat → K} {D : ConstrData K} (hD : D.IsEquality) (a : K)
    (hX : D.Holds d X U) (hY : D.Holds d Y V) : D.Holds d (fun k => mix a (X k) (Y k)) (mix a U V) := by
  cases D <;> simp only [ConstrData.IsEquality] at hD <;> subst hD <;> simp only [ConstrData.Holds] at hX hY ⊢
  case trajectory E f =>
    split <;> rename_i hc
    · rw [if_pos hc] at hX hY
      intro k hk r hr
      rw [sum_mix]; exact rel_mix_eq (hX k hk r hr) (hY k hk r hr)
    · rw [if_neg hc] at hX hY
      intro r hr
      rw [sum2_mix a _ _ (fun k c => E.e r (k * d.n + c))]; exact rel_mix_eq (hX r hr) (hY r hr)
  case control G f =>
    split <;> rename_i hc
    · rw [if_pos hc] at hX hY
      intro k hk r hr
      rw [ctrl_mix, sum_mix]; exact rel_mix_eq (hX k hk r hr) (hY k hk r hr)
    · rw [if_neg hc] at hX hY
      intro r hr
      simp only [ctrl_mix]
      rw [sum2_mix a _ _ (fun k c => G.e r (k * d.m + c))]; exact rel_mix_eq (hX r hr) (hY r hr)
  case mixed E G f =>
    split <;> rename_i hc
    · rw [if_pos hc] at hX hY
      intro k hk r hr
      rw [ctrl_mix, sum_mix, sum_mix]
      have := rel_mix_eq (a := a) (hX k hk r hr) (hY k hk r hr)
      convert this using 1; ring
    · rw [if_neg hc] at hX hY
      intro r hr
      simp only [ctrl_mix]
      rw [sum2_mix a _ _ (fun k c => G.e r (k * d.m + c)), sum2_mix a _ _ (fun k c => E.e r (k * d.n + c))]
      have := rel_mix_eq (a := a) (hX r hr) (hY r hr)
      convert this using 1; ring

/-- `P + t (Q - R)` as averages. -/
theorem line_mix (t : K) (P Q R : Nat → K) :
    (fun j => P j + t * (Q j - R j)) = mix (1 / 2) (mix (2 * t) Q P) (mix (-(2 * t)) R P) := by
  funext j; unfold mix; ring

theorem sim_line (d : Dims) (A B : Mat K) (b : Vec K) (t : K) (x y U V W : Nat → K) (k : Nat) :
    sim d A B b x (fun j => U j + t * (V j - W j)) k =
      fun r => sim d A B b x U k r + t * (sim d A B b y V k r - sim d A B b y W k r) := by
  have hx : x = mix (1 / 2) (mix (2 * t) y x) (mix (-(2 * t)) y x) := by
    rw [← line_mix]; funext j; ring
  rw [line_mix, line_mix]
  conv_lhs => rw [hx]
  rw [sim_mix, sim_mix, sim_mix]

theorem finite_bound (n : Nat) (f : Nat → K) : ∃ M, 0 ≤ M ∧ ∀ i < n, |f i| ≤ M := by
  refine ⟨∑ i ∈ Finset.range n, |f i|, Finset.sum_nonneg fun _ _ => abs_nonneg _, fun i hi => ?_⟩
  exact Finset.single_le_sum (f := fun i => |f i|) (fun _ _ => abs_nonneg _) (Finset.mem_range.2 hi)

theorem list_radius {l : List Nat} {P : Nat → K → Prop} (h : ∀ i ∈ l, ∃ δ, 0 < δ ∧ ∀ t : K, |t| ≤ δ → P i t) :
    ∃ δ, 0 < δ ∧ ∀ t : K, |t| ≤ δ → ∀ i ∈ l, P i t := by
  induction l with
  | nil => exact ⟨1, one_pos, fun _ _ i hi => by cases hi⟩
  | cons i l ih =>
    obtain ⟨a, ha, h1⟩ := h i List.mem_cons_self
    obtain ⟨b, hb, h2⟩ := ih fun j hj => h j (List.mem_cons_of_mem _ hj)
    refine ⟨min a b, lt_min ha hb, fun t ht j hj => ?_⟩
    rcases List.mem_cons.1 hj with rfl | hj
    · exact h1 t (ht.trans (min_le_left _ _))
    · exact h2 t (ht.trans (min_le_right _ _)) j hj

namespace World

variable {d : Dims} {dmax a : K} {w1 w2 w3 w1' w2' w3' : World K} {g1 g2 g3 : Ghost} {p1 p2 p3 : Nat} {e1 e2 e3 : SolveEnv K}
  {b1 b3 : Bool} {q1 q2 q3 : QP K}

/-- From a plan with no active inequality, small steps along a direction between two plans admissible from another initial state
are admissible. -/
theorem small_steps (S1 : PlainSolve d dmax w1 g1 p1 e1 w1' b1 q1) (S3 : PlainSolve d dmax w3 g3 p3 e3 w3' b3 q3)
    (R : AlikeButStart w1 p1 w3 p3) {U V W : Nat → K} (hU : Feasible q1 U) (nU : NoActive d dmax w1 p1 U)
    (hV : Feasible q3 V) (hW : Feasible q3 W) :
    ∃ δ, 0 < δ ∧ ∀ t : K, |t| ≤ δ → Feasible q1 fun j => U j + t * (V j - W j) := by
  have F1 := fun U => c30_feasible_set S1.hist (fun _ _ h => h.1) S1.allowed S1.plain S1.clean S1.honest S1.solve S1.ps U
  have F3 := fun U => c30_feasible_set S3.hist (fun _ _ h => h.1) S3.allowed S3.plain S3.clean S3.honest S3.solve S3.ps U
  have T : ∀ t : K, Spec.traj d w1 p1 (fun j => U j + t * (V j - W j)) =
      fun k r => Spec.traj d w1 p1 U k r + t * (Spec.traj d w3 p3 V k r - Spec.traj d w3 p3 W k r) := by
    intro t
    funext k
    unfold Spec.traj
    rw [← R.A, ← R.B, ← R.bias]
    exact sim_line d _ _ _ t _ _ U V W k
  obtain ⟨M1, m1, hM1⟩ := finite_bound (d.m * d.N) fun j => V j - W j
  obtain ⟨M2, m2, hM2⟩ := finite_bound (d.N + 1) fun k =>
    (finite_bound d.n fun r => Spec.traj d w3 p3 V k r - Spec.traj d w3 p3 W k r).choose
  have hM2' : ∀ k ≤ d.N, ∀ r < d.n, |Spec.traj d w3 p3 V k r - Spec.traj d w3 p3 W k r| ≤ M2 := fun k hk r hr =>
    ((finite_bound d.n fun r => Spec.traj d w3 p3 V k r - Spec.traj d w3 p3 W k r).choose_spec.2 r hr).trans
      ((le_abs_self _).trans (hM2 k (by omega)))
  have small : ∀ {ε M : K}, 0 < ε → 0 ≤ M → M ≤ M1 + M2 → ∀ t : K, |t| ≤ ε / (M1 + M2 + 1) → |t| * M ≤ ε := by
    intro ε M h0 hM hle t ht
    have hp : 0 < M1 + M2 + 1 := by linarith
    rw [le_div_iff₀ hp] at ht
    have := mul_le_mul_of_nonneg_left (hle.trans (by linarith : M1 + M2 ≤ M1 + M2 + 1)) (abs_nonneg t)
    linarith
  -- the constraints
  have L : ∃ δ, 0 < δ ∧ ∀ t : K, |t| ≤ δ → ∀ i ∈ w1.ctl.spConstr,
      (w1.cons i).userData.Holds d (Spec.traj d w1 p1 fun j => U j + t * (V j - W j)) fun j => U j + t * (V j - W j) := by
    apply list_radius
    intro i hi
    by_cases he : (w1.cons i).userData.IsEquality
    · refine ⟨1, one_pos, fun t _ => ?_⟩
      have h1 := ((F1 U).1 hU).1 i hi
      have h2 := (AlikeButStart.mem R fun D => D.Holds d (Spec.traj d w3 p3 V) V).2 ((F3 V).1 hV).1 i hi
      have h3 := (AlikeButStart.mem R fun D => D.Holds d (Spec.traj d w3 p3 W) W).2 ((F3 W).1 hW).1 i hi
      have := holds_mix_eq he (1 / 2) (holds_mix_eq he (2 * t) h2 h1) (holds_mix_eq he (-(2 * t)) h3 h1)
      rw [T, line_mix t U V W]
      have e : (fun k r => Spec.traj d w1 p1 U k r + t * (Spec.traj d w3 p3 V k r - Spec.traj d w3 p3 W k r)) =
          fun k => mix (1 / 2) (mix (2 * t) (Spec.traj d w3 p3 V k) (Spec.traj d w1 p1 U k))
            (mix (-(2 * t)) (Spec.traj d w3 p3 W k) (Spec.traj d w1 p1 U k)) := funext fun k => line_mix t _ _ _
      rw [e]
      exact this
    · obtain ⟨ε, h0, H⟩ := nU.1 i hi he
      refine ⟨ε / (M1 + M2 + 1), div_pos h0 (by linarith), fun t ht => H _ _ (fun k hk r hr => ?_) fun j hj => ?_⟩
      · rw [T]
        simp only [add_sub_cancel_left, abs_mul]
        exact (mul_le_mul_of_nonneg_left (hM2' k hk r hr) (abs_nonneg t)).trans (small h0 m2 (by linarith) t ht)
      · simp only [add_sub_cancel_left, abs_mul]
        exact (mul_le_mul_of_nonneg_left (hM1 j hj) (abs_nonneg t)).trans (small h0 m1 (by linarith) t ht)
  -- the representable range
  have Bx : ∃ δ, 0 < δ ∧ ∀ t : K, |t| ≤ δ → w1.ctl.spBoundConstr = [] → ∀ j ∈ List.range (d.m * d.N),
      -dmax ≤ U j + t * (V j - W j) ∧ U j + t * (V j - W j) ≤ dmax := by
    by_cases hb : w1.ctl.spBoundConstr = []
    · obtain ⟨δ, h0, H⟩ := list_radius (l := List.range (d.m * d.N))
        (P := fun j t => -dmax ≤ U j + t * (V j - W j) ∧ U j + t * (V j - W j) ≤ dmax) (by
        intro j hj
        have hj := List.mem_range.1 hj
        have hu := nU.2 hb j hj
        have h0 : 0 < dmax - |U j| := by linarith
        refine ⟨(dmax - |U j|) / (M1 + M2 + 1), div_pos h0 (by linarith), fun t ht => ?_⟩
        have := (mul_le_mul_of_nonneg_left (hM1 j hj) (abs_nonneg t)).trans (small h0 m1 (by linarith) t ht)
        rw [← abs_mul] at this
        exact abs_le.1 ((abs_add_le _ _).trans (by linarith)))
      exact ⟨δ, h0, fun t ht _ => H t ht⟩
    · exact ⟨1, one_pos, fun _ _ h => absurd h hb⟩
  obtain ⟨δ1, h1, H1⟩ := L
  obtain ⟨δ2, h2, H2⟩ := Bx
  refine ⟨min δ1 δ2, lt_min h1 h2, fun t ht => (F1 _).2 ⟨H1 t (ht.trans (min_le_left _ _)), fun hb j hj => ?_⟩⟩
  exact H2 t (ht.trans (min_le_right _ _)) hb j (List.mem_range.2 hj)

/-- **C94**: while no inequality is active the controller is an affine feedback law. Two solves, from two initial states, with
the same system, constraints and costs (added in any order, after any histories), return minimisers at which no inequality
constraint and no bound is active. Then from the combination `a x1 + (1 - a) x2` of the initial states, for any
`a`, the same combination of the two controls is a minimiser, provided it satisfies the inequality constraints and bounds. -/
theorem c94_affine (S1 : PlainSolve d dmax w1 g1 p1 e1 w1' true q1) (S2 : PlainSolve d dmax w2 g2 p2 e2 w2' true q2)
    (S3 : PlainSolve d dmax w3 g3 p3 e3 w3' b3 q3) (R1 : AlikeButStart w1 p1 w3 p3) (R2 : AlikeButStart w2 p2 w3 p3)
    (hx : ∀ r < d.n, (w3.pss p3).x0.e r = mix a (w1.pss p1).x0.e (w2.pss p2).x0.e r)
    (f1 : CostsFresh d w1 g1) (f2 : CostsFresh d w2 g2) (f3 : CostsFresh d w3 g3)
    (o1 : IsOptimal q1 (e1.answer q1).2.e) (o2 : IsOptimal q2 (e2.answer q2).2.e)
    (n1 : NoActive d dmax w1 p1 w1'.ctl.control.e) (n2 : NoActive d dmax w2 p2 w2'.ctl.control.e)
    (h3 : ∀ i ∈ w3.ctl.spConstr, ¬ (w3.cons i).userData.IsEquality → (w3.cons i).userData.Holds d
      (Spec.traj d w3 p3 (mix a w1'.ctl.control.e w2'.ctl.control.e)) (mix a w1'.ctl.control.e w2'.ctl.control.e))
    (r3 : w3.ctl.spBoundConstr = [] → ∀ j < d.m * d.N, |mix a w1'.ctl.control.e w2'.ctl.control.e j| ≤ dmax) :
    IsOptimal q3 (mix a w1'.ctl.control.e w2'.ctl.control.e) := by
  rw [← c40_control_is_answer S1.plain S1.solve] at o1
  rw [← c40_control_is_answer S2.plain S2.solve] at o2
  generalize w1'.ctl.control.e = U1 at *
  generalize w2'.ctl.control.e = U2 at *
  have F1 := fun U => c30_feasible_set S1.hist (fun _ _ h => h.1) S1.allowed S1.plain S1.clean S1.honest S1.solve S1.ps U
  have F2 := fun U => c30_feasible_set S2.hist (fun _ _ h => h.1) S2.allowed S2.plain S2.clean S2.honest S2.solve S2.ps U
  have F3 := fun U => c30_feasible_set S3.hist (fun _ _ h => h.1) S3.allowed S3.plain S3.clean S3.honest S3.solve S3.ps U
  have T : ∀ k ≤ d.N, ∀ r < d.n, Spec.traj d w3 p3 (mix a U1 U2) k r = mix a (Spec.traj d w1 p1 U1 k) (Spec.traj d w2 p2 U2 k) r := by
    intro k hk r hr
    unfold Spec.traj
    rw [sim_congr d _ _ _ (V := mix a U1 U2) hx (fun _ _ => rfl) k hk r hr, sim_mix, R1.A, R1.B, R1.bias, R2.A, R2.B, R2.bias]
  have feas : Feasible q3 (mix a U1 U2) := by
    refine (F3 _).2 ⟨fun i hi => ?_, fun hb j hj => abs_le.1 (r3 hb j hj)⟩
    by_cases he : (w3.cons i).userData.IsEquality
    · have a1 := (AlikeButStart.mem R1 fun D => D.Holds d (Spec.traj d w1 p1 U1) U1).1 ((F1 U1).1 o1.1).1 i hi
      have a2 := (AlikeButStart.mem R2 fun D => D.Holds d (Spec.traj d w2 p2 U2) U2).1 ((F2 U2).1 o2.1).1 i hi
      exact (holds_congr_traj T _).2 (holds_mix_eq he a a1 a2)
    · exact h3 i hi he
  refine ⟨feas, fun V hV => ?_⟩
  obtain ⟨k1, O1⟩ := c32_objective S1.hist S1.allowed S1.plain f1 S1.solve S1.ps
  obtain ⟨k2, O2⟩ := c32_objective S2.hist S2.allowed S2.plain f2 S2.solve S2.ps
  obtain ⟨k3, O3⟩ := c32_objective S3.hist S3.allowed S3.plain f3 S3.solve S3.ps
  obtain ⟨g, h, line, aff, nn⟩ := Curve.total (d := d) (p := p3) (registered_nonneg S3.hist fun _ _ h => h.2)
  dsimp only at line
  have z1 : g (w1.pss p1).x0.e U1 (fun j => V j - mix a U1 U2 j) = 0 := by
    obtain ⟨δ, h0, H⟩ := small_steps S1 S3 R1 o1.1 n1 hV feas
    refine slope_zero h0 (h := h fun j => V j - mix a U1 U2 j) fun t ht => ?_
    have := o1.2 _ (H t ht)
    rw [O1, O1, AlikeButStart.total R1, AlikeButStart.total R1, line _ _ (fun j => V j - mix a U1 U2 j)] at this
    linarith
  have z2 : g (w2.pss p2).x0.e U2 (fun j => V j - mix a U1 U2 j) = 0 := by
    obtain ⟨δ, h0, H⟩ := small_steps S2 S3 R2 o2.1 n2 hV feas
    refine slope_zero h0 (h := h fun j => V j - mix a U1 U2 j) fun t ht => ?_
    have := o2.2 _ (H t ht)
    rw [O2, O2, AlikeButStart.total R2, AlikeButStart.total R2, line _ _ (fun j => V j - mix a U1 U2 j)] at this
    linarith
  have tot : ∀ U, totalCost d w3 p3 U = totalCostFrom d w3 p3 (mix a (w1.pss p1).x0.e (w2.pss p2).x0.e) U := by
    intro U
    unfold totalCost totalCostFrom
    have : ∀ k ≤ d.N, ∀ r < d.n, Spec.traj d w3 p3 U k r = trajFrom d w3 p3 (mix a (w1.pss p1).x0.e (w2.pss p2).x0.e) U k r := by
      intro k hk r hr
      unfold Spec.traj Spec.trajFrom
      exact sim_congr d _ _ _ hx (fun _ _ => rfl) k hk r hr
    simp only [value_congr_traj this]
  have eV : V = fun j => mix a U1 U2 j + 1 * (V j - mix a U1 U2 j) := by funext j; ring
  rw [O3, O3, tot, tot]
  conv_rhs => rw [eV]
  rw [line _ _ (fun j => V j - mix a U1 U2 j), aff, z1, z2]
  have := nn fun j => V j - mix a U1 U2 j
  linarith

/-- **C94**, the results: when the third solve succeeds too and returns a minimiser, its `control()` and `trajectory()` are the
same combination of the first two. -/
theorem c94_affine_results (S1 : PlainSolve d dmax w1 g1 p1 e1 w1' true q1) (S2 : PlainSolve d dmax w2 g2 p2 e2 w2' true q2)
    (S3 : PlainSolve d dmax w3 g3 p3 e3 w3' true q3) (R1 : AlikeButStart w1 p1 w3 p3) (R2 : AlikeButStart w2 p2 w3 p3)
    (hx : ∀ r < d.n, (w3.pss p3).x0.e r = mix a (w1.pss p1).x0.e (w2.pss p2).x0.e r)
    (f1 : CostsFresh d w1 g1) (f2 : CostsFresh d w2 g2) (f3 : CostsFresh d w3 g3)
    (o1 : IsOptimal q1 (e1.answer q1).2.e) (o2 : IsOptimal q2 (e2.answer q2).2.e) (o3 : IsOptimal q3 (e3.answer q3).2.e)
    (n1 : NoActive d dmax w1 p1 w1'.ctl.control.e) (n2 : NoActive d dmax w2 p2 w2'.ctl.control.e)
    (h3 : ∀ i ∈ w3.ctl.spConstr, ¬ (w3.cons i).userData.IsEquality → (w3.cons i).userData.Holds d
      (Spec.traj d w3 p3 (mix a w1'.ctl.control.e w2'.ctl.control.e)) (mix a w1'.ctl.control.e w2'.ctl.control.e))
    (r3 : w3.ctl.spBoundConstr = [] → ∀ j < d.m * d.N, |mix a w1'.ctl.control.e w2'.ctl.control.e j| ≤ dmax) :
    (∀ j < d.m * d.N, w3'.ctl.control.e j = a * w1'.ctl.control.e j + (1 - a) * w2'.ctl.control.e j) ∧
    ∀ k ≤ d.N, ∀ r < d.n, w3'.ctl.trajectory.e (k * d.n + r) =
      a * w1'.ctl.trajectory.e (k * d.n + r) + (1 - a) * w2'.ctl.trajectory.e (k * d.n + r) := by
  have O := c94_affine S1 S2 S3 R1 R2 hx f1 f2 f3 o1 o2 n1 n2 h3 r3
  have U := c29_unique_minimiser S3.hist (fun _ _ h => h.2) S3.allowed S3.plain S3.solve o3 O
  have nv : q3.nrVar = d.m * d.N := by
    obtain ⟨_, _, _, e, _, _, v⟩ := c50_solve_defined S3.hist S3.allowed
    rw [S3.solve] at e; cases e
    rw [v]; unfold numVars; rw [S3.plain]; rfl
  rw [← c40_control_is_answer S3.plain S3.solve] at U
  have c : ∀ j < d.m * d.N, w3'.ctl.control.e j = mix a w1'.ctl.control.e w2'.ctl.control.e j := fun j hj => U j (by rw [nv]; exact hj)
  refine ⟨c, fun k hk r hr => ?_⟩
  have T1 := ((c40_success S1.hist S1.allowed S1.solve S1.ps).2.1 S1.plain).2.2 k r hk hr
  have T2 := ((c40_success S2.hist S2.allowed S2.solve S2.ps).2.1 S2.plain).2.2 k r hk hr
  have T3 := ((c40_success S3.hist S3.allowed S3.solve S3.ps).2.1 S3.plain).2.2 k r hk hr
  rw [T1, T2, T3]
  unfold Spec.traj
  rw [sim_congr d _ _ _ hx c k hk r hr, sim_mix, R1.A, R1.B, R1.bias, R2.A, R2.B, R2.bias]
  rfl

end World
end
end Copra
