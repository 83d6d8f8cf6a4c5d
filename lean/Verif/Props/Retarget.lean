import Verif.SpecRetarget
import Verif.Props.Convex
import Verif.Props.Replan
import Verif.Props.Tune

/-! # C111: moving references -/

namespace Copra
open Spec

set_option linter.unusedSectionVars false
set_option maxRecDepth 100000

section
variable {K : Type} [Field K] [LinearOrder K] [IsStrictOrderedRing K] {d : Dims}

theorem wsq_cross {n : Nat} {w p z : Vec K} (hz : ∀ r < n, z.e r = 0) {t : K} {y1 y2 ym yd : Nat → K}
    (hm : ∀ r < n, ym r = t * y1 r + (1 - t) * y2 r) (hd : ∀ r < n, yd r = y1 r - y2 r) :
    wsq n w p ym = t * wsq n w p y1 + (1 - t) * wsq n w p y2 - t * (1 - t) * wsq n w z yd := by
  unfold wsq
  rw [Finset.mul_sum, Finset.mul_sum, Finset.mul_sum, ← Finset.sum_add_distrib, ← Finset.sum_sub_distrib]
  refine Finset.sum_congr rfl fun r hr => ?_
  rw [hm r (Finset.mem_range.1 hr), hd r (Finset.mem_range.1 hr), hz r (Finset.mem_range.1 hr)]
  ring

theorem sum_diff (s : Finset Nat) (e x y : Nat → K) :
    ∑ c ∈ s, e c * (x c - y c) = (∑ c ∈ s, e c * x c) - ∑ c ∈ s, e c * y c := by
  rw [← Finset.sum_sub_distrib]; exact Finset.sum_congr rfl fun c _ => by ring

theorem sum2_diff (s t : Finset Nat) (e X Y : Nat → Nat → K) :
    ∑ k ∈ s, ∑ c ∈ t, e k c * (X k c - Y k c) = (∑ k ∈ s, ∑ c ∈ t, e k c * X k c) - ∑ k ∈ s, ∑ c ∈ t, e k c * Y k c := by
  rw [← Finset.sum_sub_distrib]; exact Finset.sum_congr rfl fun k _ => sum_diff _ _ _ _

theorem ctrl_diff (U V : Nat → K) (k c : Nat) : ctrl d (fun j => U j - V j) k c = ctrl d U k c - ctrl d V k c := rfl

/-- A cost at the average of two plans, exactly. -/
theorem value_mix_eq (t : K) (X Y : Nat → Nat → K) (U V : Nat → K) (D : CostData K) :
    D.value d (fun k => mix t (X k) (Y k)) (mix t U V) =
      t * D.value d X U + (1 - t) * D.value d Y V - t * (1 - t) * outputsMoved d D X Y U V := by
  have S : ∀ (n : Nat) (f g h e : Nat → K), (∀ k < n, f k = t * g k + (1 - t) * h k - t * (1 - t) * e k) →
      ∑ k ∈ Finset.range n, f k = t * (∑ k ∈ Finset.range n, g k) + (1 - t) * (∑ k ∈ Finset.range n, h k) -
        t * (1 - t) * ∑ k ∈ Finset.range n, e k := by
    intro n f g h e H
    rw [Finset.mul_sum, Finset.mul_sum, Finset.mul_sum, ← Finset.sum_add_distrib, ← Finset.sum_sub_distrib]
    exact Finset.sum_congr rfl fun k hk => H k (Finset.mem_range.1 hk)
  unfold outputsMoved
  cases D <;> simp only [CostData.value, CostData.homogeneous]
  case trajectory M p w =>
    split
    · exact S _ _ _ _ _ fun k _ => wsq_cross (fun _ _ => rfl) (fun r _ => sum_mix t _ _ _ _) fun r _ => sum_diff _ _ _ _
    · exact wsq_cross (fun _ _ => rfl) (fun r _ => sum2_mix t _ _ (fun k c => M.e r (k * d.n + c)) _ _) fun r _ =>
        sum2_diff _ _ (fun k c => M.e r (k * d.n + c)) _ _
  case target M p w => exact wsq_cross (fun _ _ => rfl) (fun r _ => sum_mix t _ _ _ _) fun r _ => sum_diff _ _ _ _
  case control N p w =>
    split
    · exact S _ _ _ _ _ fun k _ => wsq_cross (fun _ _ => rfl) (fun r _ => sum_mix t _ _ _ _) fun r _ => sum_diff _ _ _ _
    · exact wsq_cross (fun _ _ => rfl) (fun r _ => sum2_mix t _ _ (fun k c => N.e r (k * d.m + c)) (ctrl d U) (ctrl d V)) fun r _ =>
        sum2_diff _ _ (fun k c => N.e r (k * d.m + c)) (ctrl d U) (ctrl d V)
  case mixed M N p w =>
    split
    · refine S _ _ _ _ _ fun k _ => wsq_cross (fun _ _ => rfl) (fun r _ => ?_) fun r _ => ?_
      · rw [ctrl_mix, sum_mix, sum_mix]; ring
      · simp only [ctrl_diff]
        rw [sum_diff, sum_diff]; ring
    · refine wsq_cross (fun _ _ => rfl) (fun r _ => ?_) fun r _ => ?_
      · simp only [ctrl_mix]
        rw [sum2_mix t _ _ (fun k c => M.e r (k * d.n + c)), sum2_mix t _ _ (fun k c => N.e r (k * d.m + c))]; ring
      · simp only [ctrl_diff]
        rw [sum2_diff _ _ (fun k c => M.e r (k * d.n + c)), sum2_diff _ _ (fun k c => N.e r (k * d.m + c))]; ring

/-- What two squared distances to two references differ by when the points are exchanged. -/
theorem wsq_exchange {n : Nat} {w p1 p2 z : Vec K} (hz : ∀ r < n, z.e r = 0) {a b : K} (hw : ∀ r < n, 0 ≤ w.e r)
    (hab : 4 * a * b = 1) (ha : 0 < a) {y1 y2 yd : Nat → K} (hd : ∀ r < n, yd r = y1 r - y2 r) :
    wsq n w p1 y2 - wsq n w p1 y1 + wsq n w p2 y1 - wsq n w p2 y2 ≤
      2 * (a * wsq n w z yd + b * ∑ r ∈ Finset.range n, w.e r * (p1.e r - p2.e r) ^ 2) := by
  unfold wsq
  rw [mul_add, ← mul_assoc, ← mul_assoc, Finset.mul_sum, Finset.mul_sum, ← Finset.sum_sub_distrib, ← Finset.sum_add_distrib,
    ← Finset.sum_sub_distrib, ← Finset.sum_add_distrib]
  refine Finset.sum_le_sum fun r hr => ?_
  have hr := Finset.mem_range.1 hr
  rw [hd r hr, hz r hr]
  have h := hw r hr
  generalize y1 r = u at *
  generalize y2 r = v at *
  generalize p1.e r = p at *
  generalize p2.e r = q at *
  generalize w.e r = c at *
  have key : 0 ≤ a * (u - v) ^ 2 + b * (p - q) ^ 2 - (u - v) * (p - q) := by
    have : a * (a * (u - v) ^ 2 + b * (p - q) ^ 2 - (u - v) * (p - q)) = (a * (u - v) - (p - q) / 2) ^ 2 := by
      have : a * b = 1 / 4 := by linarith
      linear_combination (p - q) ^ 2 * this
    have h2 : 0 ≤ a * (a * (u - v) ^ 2 + b * (p - q) ^ 2 - (u - v) * (p - q)) := by rw [this]; exact sq_nonneg _
    exact nonneg_of_mul_nonneg_right h2 ha
  have := mul_nonneg h key
  nlinarith

theorem value_exchange {D1 D2 : CostData K} (h : D1.SameButRef D2) (hw : D1.Nonneg) {a b : K} (hab : 4 * a * b = 1) (ha : 0 < a)
    (X Y : Nat → Nat → K) (U V : Nat → K) :
    D1.value d Y V - D1.value d X U + D2.value d X U - D2.value d Y V ≤
      2 * (a * outputsMoved d D1 X Y U V + b * refMoved d D1 D2) := by
  have S : ∀ (n : Nat) (f1 f2 f3 f4 g : Nat → K) (c : K), (∀ k < n, f1 k - f2 k + f3 k - f4 k ≤ 2 * (a * g k + b * c)) →
      (∑ k ∈ Finset.range n, f1 k) - (∑ k ∈ Finset.range n, f2 k) + (∑ k ∈ Finset.range n, f3 k) - (∑ k ∈ Finset.range n, f4 k) ≤
        2 * (a * (∑ k ∈ Finset.range n, g k) + b * ((n : K) * c)) := by
    intro n f1 f2 f3 f4 g c H
    have e : 2 * (a * (∑ k ∈ Finset.range n, g k) + b * ((n : K) * c)) = ∑ k ∈ Finset.range n, 2 * (a * g k + b * c) := by
      rw [← Finset.mul_sum, Finset.sum_add_distrib, Finset.sum_const, Finset.card_range, nsmul_eq_mul, Finset.mul_sum]
      ring
    rw [e, ← Finset.sum_sub_distrib, ← Finset.sum_add_distrib, ← Finset.sum_sub_distrib]
    exact Finset.sum_le_sum fun k hk => H k (Finset.mem_range.1 hk)
  unfold outputsMoved refMoved
  cases D1 <;> cases D2 <;> simp only [CostData.SameButRef] at h
  case trajectory.trajectory M1 p1 w1 M2 p2 w2 =>
    obtain ⟨rfl, rfl⟩ := h
    simp only [CostData.value, CostData.homogeneous, CostData.times, CostData.outputs, CostData.wts, CostData.ref]
    split
    · exact S _ _ _ _ _ _ _ fun k _ => wsq_exchange (fun _ _ => rfl) hw hab ha fun r _ => sum_diff _ _ _ _
    · rw [Nat.cast_one, one_mul]
      exact wsq_exchange (fun _ _ => rfl) hw hab ha fun r _ => sum2_diff _ _ (fun k c => M1.e r (k * d.n + c)) _ _
  case target.target M1 p1 w1 M2 p2 w2 =>
    obtain ⟨rfl, rfl⟩ := h
    simp only [CostData.value, CostData.homogeneous, CostData.times, CostData.outputs, CostData.wts, CostData.ref]
    rw [Nat.cast_one, one_mul]
    exact wsq_exchange (fun _ _ => rfl) hw hab ha fun r _ => sum_diff _ _ _ _
  case control.control N1 p1 w1 N2 p2 w2 =>
    obtain ⟨rfl, rfl⟩ := h
    simp only [CostData.value, CostData.homogeneous, CostData.times, CostData.outputs, CostData.wts, CostData.ref]
    split
    · exact S _ _ _ _ _ _ _ fun k _ => wsq_exchange (fun _ _ => rfl) hw hab ha fun r _ => sum_diff _ _ _ _
    · rw [Nat.cast_one, one_mul]
      exact wsq_exchange (fun _ _ => rfl) hw hab ha fun r _ =>
        sum2_diff _ _ (fun k c => N1.e r (k * d.m + c)) (ctrl d U) (ctrl d V)
  case mixed.mixed M1 N1 p1 w1 M2 N2 p2 w2 =>
    obtain ⟨rfl, rfl, rfl⟩ := h
    simp only [CostData.value, CostData.homogeneous, CostData.times, CostData.outputs, CostData.wts, CostData.ref]
    split
    · refine S _ _ _ _ _ _ _ fun k _ => wsq_exchange (fun _ _ => rfl) hw hab ha fun r _ => ?_
      simp only [ctrl_diff]
      rw [sum_diff, sum_diff]; ring
    · rw [Nat.cast_one, one_mul]
      refine wsq_exchange (fun _ _ => rfl) hw hab ha fun r _ => ?_
      simp only [ctrl_diff]
      rw [sum2_diff _ _ (fun k c => M1.e r (k * d.n + c)), sum2_diff _ _ (fun k c => N1.e r (k * d.m + c))]; ring

theorem outputsMoved_nonneg {D : CostData K} (hw : D.Nonneg) (X Y : Nat → Nat → K) (U V : Nat → K) : 0 ≤ outputsMoved d D X Y U V := by
  unfold outputsMoved
  refine value_nonneg' ?_ _ _
  cases D <;> exact hw

/-- A function which is at least as large at all points of a segment as at one end grows to the other end by what its
curvature says. -/
theorem strong_of_mix {f0 f1 M : K} (h : ∀ t : K, 0 < t → t ≤ 1 → f0 ≤ t * f1 + (1 - t) * f0 - 1 / 2 * (t * (1 - t)) * M) (hM : 0 ≤ M) :
    M / 2 ≤ f1 - f0 := by
  by_contra hlt
  have hd : 0 < M / 2 - (f1 - f0) := by linarith
  let t := min 1 ((M / 2 - (f1 - f0)) / (M + 1))
  have hp : 0 < M + 1 := by linarith
  have t0 : 0 < t := lt_min one_pos (div_pos hd hp)
  have t1 : t ≤ 1 := min_le_left _ _
  have t2 : t * (M + 1) ≤ M / 2 - (f1 - f0) := by
    rw [← le_div_iff₀ hp]; exact min_le_right _ _
  have H := h t t0 t1
  have : 0 ≤ t * ((f1 - f0) - 1 / 2 * (1 - t) * M) := by linarith
  have : 0 ≤ (f1 - f0) - 1 / 2 * (1 - t) * M := nonneg_of_mul_nonneg_right this t0
  nlinarith

namespace World
variable {dmax : K} {w1 w2 w1' w2' : World K} {g1 g2 : Ghost} {p1 p2 : Nat} {e1 e2 : SolveEnv K} {b1 b2 : Bool} {q1 q2 : QP K}
  {l : List (CostData K × CostData K)}

theorem Retargeted.traj (T : Retargeted w1 p1 w2 p2 l) (U : Nat → K) : Spec.traj d w2 p2 U = Spec.traj d w1 p1 U := by
  unfold Spec.traj; rw [T.A, T.B, T.bias, T.x0]

/-- The sum of the movements of the outputs. -/
def allOutputsMoved (d : Dims) (w : World K) (p : Nat) (l : List (CostData K × CostData K)) (U V : Nat → K) : K :=
  (l.map fun c => outputsMoved d c.1 (Spec.traj d w p U) (Spec.traj d w p V) U V).sum

/-- The sum of the movements of the references. -/
def allRefsMoved (d : Dims) (l : List (CostData K × CostData K)) : K := (l.map fun c => refMoved d c.1 c.2).sum

/-- The squared distance of two control sequences. -/
def controlsMoved (d : Dims) (U V : Nat → K) : K := ∑ j ∈ Finset.range (d.m * d.N), (U j - V j) ^ 2

theorem outputsMoved_same {D1 D2 : CostData K} (h : D1.SameButRef D2) (X Y : Nat → Nat → K) (U V : Nat → K) :
    outputsMoved d D2 X Y U V = outputsMoved d D1 X Y U V := by
  unfold outputsMoved
  cases D1 <;> cases D2 <;> simp only [CostData.SameButRef] at h
  case trajectory.trajectory => obtain ⟨rfl, rfl⟩ := h; rfl
  case target.target => obtain ⟨rfl, rfl⟩ := h; rfl
  case control.control => obtain ⟨rfl, rfl⟩ := h; rfl
  case mixed.mixed => obtain ⟨rfl, rfl, rfl⟩ := h; rfl

theorem traj_mix (w : World K) (p : Nat) (t : K) (U V : Nat → K) :
    Spec.traj d w p (mix t U V) = fun k => mix t (Spec.traj d w p U k) (Spec.traj d w p V k) := by
  funext k
  have e : mix t (w.pss p).x0.e (w.pss p).x0.e = (w.pss p).x0.e := by funext j; unfold mix; ring
  have := sim_mix d (w.pss p).A (w.pss p).B (w.pss p).d t (w.pss p).x0.e (w.pss p).x0.e U V k
  rw [e] at this
  exact this

/-- The total cost of a program is as curved as its costs and the regularisation together. -/
theorem totalCost_mix_eq {w : World K} {p : Nat} {c : List (CostData K)}
    (h : (w.ctl.spCost.map fun i => (w.costs i).userData).Perm c) (t : K) (U V : Nat → K) :
    World.totalCost d w p (mix t U V) = t * World.totalCost d w p U + (1 - t) * World.totalCost d w p V -
      1 / 2 * (t * (1 - t)) * ((c.map fun D => outputsMoved d D (Spec.traj d w p U) (Spec.traj d w p V) U V).sum +
        1 / 1000000 * controlsMoved d U V) := by
  have s := fun X U => (h.map fun D => D.value d X U).sum_eq
  simp only [List.map_map, Function.comp_def] at s
  have L : (c.map fun D => D.value d (Spec.traj d w p (mix t U V)) (mix t U V)).sum =
      t * (c.map fun D => D.value d (Spec.traj d w p U) U).sum + (1 - t) * (c.map fun D => D.value d (Spec.traj d w p V) V).sum -
        t * (1 - t) * (c.map fun D => outputsMoved d D (Spec.traj d w p U) (Spec.traj d w p V) U V).sum := by
    clear s h
    induction c with
    | nil => simp
    | cons D c ih =>
      simp only [List.map_cons, List.sum_cons]
      rw [ih, traj_mix, value_mix_eq]; ring
  have R : ∑ j ∈ Finset.range (d.m * d.N), mix t U V j ^ 2 = t * (∑ j ∈ Finset.range (d.m * d.N), U j ^ 2) +
      (1 - t) * (∑ j ∈ Finset.range (d.m * d.N), V j ^ 2) - t * (1 - t) * controlsMoved d U V := by
    unfold controlsMoved
    rw [Finset.mul_sum, Finset.mul_sum, Finset.mul_sum, ← Finset.sum_add_distrib, ← Finset.sum_sub_distrib]
    exact Finset.sum_congr rfl fun j _ => by unfold mix; ring
  unfold World.totalCost
  rw [s, s, s, L, R]; ring

/-- **C111** (constraints): moving references does not change which controls are feasible. -/
theorem c111_feasible (S1 : PlainSolve d dmax w1 g1 p1 e1 w1' b1 q1) (S2 : PlainSolve d dmax w2 g2 p2 e2 w2' b2 q2)
    (T : Retargeted w1 p1 w2 p2 l) (U : Nat → K) : Feasible q1 U ↔ Feasible q2 U := by
  have hb : w1.ctl.spBoundConstr = [] ↔ w2.ctl.spBoundConstr = [] := by
    rw [bound_nil S1.hist.good S1.ps, bound_nil S2.hist.good S2.ps]
    exact ⟨fun H D hD => H D (T.cons.mem_iff.2 hD), fun H D hD => H D (T.cons.mem_iff.1 hD)⟩
  have hc : ∀ X : Nat → Nat → K, (∀ i ∈ w1.ctl.spConstr, (w1.cons i).userData.Holds d X U) ↔
      ∀ i ∈ w2.ctl.spConstr, (w2.cons i).userData.Holds d X U := by
    intro X
    constructor
    · intro H i hi
      obtain ⟨j, hj, e⟩ := List.mem_map.1 ((T.cons.mem_iff).2 (List.mem_map.2 ⟨i, hi, rfl⟩))
      exact e ▸ H j hj
    · intro H i hi
      obtain ⟨j, hj, e⟩ := List.mem_map.1 ((T.cons.mem_iff).1 (List.mem_map.2 ⟨i, hi, rfl⟩))
      exact e ▸ H j hj
  rw [c30_feasible_set S1.hist (fun _ _ h => h.1) S1.allowed S1.plain S1.clean S1.honest S1.solve S1.ps,
    c30_feasible_set S2.hist (fun _ _ h => h.1) S2.allowed S2.plain S2.clean S2.honest S2.solve S2.ps, Retargeted.traj T, hc, hb]

theorem feasible_mix {q : QP K} {t : K} (h0 : 0 ≤ t) (h1 : t ≤ 1)
    (S1 : PlainSolve d dmax w1 g1 p1 e1 w1' b1 q) {U V : Nat → K} (hU : Feasible q U) (hV : Feasible q V) : Feasible q (mix t U V) := by
  have c := fun U => c30_feasible_set S1.hist (fun _ _ h => h.1) S1.allowed S1.plain S1.clean S1.honest S1.solve S1.ps U
  rw [c] at hU hV ⊢
  refine ⟨fun i hi => ?_, fun hb j hj => ?_⟩
  · rw [traj_mix]; exact holds_mix h0 h1 (hU.1 i hi) (hV.1 i hi)
  · exact ⟨(ge_mix_ext (b := .fin (-dmax)) h0 h1 (hU.2 hb j hj).1 (hV.2 hb j hj).1 :),
      (le_mix_ext (b := .fin dmax) h0 h1 (hU.2 hb j hj).2 (hV.2 hb j hj).2 :)⟩

/-- A feasible control sequence costs more than the plan by at least half of what the outputs and controls are away from those
of the plan. -/
theorem c111_growth (S : PlainSolve d dmax w1 g1 p1 e1 w1' true q1) (f : CostsFresh d w1 g1)
    (o : IsOptimal q1 (e1.answer q1).2.e) {c : List (CostData K)}
    (h : (w1.ctl.spCost.map fun i => (w1.costs i).userData).Perm c) {V : Nat → K} (hV : Feasible q1 V) :
    1 / 2 * ((c.map fun D => outputsMoved d D (Spec.traj d w1 p1 V) (Spec.traj d w1 p1 w1'.ctl.control.e) V w1'.ctl.control.e).sum +
        1 / 1000000 * controlsMoved d V w1'.ctl.control.e) ≤
      World.totalCost d w1 p1 V - World.totalCost d w1 p1 w1'.ctl.control.e := by
  obtain ⟨κ, O⟩ := c32_objective S.hist S.allowed S.plain f S.solve S.ps
  rw [← c40_control_is_answer S.plain S.solve] at o
  have nn : ∀ D ∈ c, D.Nonneg := by
    intro D hD
    obtain ⟨i, hi, rfl⟩ := List.mem_map.1 (h.mem_iff.2 hD)
    exact registered_nonneg S.hist (fun _ _ h => h.2) i hi
  have := strong_of_mix (f0 := World.totalCost d w1 p1 w1'.ctl.control.e) (f1 := World.totalCost d w1 p1 V)
    (M := (c.map fun D => outputsMoved d D (Spec.traj d w1 p1 V) (Spec.traj d w1 p1 w1'.ctl.control.e) V w1'.ctl.control.e).sum +
        1 / 1000000 * controlsMoved d V w1'.ctl.control.e) ?_ ?_
  · linarith
  · intro t h0 h1
    have le := o.2 _ (feasible_mix h0.le h1 S hV o.1)
    rw [O, O, totalCost_mix_eq h] at le
    linarith
  · refine add_nonneg (List.sum_nonneg fun x hx => ?_) (mul_nonneg (by norm_num) (Finset.sum_nonneg fun j _ => sq_nonneg _))
    obtain ⟨D, hD, rfl⟩ := List.mem_map.1 hx
    exact outputsMoved_nonneg (nn D hD) _ _ _ _

/-- **C111**: two programs differ in the references of their costs only, and both solvers return minimisers.  Then the outputs
that the costs compare with their references move by no more than the references themselves, all measured with the weights of
the costs, and even less if the controls move; and the controls move by at most 500 times the distance of the
references. -/
theorem c111_retargeted (S1 : PlainSolve d dmax w1 g1 p1 e1 w1' true q1) (S2 : PlainSolve d dmax w2 g2 p2 e2 w2' true q2)
    (T : Retargeted w1 p1 w2 p2 l) (f1 : CostsFresh d w1 g1) (f2 : CostsFresh d w2 g2)
    (o1 : IsOptimal q1 (e1.answer q1).2.e) (o2 : IsOptimal q2 (e2.answer q2).2.e) :
    allOutputsMoved d w1 p1 l w1'.ctl.control.e w2'.ctl.control.e +
        2 * (1 / 1000000 * controlsMoved d w1'.ctl.control.e w2'.ctl.control.e) ≤ allRefsMoved d l ∧
    controlsMoved d w1'.ctl.control.e w2'.ctl.control.e ≤ 500 ^ 2 * allRefsMoved d l := by
  have F1 := o1.1
  have F2 := o2.1
  rw [← c40_control_is_answer S1.plain S1.solve] at F1
  rw [← c40_control_is_answer S2.plain S2.solve] at F2
  have G1 := c111_growth S1 f1 o1 T.costs1 ((c111_feasible S1 S2 T _).2 F2)
  have G2 := c111_growth S2 f2 o2 T.costs2 ((c111_feasible S1 S2 T _).1 F1)
  generalize w1'.ctl.control.e = U at *
  generalize w2'.ctl.control.e = V at *
  have nn : ∀ c ∈ l, c.1.Nonneg := by
    intro c hc
    obtain ⟨i, hi, e⟩ := List.mem_map.1 (T.costs1.mem_iff.2 (List.mem_map.2 ⟨c, hc, rfl⟩))
    rw [← e]
    exact registered_nonneg S1.hist (fun _ _ h => h.2) i hi
  have cm : controlsMoved d V U = controlsMoved d U V := by
    unfold controlsMoved
    exact Finset.sum_congr rfl fun j _ => by ring
  have om : (l.map fun c => outputsMoved d c.1 (Spec.traj d w1 p1 V) (Spec.traj d w1 p1 U) V U).sum = allOutputsMoved d w1 p1 l U V := by
    unfold allOutputsMoved
    congr 1
    refine List.map_congr_left fun c _ => ?_
    have := value_mix_eq (d := d) (1/2) (Spec.traj d w1 p1 V) (Spec.traj d w1 p1 U) V U c.1
    have h2 := value_mix_eq (d := d) (1/2) (Spec.traj d w1 p1 U) (Spec.traj d w1 p1 V) U V c.1
    have eU : mix (1/2) V U = mix (1/2 : K) U V := by funext j; unfold mix; ring
    have eX : (fun k => mix (1/2) (Spec.traj d w1 p1 V k) (Spec.traj d w1 p1 U k)) =
        fun k => mix (1/2 : K) (Spec.traj d w1 p1 U k) (Spec.traj d w1 p1 V k) := by funext k j; unfold mix; ring
    rw [eU, eX, h2] at this
    linarith
  have om2 : (l.map fun c => outputsMoved d c.2 (Spec.traj d w2 p2 U) (Spec.traj d w2 p2 V) U V).sum = allOutputsMoved d w1 p1 l U V := by
    unfold allOutputsMoved
    rw [Retargeted.traj T, Retargeted.traj T]
    congr 1
    exact List.map_congr_left fun c hc => outputsMoved_same (T.pairs c hc) _ _ _ _
  rw [List.map_map] at G1 G2
  simp only [Function.comp_def] at G1 G2
  rw [om, cm] at G1
  rw [om2] at G2
  have E : ∀ a b : K, 4 * a * b = 1 → 0 < a →
      World.totalCost d w1 p1 V - World.totalCost d w1 p1 U + (World.totalCost d w2 p2 U - World.totalCost d w2 p2 V) ≤
        a * allOutputsMoved d w1 p1 l U V + b * allRefsMoved d l := by
    intro a b hab ha
    have s1 := fun X U => (T.costs1.map fun D => D.value d X U).sum_eq
    have s2 := fun X U => (T.costs2.map fun D => D.value d X U).sum_eq
    simp only [List.map_map, Function.comp_def] at s1 s2
    have L : ∀ l : List (CostData K × CostData K), (∀ c ∈ l, c.1.SameButRef c.2) → (∀ c ∈ l, c.1.Nonneg) →
        (l.map fun c => c.1.value d (Spec.traj d w1 p1 V) V).sum - (l.map fun c => c.1.value d (Spec.traj d w1 p1 U) U).sum +
          (l.map fun c => c.2.value d (Spec.traj d w1 p1 U) U).sum - (l.map fun c => c.2.value d (Spec.traj d w1 p1 V) V).sum ≤
        2 * (a * allOutputsMoved d w1 p1 l U V + b * allRefsMoved d l) := by
      intro l hp hn
      unfold allOutputsMoved allRefsMoved
      induction l with
      | nil => simp
      | cons c l ih =>
        simp only [List.map_cons, List.sum_cons]
        have h1 := ih (fun c hc => hp c (List.mem_cons_of_mem _ hc)) fun c hc => hn c (List.mem_cons_of_mem _ hc)
        have h2 := value_exchange (d := d) (hp c List.mem_cons_self) (hn c List.mem_cons_self) hab ha (Spec.traj d w1 p1 U)
          (Spec.traj d w1 p1 V) U V
        linarith
    have := L l T.pairs nn
    unfold World.totalCost
    rw [s1, s1, s2, s2, Retargeted.traj T, Retargeted.traj T]
    linarith
  have A := E (1/2) (1/2) (by norm_num) (by norm_num)
  have B := E 1 (1/4) (by norm_num) one_pos
  constructor <;> linarith

end World
end
end Copra
