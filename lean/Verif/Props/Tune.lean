import Verif.SpecTune
import Verif.Props.Convex
import Verif.Props.Replan
import Verif.Props.Weights

/-! # C109: turning up a weight -/

namespace Copra
open Spec

set_option linter.unusedSectionVars false
set_option maxRecDepth 100000

section
variable {K : Type} [Field K] [LinearOrder K] [IsStrictOrderedRing K] {d : Dims}

theorem wsq_scaled (n s : Nat) (w p : Vec K) (y : Nat → K) (a : K) : wsq n ⟨s, fun r => a * w.e r⟩ p y = a * wsq n w p y := by
  unfold wsq
  rw [Finset.mul_sum]
  exact Finset.sum_congr rfl fun r _ => by ring

theorem value_scaled (X : Nat → Nat → K) (U : Nat → K) (D : CostData K) (a : K) :
    (D.scaled a).value d X U = a * D.value d X U := by
  cases D <;> simp only [CostData.scaled, CostData.value]
  · split
    · rw [Finset.mul_sum]; exact Finset.sum_congr rfl fun k _ => wsq_scaled ..
    · exact wsq_scaled ..
  · exact wsq_scaled ..
  · split
    · rw [Finset.mul_sum]; exact Finset.sum_congr rfl fun k _ => wsq_scaled ..
    · exact wsq_scaled ..
  · split
    · rw [Finset.mul_sum]; exact Finset.sum_congr rfl fun k _ => wsq_scaled ..
    · exact wsq_scaled ..

/-- A cost with nonnegative weights is nonnegative. -/
theorem value_nonneg' {D : CostData K} (hw : D.Nonneg) (X : Nat → Nat → K) (U : Nat → K) : 0 ≤ D.value d X U := by
  have W : ∀ (n : Nat) (w p : Vec K) (y : Nat → K), (∀ r < n, 0 ≤ w.e r) → 0 ≤ wsq n w p y := fun n w p y h => by
    unfold wsq
    exact Finset.sum_nonneg fun r hr => mul_nonneg (h r (Finset.mem_range.1 hr)) (sq_nonneg _)
  cases D <;> simp only [CostData.value] <;> (try split) <;>
    first | exact Finset.sum_nonneg fun k _ => W _ _ _ _ hw | exact W _ _ _ _ hw

namespace World
variable {dmax : K} {w1 w2 w1' w2' : World K} {g1 g2 : Ghost} {p1 p2 : Nat} {e1 e2 : SolveEnv K} {b1 b2 : Bool} {q1 q2 : QP K}
  {D : CostData K} {a b : K} {rest : List (CostData K)}

theorem Turned.traj (T : Turned w1 p1 w2 p2 D a b rest) (U : Nat → K) : Spec.traj d w2 p2 U = Spec.traj d w1 p1 U := by
  unfold Spec.traj; rw [T.A, T.B, T.bias, T.x0]

theorem Turned.cost1 (T : Turned w1 p1 w2 p2 D a b rest) (U : Nat → K) :
    totalCost d w1 p1 U = 1 / 2 * a * D.value d (Spec.traj d w1 p1 U) U + restCost d w1 p1 rest U := by
  have pm := (T.costs1.map fun D => D.value d (Spec.traj d w1 p1 U) U).sum_eq
  rw [List.map_map, List.map_cons, List.sum_cons, value_scaled] at pm
  simp only [Function.comp_def] at pm
  unfold totalCost restCost
  rw [pm]; ring

theorem Turned.cost2 (T : Turned w1 p1 w2 p2 D a b rest) (U : Nat → K) :
    totalCost d w2 p2 U = 1 / 2 * b * D.value d (Spec.traj d w1 p1 U) U + restCost d w1 p1 rest U := by
  have pm := (T.costs2.map fun D => D.value d (Spec.traj d w2 p2 U) U).sum_eq
  rw [List.map_map, List.map_cons, List.sum_cons, value_scaled] at pm
  simp only [Function.comp_def] at pm
  unfold totalCost restCost
  rw [pm, Turned.traj T]; ring

/-- **C109** (constraints): a weight does not change which controls are feasible. -/
theorem c109_feasible (S1 : PlainSolve d dmax w1 g1 p1 e1 w1' b1 q1) (S2 : PlainSolve d dmax w2 g2 p2 e2 w2' b2 q2)
    (T : Turned w1 p1 w2 p2 D a b rest) (U : Nat → K) : Feasible q1 U ↔ Feasible q2 U := by
  have hb : w1.ctl.spBoundConstr = [] ↔ w2.ctl.spBoundConstr = [] := by
    rw [bound_nil S1.hist.good S1.ps, bound_nil S2.hist.good S2.ps]
    exact ⟨fun H D hD => H D (T.cons.mem_iff.2 hD), fun H D hD => H D (T.cons.mem_iff.1 hD)⟩
  have hc : ∀ X : Nat → Nat → K, (∀ i ∈ w1.ctl.spConstr, (w1.cons i).userData.Holds d X U) ↔
      ∀ i ∈ w2.ctl.spConstr, (w2.cons i).userData.Holds d X U := by
    intro X
    constructor
    · intro H i hi
      obtain ⟨j, hj, e⟩ := List.mem_map.1 ((T.cons.mem_iff).2 (List.mem_map.2 ⟨i, hi, rfl⟩))
      exact e ▸ H j hj
    · intro H i hi
      obtain ⟨j, hj, e⟩ := List.mem_map.1 ((T.cons.mem_iff).1 (List.mem_map.2 ⟨i, hi, rfl⟩))
      exact e ▸ H j hj
  rw [c30_feasible_set S1.hist (fun _ _ h => h.1) S1.allowed S1.plain S1.clean S1.honest S1.solve S1.ps,
    c30_feasible_set S2.hist (fun _ _ h => h.1) S2.allowed S2.plain S2.clean S2.honest S2.solve S2.ps, Turned.traj T, hc, hb]

/-- What the two minimisers say about each other. -/
theorem turned_compare (S1 : PlainSolve d dmax w1 g1 p1 e1 w1' true q1) (S2 : PlainSolve d dmax w2 g2 p2 e2 w2' true q2)
    (T : Turned w1 p1 w2 p2 D a b rest) (f1 : CostsFresh d w1 g1) (f2 : CostsFresh d w2 g2)
    (o1 : IsOptimal q1 (e1.answer q1).2.e) (o2 : IsOptimal q2 (e2.answer q2).2.e) :
    totalCost d w1 p1 w1'.ctl.control.e ≤ totalCost d w1 p1 w2'.ctl.control.e ∧
    totalCost d w2 p2 w2'.ctl.control.e ≤ totalCost d w2 p2 w1'.ctl.control.e := by
  obtain ⟨κ1, O1⟩ := c32_objective S1.hist S1.allowed S1.plain f1 S1.solve S1.ps
  obtain ⟨κ2, O2⟩ := c32_objective S2.hist S2.allowed S2.plain f2 S2.solve S2.ps
  rw [← c40_control_is_answer S1.plain S1.solve] at o1
  rw [← c40_control_is_answer S2.plain S2.solve] at o2
  have l1 := o1.2 _ ((c109_feasible S1 S2 T _).2 o2.1)
  have l2 := o2.2 _ ((c109_feasible S1 S2 T _).1 o1.1)
  rw [O1, O1] at l1
  rw [O2, O2] at l2
  constructor <;> linarith

/-- **C109**: two programs differ in the weight of one cost, `a` in the first and the larger `b` in the second.  When both
solvers return minimisers, the plan of the second program does at least as well as that of the first one in that cost; and,
for `0 ≤ a`, no better in the other costs and the regularisation together. -/
theorem c109_turned_up (S1 : PlainSolve d dmax w1 g1 p1 e1 w1' true q1) (S2 : PlainSolve d dmax w2 g2 p2 e2 w2' true q2)
    (T : Turned w1 p1 w2 p2 D a b rest) (hab : a < b) (f1 : CostsFresh d w1 g1) (f2 : CostsFresh d w2 g2)
    (o1 : IsOptimal q1 (e1.answer q1).2.e) (o2 : IsOptimal q2 (e2.answer q2).2.e) :
    D.value d (Spec.traj d w2 p2 w2'.ctl.control.e) w2'.ctl.control.e ≤
      D.value d (Spec.traj d w1 p1 w1'.ctl.control.e) w1'.ctl.control.e ∧
    (0 ≤ a → restCost d w1 p1 rest w1'.ctl.control.e ≤ restCost d w2 p2 rest w2'.ctl.control.e) := by
  obtain ⟨l1, l2⟩ := turned_compare S1 S2 T f1 f2 o1 o2
  rw [Turned.cost1 T, Turned.cost1 T] at l1
  rw [Turned.cost2 T, Turned.cost2 T] at l2
  have hr : restCost d w2 p2 rest w2'.ctl.control.e = restCost d w1 p1 rest w2'.ctl.control.e := by
    unfold restCost; rw [Turned.traj T]
  rw [Turned.traj T, hr]
  have key : (b - a) * D.value d (Spec.traj d w1 p1 w2'.ctl.control.e) w2'.ctl.control.e ≤
      (b - a) * D.value d (Spec.traj d w1 p1 w1'.ctl.control.e) w1'.ctl.control.e := by linarith
  have v := le_of_mul_le_mul_left key (by linarith)
  refine ⟨v, fun ha => ?_⟩
  have := mul_le_mul_of_nonneg_left v ha
  linarith

/-- **C109** (penalties): a cost with a large weight `b` acts as a soft constraint: for every feasible control sequence `y`,
the plan is worse than `y` in that cost by at most twice what `y` costs otherwise, divided by `b`. -/
theorem c109_penalty (S : PlainSolve d dmax w1 g1 p1 e1 w1' true q1)
    (hc : (w1.ctl.spCost.map fun i => (w1.costs i).userData).Perm (D.scaled b :: rest)) (hb : 0 < b)
    (hn : ∀ C ∈ rest, C.Nonneg) (f : CostsFresh d w1 g1) (o : IsOptimal q1 (e1.answer q1).2.e) {y : Nat → K} (hy : Feasible q1 y) :
    D.value d (Spec.traj d w1 p1 w1'.ctl.control.e) w1'.ctl.control.e ≤
      D.value d (Spec.traj d w1 p1 y) y + 2 * restCost d w1 p1 rest y / b := by
  have T : Turned w1 p1 w1 p1 D b b rest := ⟨rfl, rfl, rfl, rfl, .refl _, hc, hc⟩
  obtain ⟨κ, O⟩ := c32_objective S.hist S.allowed S.plain f S.solve S.ps
  rw [← c40_control_is_answer S.plain S.solve] at o
  have l := o.2 _ hy
  rw [O, O, Turned.cost1 T, Turned.cost1 T] at l
  have nn : 0 ≤ restCost d w1 p1 rest w1'.ctl.control.e := by
    unfold restCost
    refine add_nonneg (mul_nonneg (by norm_num) (List.sum_nonneg fun x hx => ?_))
      (mul_nonneg (by norm_num) (Finset.sum_nonneg fun j _ => sq_nonneg _))
    obtain ⟨C, hC, rfl⟩ := List.mem_map.1 hx
    exact value_nonneg' (hn C hC) _ _
  have : D.value d (Spec.traj d w1 p1 w1'.ctl.control.e) w1'.ctl.control.e - D.value d (Spec.traj d w1 p1 y) y ≤
      2 * restCost d w1 p1 rest y / b := by
    rw [le_div_iff₀ hb]
    linarith
  linarith

/-- **C109** (`weight`): calling `weight(a)` or `weight(b)` on a cost that is registered once leads to two such programs. -/
theorem c109_weight {w wa wb : World K} {p i : Nat} (hi : w.ctl.spCost.count i = 1)
    (ha : w.step dmax (.weight i a) = .ok wa) (hb : w.step dmax (.weight i b) = .ok wb) :
    Turned wa p wb p (reweighted (fun _ => 1) (w.costs i).userData) a b
      ((w.ctl.spCost.erase i).map fun j => (w.costs j).userData) := by
  have ea : wa = { w with costs := upd w.costs i ((w.costs i).setWeight a) } := by
    simp only [step] at ha; injection ha with h; exact h.symm
  have eb : wb = { w with costs := upd w.costs i ((w.costs i).setWeight b) } := by
    simp only [step] at hb; injection hb with h; exact h.symm
  have hm : i ∈ w.ctl.spCost := List.count_pos_iff.1 (by omega)
  have ni : i ∉ w.ctl.spCost.erase i := List.count_eq_zero.1 (by rw [List.count_erase_self]; omega)
  have key : ∀ c : K, (w.ctl.spCost.map fun j => (upd w.costs i ((w.costs i).setWeight c) j).userData).Perm
      ((reweighted (fun _ => 1) (w.costs i).userData).scaled c :: (w.ctl.spCost.erase i).map fun j => (w.costs j).userData) := by
    intro c
    refine ((List.perm_cons_erase hm).map _).trans ?_
    rw [List.map_cons, upd_same]
    have e1 : ((w.costs i).setWeight c).userData = (reweighted (fun _ => 1) (w.costs i).userData).scaled c := by
      refine (userData_weights _ (Vec.const (w.costs i).weights.rows c) rfl).trans ?_
      cases (w.costs i).userData <;> simp only [reweighted, CostData.scaled, mul_one] <;> rfl
    rw [e1]
    refine List.Perm.cons _ (List.Perm.of_eq (List.map_congr_left fun j hj => ?_))
    rw [upd_ne _ _ (show j ≠ i from fun e => ni (e.subst (motive := fun k => k ∈ w.ctl.spCost.erase i) hj))]
  subst ea eb
  exact ⟨rfl, rfl, rfl, rfl, .refl _, key a, key b⟩

end World
end
end Copra
