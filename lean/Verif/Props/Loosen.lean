import Verif.SpecLoosen
import Verif.Props.Convex
import Verif.Props.Replan
import Verif.Props.Scale
import Verif.Props.Answer
import Verif.Props.InitRemoval

/-! # C110: loosening limits -/

namespace Copra
open Spec

set_option linter.unusedSectionVars false
set_option maxRecDepth 100000

section
variable {K : Type} [Field K] [LinearOrder K] [IsStrictOrderedRing K] {d : Dims}

theorem fin_le_looser {a : K} {b c : Ext K} (h : Ext.fin a ≤ b) (hbc : b ≤ c) : Ext.fin a ≤ c := by
  cases b <;> cases c <;> first | exact h.elim | exact hbc.elim | trivial | exact le_trans (α := K) h hbc

theorem looser_le_fin {a : K} {b c : Ext K} (h : b ≤ Ext.fin a) (hcb : c ≤ b) : c ≤ Ext.fin a := by
  cases b <;> cases c <;> first | exact h.elim | exact hcb.elim | trivial | exact le_trans (α := K) hcb h

theorem rel_looser {q : Bool} {n r : Nat} {f1 f2 : Vec (Ext K)} (H : RhsLooser q n f1 f2) (hr : r < n) {s : K}
    (h : Spec.Rel q s (f1.e r)) : Spec.Rel q s (f2.e r) := by
  have := H r hr
  unfold Spec.Rel at *
  split at h
  · rw [if_pos ‹_›] at this ⊢; exact fin_le_looser h this
  · rw [if_neg ‹_›] at this ⊢; rw [← this]; exact h

theorem ext_le_refl (b : Ext K) : b ≤ b := by
  cases b <;> first | trivial | exact le_refl (α := K) _

theorem looser_refl (D : ConstrData K) : D.Looser d D := by
  have R : ∀ q n (f : Vec (Ext K)), RhsLooser q n f f := fun q n f r _ => by
    split
    · exact ext_le_refl _
    · rfl
  cases D <;> simp only [ConstrData.Looser]
  case trajectory => exact ⟨trivial, trivial, R _ _ _⟩
  case control => exact ⟨trivial, trivial, R _ _ _⟩
  case mixed => exact ⟨trivial, trivial, trivial, R _ _ _⟩
  case trajBound => exact ⟨trivial, fun r _ => ⟨ext_le_refl _, ext_le_refl _⟩⟩
  case ctrlBound => exact ⟨trivial, fun r _ => ⟨ext_le_refl _, ext_le_refl _⟩⟩

/-- What keeps a constraint keeps it with looser limits. -/
theorem holds_looser {D1 D2 : ConstrData K} (L : D1.Looser d D2) {X : Nat → Nat → K} {U : Nat → K} (h : D1.Holds d X U) :
    D2.Holds d X U := by
  cases D1 <;> cases D2 <;> simp only [ConstrData.Looser] at L
  case trajectory.trajectory q1 E1 f1 q2 E2 f2 =>
    obtain ⟨rfl, rfl, hf⟩ := L
    simp only [ConstrData.Holds] at h ⊢
    split <;> rename_i hc
    · rw [if_pos hc] at h; exact fun k hk r hr => rel_looser hf hr (h k hk r hr)
    · rw [if_neg hc] at h; exact fun r hr => rel_looser hf hr (h r hr)
  case control.control q1 G1 f1 q2 G2 f2 =>
    obtain ⟨rfl, rfl, hf⟩ := L
    simp only [ConstrData.Holds] at h ⊢
    split <;> rename_i hc
    · rw [if_pos hc] at h; exact fun k hk r hr => rel_looser hf hr (h k hk r hr)
    · rw [if_neg hc] at h; exact fun r hr => rel_looser hf hr (h r hr)
  case mixed.mixed q1 E1 G1 f1 q2 E2 G2 f2 =>
    obtain ⟨rfl, rfl, rfl, hf⟩ := L
    simp only [ConstrData.Holds] at h ⊢
    split <;> rename_i hc
    · rw [if_pos hc] at h; exact fun k hk r hr => rel_looser hf hr (h k hk r hr)
    · rw [if_neg hc] at h; exact fun r hr => rel_looser hf hr (h r hr)
  case trajBound.trajBound l1 u1 l2 u2 =>
    obtain ⟨e, hf⟩ := L
    simp only [ConstrData.Holds] at h ⊢
    rw [e]
    unfold boundEntries at hf
    by_cases hc : l1.rows = d.n
    · rw [if_pos hc] at hf h ⊢
      exact fun k hk r hr => ⟨looser_le_fin (h k hk r hr).1 (hf r hr).1, fin_le_looser (h k hk r hr).2 (hf r hr).2⟩
    · rw [if_neg hc] at hf h ⊢
      intro k hk r hr
      have b := hf _ (entry_lt (Nat.lt_succ_of_le hk) hr)
      exact ⟨looser_le_fin (h k hk r hr).1 b.1, fin_le_looser (h k hk r hr).2 b.2⟩
  case ctrlBound.ctrlBound l1 u1 l2 u2 =>
    obtain ⟨e, hf⟩ := L
    simp only [ConstrData.Holds] at h ⊢
    rw [e]
    unfold boundEntries at hf
    by_cases hc : l1.rows = d.m
    · rw [if_pos hc] at hf h ⊢
      exact fun k hk r hr => ⟨looser_le_fin (h k hk r hr).1 (hf r hr).1, fin_le_looser (h k hk r hr).2 (hf r hr).2⟩
    · rw [if_neg hc] at hf h ⊢
      intro k hk r hr
      have b := hf _ (entry_lt hk hr)
      exact ⟨looser_le_fin (h k hk r hr).1 b.1, fin_le_looser (h k hk r hr).2 b.2⟩

theorem le_averaged {a s t : K} {b c : Ext K} (h0 : 0 ≤ a) (h1 : a ≤ 1) (hs : Ext.fin s ≤ b) (ht : Ext.fin t ≤ c) :
    Ext.fin (a * s + (1 - a) * t) ≤ mixExt a b c := by
  cases b <;> cases c <;> first | exact hs.elim | exact ht.elim | trivial | skip
  exact add_le_add (mul_le_mul_of_nonneg_left (show s ≤ _ from hs) h0) (mul_le_mul_of_nonneg_left (show t ≤ _ from ht) (sub_nonneg.2 h1))

theorem averaged_le {a s t : K} {b c : Ext K} (h0 : 0 ≤ a) (h1 : a ≤ 1) (hs : b ≤ Ext.fin s) (ht : c ≤ Ext.fin t) :
    mixExt a b c ≤ Ext.fin (a * s + (1 - a) * t) := by
  cases b <;> cases c <;> first | exact hs.elim | exact ht.elim | trivial | skip
  exact add_le_add (mul_le_mul_of_nonneg_left (show _ ≤ s from hs) h0) (mul_le_mul_of_nonneg_left (show _ ≤ t from ht) (sub_nonneg.2 h1))

theorem rel_averaged {a s t : K} {b c : Ext K} {q : Bool} (h0 : 0 ≤ a) (h1 : a ≤ 1) (hs : Spec.Rel q s b) (ht : Spec.Rel q t c) :
    Spec.Rel q (a * s + (1 - a) * t) (mixExt a b c) := by
  unfold Spec.Rel at *
  split at hs
  · rw [if_pos ‹_›] at ht ⊢
    exact le_averaged h0 h1 hs ht
  · rw [if_neg ‹_›] at ht ⊢
    rw [← hs, ← ht]; rfl

/-- The average of what keeps two constraints keeps the constraint with the average of the limits. -/
theorem holds_between {a : K} (h0 : 0 ≤ a) (h1 : a ≤ 1) {D1 D2 D3 : ConstrData K} (L : D1.Between d a D2 D3) {X Y : Nat → Nat → K}
    {U V : Nat → K} (hX : D1.Holds d X U) (hY : D2.Holds d Y V) : D3.Holds d (fun k => mix a (X k) (Y k)) (mix a U V) := by
  cases D1 <;> cases D2 <;> cases D3 <;> simp only [ConstrData.Between] at L
  case trajectory.trajectory.trajectory q1 E1 f1 q2 E2 f2 q E f3 =>
    obtain ⟨rfl, rfl, rfl, rfl, hf⟩ := L
    simp only [ConstrData.Holds] at hX hY ⊢
    split <;> rename_i hc
    · rw [if_pos hc] at hX hY
      intro k hk r hr
      rw [sum_mix, hf r hr]; exact rel_averaged h0 h1 (hX k hk r hr) (hY k hk r hr)
    · rw [if_neg hc] at hX hY
      intro r hr
      rw [sum2_mix a _ _ (fun k c => E2.e r (k * d.n + c)), hf r hr]; exact rel_averaged h0 h1 (hX r hr) (hY r hr)
  case control.control.control q1 G1 f1 q2 G2 f2 q G f3 =>
    obtain ⟨rfl, rfl, rfl, rfl, hf⟩ := L
    simp only [ConstrData.Holds] at hX hY ⊢
    split <;> rename_i hc
    · rw [if_pos hc] at hX hY
      intro k hk r hr
      rw [ctrl_mix, sum_mix, hf r hr]; exact rel_averaged h0 h1 (hX k hk r hr) (hY k hk r hr)
    · rw [if_neg hc] at hX hY
      intro r hr
      simp only [ctrl_mix]
      rw [sum2_mix a _ _ (fun k c => G2.e r (k * d.m + c)), hf r hr]; exact rel_averaged h0 h1 (hX r hr) (hY r hr)
  case mixed.mixed.mixed q1 E1 G1 f1 q2 E2 G2 f2 q E G f3 =>
    obtain ⟨rfl, rfl, rfl, rfl, rfl, rfl, hf⟩ := L
    simp only [ConstrData.Holds] at hX hY ⊢
    split <;> rename_i hc
    · rw [if_pos hc] at hX hY
      intro k hk r hr
      rw [ctrl_mix, sum_mix, sum_mix, hf r hr]
      have := rel_averaged h0 h1 (hX k hk r hr) (hY k hk r hr)
      convert this using 1; ring
    · rw [if_neg hc] at hX hY
      intro r hr
      simp only [ctrl_mix]
      rw [sum2_mix a _ _ (fun k c => G2.e r (k * d.m + c)), sum2_mix a _ _ (fun k c => E2.e r (k * d.n + c)), hf r hr]
      have := rel_averaged h0 h1 (hX r hr) (hY r hr)
      convert this using 1; ring
  case trajBound.trajBound.trajBound l1 u1 l2 u2 l3 u3 =>
    obtain ⟨e1, e2, hl, hu⟩ := L
    simp only [ConstrData.Holds] at hX hY ⊢
    rw [e1] at hX
    rw [e2] at hY
    unfold boundEntries at hl hu
    by_cases hc : l3.rows = d.n
    · rw [if_pos hc] at hl hu hX hY ⊢
      intro k hk r hr
      rw [hl r hr, hu r hr]
      exact ⟨averaged_le h0 h1 (hX k hk r hr).1 (hY k hk r hr).1, le_averaged h0 h1 (hX k hk r hr).2 (hY k hk r hr).2⟩
    · rw [if_neg hc] at hl hu hX hY ⊢
      intro k hk r hr
      have b := entry_lt (Nat.lt_succ_of_le hk) hr
      rw [hl _ b, hu _ b]
      exact ⟨averaged_le h0 h1 (hX k hk r hr).1 (hY k hk r hr).1, le_averaged h0 h1 (hX k hk r hr).2 (hY k hk r hr).2⟩
  case ctrlBound.ctrlBound.ctrlBound l1 u1 l2 u2 l3 u3 =>
    obtain ⟨e1, e2, hl, hu⟩ := L
    simp only [ConstrData.Holds] at hX hY ⊢
    rw [e1] at hX
    rw [e2] at hY
    unfold boundEntries at hl hu
    by_cases hc : l3.rows = d.m
    · rw [if_pos hc] at hl hu hX hY ⊢
      intro k hk r hr
      rw [hl r hr, hu r hr]
      exact ⟨averaged_le h0 h1 (hX k hk r hr).1 (hY k hk r hr).1, le_averaged h0 h1 (hX k hk r hr).2 (hY k hk r hr).2⟩
    · rw [if_neg hc] at hl hu hX hY ⊢
      intro k hk r hr
      have b := entry_lt hk hr
      rw [hl _ b, hu _ b]
      exact ⟨averaged_le h0 h1 (hX k hk r hr).1 (hY k hk r hr).1, le_averaged h0 h1 (hX k hk r hr).2 (hY k hk r hr).2⟩

namespace World
variable {dmax a : K} {w1 w2 w3 w1' w2' w3' : World K} {g1 g2 g3 : Ghost} {p1 p2 p3 : Nat} {e1 e2 e3 : SolveEnv K} {b1 b2 b3 : Bool}
  {q1 q2 q3 : QP K}

theorem bound_nil_iff {w : World K} {g : Ghost} {p : Nat} (G : Good d dmax w g) (hp : w.ctl.ps = some p) :
    w.ctl.spBoundConstr = [] ↔ ¬ HasCtrlBound w := by
  rw [bound_nil G hp]
  unfold HasCtrlBound
  constructor
  · rintro H ⟨i, hi, l, u, e⟩
    exact H _ (List.mem_map.2 ⟨i, hi, rfl⟩) l u e
  · intro H D hD l u e
    obtain ⟨i, hi, rfl⟩ := List.mem_map.1 hD
    exact H ⟨i, hi, l, u, e⟩

/-- Dropping constraints, as opposed to adding them in C72, is a special case. -/
theorem Tighter.loosened (T : Tighter w1 p1 w2 p2) :
    Loosened d w2 p2 w1 p1 where
  A := T.A.symm
  B := T.B.symm
  bias := T.bias.symm
  x0 := T.x0.symm
  costs := T.costs.symm
  cons := by
    intro j hj
    obtain ⟨i, hi, e⟩ := T.cons j hj
    exact ⟨i, hi, e ▸ looser_refl _⟩

theorem Loosened.trajFrom (T : Loosened d w1 p1 w2 p2) (x U : Nat → K) : Spec.trajFrom d w2 p2 x U = Spec.trajFrom d w1 p1 x U := by
  unfold Spec.trajFrom; rw [T.A, T.B, T.bias]

theorem Loosened.traj (T : Loosened d w1 p1 w2 p2) (U : Nat → K) : Spec.traj d w2 p2 U = Spec.traj d w1 p1 U := by
  unfold Spec.traj; rw [T.A, T.B, T.bias, T.x0]

theorem Loosened.totalCost (T : Loosened d w1 p1 w2 p2) (U : Nat → K) : World.totalCost d w2 p2 U = World.totalCost d w1 p1 U := by
  unfold World.totalCost
  have pm := (T.costs.map fun D => D.value d (Spec.traj d w1 p1 U) U).sum_eq
  rw [List.map_map, List.map_map] at pm
  simp only [Function.comp_def] at pm
  rw [Loosened.traj T, pm]

theorem Loosened.holds (T : Loosened d w1 p1 w2 p2) {X : Nat → Nat → K} {U : Nat → K}
    (h : ∀ i ∈ w1.ctl.spConstr, (w1.cons i).userData.Holds d X U) : ∀ j ∈ w2.ctl.spConstr, (w2.cons j).userData.Holds d X U := by
  intro j hj
  obtain ⟨i, hi, L⟩ := T.cons j hj
  exact holds_looser L (h i hi)

/-- Without a control bound the wrapper's own range `[-dmax, dmax]` applies. -/
def InRange (d : Dims) (dmax : K) (w1 w2 : World K) (U : Nat → K) : Prop :=
  HasCtrlBound w1 → ¬ HasCtrlBound w2 → ∀ j < d.m * d.N, -dmax ≤ U j ∧ U j ≤ dmax

/-- **C110** (feasibility): every feasible point stays feasible when limits are loosened or constraints are dropped. -/
theorem c110_feasible (S1 : PlainSolve d dmax w1 g1 p1 e1 w1' b1 q1) (S2 : PlainSolve d dmax w2 g2 p2 e2 w2' b2 q2)
    (T : Loosened d w1 p1 w2 p2) {U : Nat → K} (r : InRange d dmax w1 w2 U) (h : Feasible q1 U) : Feasible q2 U := by
  have F := (c30_feasible_set S1.hist (fun _ _ h => h.1) S1.allowed S1.plain S1.clean S1.honest S1.solve S1.ps _).1 h
  refine (c30_feasible_set S2.hist (fun _ _ h => h.1) S2.allowed S2.plain S2.clean S2.honest S2.solve S2.ps _).2
    ⟨?_, fun hb => ?_⟩
  · rw [show Spec.traj d w2 p2 U = Spec.traj d w1 p1 U from Loosened.traj T U]
    exact Loosened.holds T F.1
  · rw [bound_nil_iff S2.hist.good S2.ps] at hb
    by_cases h1 : HasCtrlBound w1
    · exact r h1 hb
    · exact F.2 ((bound_nil_iff S1.hist.good S1.ps).2 h1)

/-- **C110** (success): if `solve()` succeeds with the tighter limits and an answer that keeps them, it succeeds with the
looser ones and any solver that finds a solution if there is one. -/
theorem c110_success (S1 : PlainSolve d dmax w1 g1 p1 e1 w1' true q1) (S2 : PlainSolve d dmax w2 g2 p2 e2 w2' b2 q2)
    (T : Loosened d w1 p1 w2 p2) (r : InRange d dmax w1 w2 w1'.ctl.control.e) (f1 : Feasible q1 (e1.answer q1).2.e)
    (complete : (∃ x, Feasible q2 x) → (e2.answer q2).1 = true) : b2 = true := by
  rw [c40_control_is_answer S1.plain S1.solve] at r
  rw [solve_reports S2.solve]
  exact complete ⟨_, c110_feasible S1 S2 T r f1⟩

/-- **C110** (optimum): with looser limits the plan does not cost more. -/
theorem c110_optimum (S1 : PlainSolve d dmax w1 g1 p1 e1 w1' true q1) (S2 : PlainSolve d dmax w2 g2 p2 e2 w2' true q2)
    (T : Loosened d w1 p1 w2 p2) (r : InRange d dmax w1 w2 w1'.ctl.control.e) (fr2 : CostsFresh d w2 g2)
    (f1 : Feasible q1 (e1.answer q1).2.e) (o2 : IsOptimal q2 (e2.answer q2).2.e) :
    World.totalCost d w2 p2 w2'.ctl.control.e ≤ World.totalCost d w1 p1 w1'.ctl.control.e := by
  obtain ⟨κ2, O2⟩ := c32_objective S2.hist S2.allowed S2.plain fr2 S2.solve S2.ps
  rw [← c40_control_is_answer S1.plain S1.solve] at f1
  rw [← c40_control_is_answer S2.plain S2.solve] at o2
  have le := o2.2 _ (c110_feasible S1 S2 T r f1)
  rw [O2, O2] at le
  rw [← show World.totalCost d w2 p2 w1'.ctl.control.e = World.totalCost d w1 p1 w1'.ctl.control.e from Loosened.totalCost T _]
  linarith

/-- **C110** (limits that do not matter): if the plan found with the looser limits keeps the tighter ones, it is the plan
found with those. -/
theorem c110_same (S1 : PlainSolve d dmax w1 g1 p1 e1 w1' true q1) (S2 : PlainSolve d dmax w2 g2 p2 e2 w2' true q2)
    (T : Loosened d w1 p1 w2 p2) (r : InRange d dmax w1 w2 w1'.ctl.control.e) (fr1 : CostsFresh d w1 g1) (fr2 : CostsFresh d w2 g2)
    (o1 : IsOptimal q1 (e1.answer q1).2.e) (o2 : IsOptimal q2 (e2.answer q2).2.e)
    (hold : ∀ i ∈ w1.ctl.spConstr, (w1.cons i).userData.Holds d (Spec.traj d w1 p1 w2'.ctl.control.e) w2'.ctl.control.e)
    (r2 : ¬ HasCtrlBound w1 → ∀ j < d.m * d.N, -dmax ≤ w2'.ctl.control.e j ∧ w2'.ctl.control.e j ≤ dmax) :
    VecEq w1'.ctl.control w2'.ctl.control ∧ VecEq w1'.ctl.trajectory w2'.ctl.trajectory := by
  obtain ⟨κ1, O1⟩ := c32_objective S1.hist S1.allowed S1.plain fr1 S1.solve S1.ps
  obtain ⟨κ2, O2⟩ := c32_objective S2.hist S2.allowed S2.plain fr2 S2.solve S2.ps
  rw [← c40_control_is_answer S1.plain S1.solve] at o1
  rw [← c40_control_is_answer S2.plain S2.solve] at o2
  have le2 := o2.2 _ (c110_feasible S1 S2 T r o1.1)
  rw [O2, O2] at le2
  have ct : ∀ U, World.totalCost d w2 p2 U = World.totalCost d w1 p1 U := Loosened.totalCost T
  rw [ct, ct] at le2
  have F2 : Feasible q1 w2'.ctl.control.e :=
    (c30_feasible_set S1.hist (fun _ _ h => h.1) S1.allowed S1.plain S1.clean S1.honest S1.solve S1.ps _).2
      ⟨hold, fun hb => r2 ((bound_nil_iff S1.hist.good S1.ps).1 hb)⟩
  have o2' : IsOptimal q1 w2'.ctl.control.e := ⟨F2, fun z hz => by
    refine le_trans ?_ (o1.2 z hz)
    rw [O1, O1]; linarith⟩
  have e := c29_unique_minimiser S1.hist (fun _ _ h => h.2) S1.allowed S1.plain S1.solve o1 o2'
  have nv : q1.nrVar = d.m * d.N := by
    obtain ⟨p, hp, S⟩ := S1.hist.good.solved S1.allowed.2 S1.solve
    exact (S.plain S1.plain).nrVar.trans (S.plain S1.plain).cr
  rw [nv] at e
  obtain ⟨z1, T1, _⟩ := c40_success S1.hist S1.allowed S1.solve S1.ps
  obtain ⟨z2, T2, _⟩ := c40_success S2.hist S2.allowed S2.solve S2.ps
  replace T1 := (T1 S1.plain).2
  replace T2 := (T2 S2.plain).2
  refine ⟨⟨z1.trans z2.symm, fun j hj => e j (by rw [← z1]; exact hj)⟩, stacked_eq T1 T2 fun k hk r hr => ?_⟩
  rw [show Spec.traj d w2 p2 w2'.ctl.control.e = Spec.traj d w1 p1 w2'.ctl.control.e from Loosened.traj T _]
  unfold Spec.traj
  exact sim_congr d _ _ _ (fun _ _ => rfl) e k hk r hr

/-- **C110** for an `InitialStateLMPC` (feasibility): an initial state and controls that are feasible stay so with looser
limits and looser bounds on the initial state. -/
theorem c110_feasible_init (S1 : InitSolve d dmax w1 g1 p1 e1 w1' b1 q1) (S2 : InitSolve d dmax w2 g2 p2 e2 w2' b2 q2)
    (T : Loosened d w1 p1 w2 p2) (I : InitLoosened d w1.ctl w2.ctl) {x U : Nat → K} (r : InRange d dmax w1 w2 U)
    (h : Feasible q1 (joined d x U)) : Feasible q2 (joined d x U) := by
  obtain ⟨F1, F2, F3⟩ := (InitSolve.feasible S1 x U).1 h
  refine (InitSolve.feasible S2 x U).2 ⟨?_, fun j hj => ?_, fun hb => ?_⟩
  · rw [show Spec.trajFrom d w2 p2 x U = Spec.trajFrom d w1 p1 x U from Loosened.trajFrom T x U]
    exact Loosened.holds T F1
  · exact ⟨looser_le_fin (F2 j hj).1 (I.bounds j hj).1, fin_le_looser (F2 j hj).2 (I.bounds j hj).2⟩
  · rw [bound_nil_iff S2.hist.good S2.ps] at hb
    by_cases h1 : HasCtrlBound w1
    · exact r h1 hb
    · exact F3 ((bound_nil_iff S1.hist.good S1.ps).2 h1)

/-- **C110** for an `InitialStateLMPC` (optimum): with looser limits the answer is at least as good in the objective both
share; and if it keeps the tighter limits and bounds, the two controllers return the same initial state, controls and
trajectory. -/
theorem c110_optimum_init (S1 : InitSolve d dmax w1 g1 p1 e1 w1' true q1) (S2 : InitSolve d dmax w2 g2 p2 e2 w2' true q2)
    (T : Loosened d w1 p1 w2 p2) (I : InitLoosened d w1.ctl w2.ctl) (inv : SameInverse d e1 e2)
    (r : InRange d dmax w1 w2 w1'.ctl.control.e)
    (o1 : IsOptimal q1 (e1.answer q1).2.e) (o2 : IsOptimal q2 (e2.answer q2).2.e) :
    ∃ x1 x2, w1'.ctl.initialState (w1'.pss p1) = some x1 ∧ w2'.ctl.initialState (w2'.pss p2) = some x2 ∧
      objective q2 (joined d x2.e w2'.ctl.control.e) ≤ objective q1 (joined d x1.e w1'.ctl.control.e) ∧
      (PD d.n w1.ctl.R →
        (∀ i ∈ w1.ctl.spConstr, (w1.cons i).userData.Holds d (Spec.trajFrom d w1 p1 x2.e w2'.ctl.control.e) w2'.ctl.control.e) →
        InitBounds d w1.ctl x2.e →
        (¬ HasCtrlBound w1 → ∀ j < d.m * d.N, -dmax ≤ w2'.ctl.control.e j ∧ w2'.ctl.control.e j ≤ dmax) →
        VecEq x1 x2 ∧ VecEq w1'.ctl.control w2'.ctl.control ∧ VecEq w1'.ctl.trajectory w2'.ctl.trajectory) := by
  obtain ⟨x1, h1, z1, c1, t1, a1⟩ := InitSolve.result S1
  obtain ⟨x2, h2, z2, c2, t2, a2⟩ := InitSolve.result S2
  obtain ⟨W1, n1, k1⟩ := InitSolve.sized S1
  obtain ⟨W2, n2, k2⟩ := InitSolve.sized S2
  replace o1 := optimal_ext W1 (fun j hj => (a1 j hj).symm) o1
  replace o2 := optimal_ext W2 (fun j hj => (a2 j hj).symm) o2
  have same := same_objective_init S1 S2 T.A T.B T.bias T.x0 T.costs I.R I.r inv
  have le := o2.2 _ (c110_feasible_init S1 S2 T I r o1.1)
  refine ⟨x1, x2, h1, h2, by rw [same]; exact le, fun hR hold hb rg => ?_⟩
  have F : Feasible q1 (joined d x2.e w2'.ctl.control.e) := (InitSolve.feasible S1 _ _).2
    ⟨hold, hb, fun e => rg ((bound_nil_iff S1.hist.good S1.ps).1 e)⟩
  rw [← same, ← same] at le
  have m := o1.2 _ (feasible_mid o1.1 F)
  have P := (c45_hessian_partial S1.hist (fun _ _ h => h.2) S1.allowed S1.init S1.inverse S1.solve).2 hR
  rw [n1, ← k1] at P
  have e := pd_unique P m (le_trans le m)
  have hx : ∀ j < d.n, x1.e j = x2.e j := fun j hj => by
    have := e j (by rw [k1]; omega)
    rwa [joined_lt hj, joined_lt hj] at this
  have hU : ∀ j < d.m * d.N, w1'.ctl.control.e j = w2'.ctl.control.e j := fun j hj => by
    have := e (d.n + j) (by rw [k1]; omega)
    rwa [joined_add, joined_add] at this
  refine ⟨⟨z1.trans z2.symm, fun j hj => hx j (by rw [← z1]; exact hj)⟩,
    ⟨c1.trans c2.symm, fun j hj => hU j (by rw [← c1]; exact hj)⟩, stacked_eq t1 t2 fun k hk r hr => ?_⟩
  rw [show Spec.trajFrom d w2 p2 x2.e w2'.ctl.control.e = Spec.trajFrom d w1 p1 x2.e w2'.ctl.control.e from Loosened.trajFrom T _ _]
  unfold Spec.trajFrom
  exact sim_congr d _ _ _ hx hU k hk r hr

/-! ### Diminishing returns -/

theorem LimitsBetween.traj (R : LimitsBetween d a w1 p1 w2 p2 w3 p3) (U V : Nat → K) : ∀ k ≤ d.N, ∀ r < d.n,
    Spec.traj d w3 p3 (mix a U V) k r = mix a (Spec.traj d w1 p1 U k) (Spec.traj d w2 p2 V k) r := by
  intro k hk r hr
  unfold Spec.traj
  rw [sim_congr d _ _ _ (V := mix a U V) (x' := mix a (w1.pss p1).x0.e (w2.pss p2).x0.e) R.x0 (fun _ _ => rfl) k hk r hr, sim_mix,
    R.A.1, R.A.2, R.B.1, R.B.2, R.bias.1, R.bias.2]

/-- **C110** (between, feasibility): the average of two plans is feasible for the averages of the limits. -/
theorem c110_feasible_between (h0 : 0 ≤ a) (h1 : a ≤ 1) (S1 : PlainSolve d dmax w1 g1 p1 e1 w1' b1 q1)
    (S2 : PlainSolve d dmax w2 g2 p2 e2 w2' b2 q2) (S3 : PlainSolve d dmax w3 g3 p3 e3 w3' b3 q3)
    (R : LimitsBetween d a w1 p1 w2 p2 w3 p3) {U V : Nat → K} (hU : Feasible q1 U) (hV : Feasible q2 V) :
    Feasible q3 (mix a U V) := by
  have F1 := (c30_feasible_set S1.hist (fun _ _ h => h.1) S1.allowed S1.plain S1.clean S1.honest S1.solve S1.ps _).1 hU
  have F2 := (c30_feasible_set S2.hist (fun _ _ h => h.1) S2.allowed S2.plain S2.clean S2.honest S2.solve S2.ps _).1 hV
  refine (c30_feasible_set S3.hist (fun _ _ h => h.1) S3.allowed S3.plain S3.clean S3.honest S3.solve S3.ps _).2
    ⟨fun k hk => ?_, fun hb j hj => ?_⟩
  · obtain ⟨i, hi, j, hj, B⟩ := R.cons k hk
    exact (holds_congr_traj (LimitsBetween.traj R U V) _).2 (holds_between h0 h1 B (F1.1 i hi) (F2.1 j hj))
  · rw [bound_nil_iff S3.hist.good S3.ps] at hb
    have n1 : ¬ HasCtrlBound w1 := fun h => hb (R.bounded (Or.inl h))
    have n2 : ¬ HasCtrlBound w2 := fun h => hb (R.bounded (Or.inr h))
    have b1 := F1.2 ((bound_nil_iff S1.hist.good S1.ps).2 n1) j hj
    have b2 := F2.2 ((bound_nil_iff S2.hist.good S2.ps).2 n2) j hj
    exact ⟨(ge_mix_ext (b := .fin (-dmax)) h0 h1 b1.1 b2.1 :), (le_mix_ext (b := .fin dmax) h0 h1 b1.2 b2.2 :)⟩

theorem LimitsBetween.cost (h0 : 0 ≤ a) (h1 : a ≤ 1) (R : LimitsBetween d a w1 p1 w2 p2 w3 p3)
    (hn : ∀ i ∈ w3.ctl.spCost, (w3.costs i).userData.Nonneg) (U V : Nat → K) :
    World.totalCost d w3 p3 (mix a U V) ≤ a * World.totalCost d w1 p1 U + (1 - a) * World.totalCost d w2 p2 V := by
  have s1 := (R.costs1.map fun D => D.value d (Spec.traj d w1 p1 U) U).sum_eq
  have s2 := (R.costs2.map fun D => D.value d (Spec.traj d w2 p2 V) V).sum_eq
  rw [List.map_map, List.map_map] at s1 s2
  simp only [Function.comp_def] at s1 s2
  have L : ∀ l : List Nat, (∀ i ∈ l, (w3.costs i).userData.Nonneg) →
      (l.map fun i => (w3.costs i).userData.value d (Spec.traj d w3 p3 (mix a U V)) (mix a U V)).sum ≤
        a * (l.map fun i => (w3.costs i).userData.value d (Spec.traj d w1 p1 U) U).sum +
        (1 - a) * (l.map fun i => (w3.costs i).userData.value d (Spec.traj d w2 p2 V) V).sum := by
    intro l hl
    induction l with
    | nil => simp
    | cons i l ih =>
      simp only [List.map_cons, List.sum_cons]
      have e := value_mix h0 h1 (X := Spec.traj d w1 p1 U) (Y := Spec.traj d w2 p2 V) (U := U) (V := V) (d := d)
        (hl i List.mem_cons_self)
      rw [← value_congr_traj (LimitsBetween.traj R U V)] at e
      have := ih fun j hj => hl j (List.mem_cons_of_mem _ hj)
      linarith
  have N : ∑ j ∈ Finset.range (d.m * d.N), mix a U V j ^ 2 ≤
      a * ∑ j ∈ Finset.range (d.m * d.N), U j ^ 2 + (1 - a) * ∑ j ∈ Finset.range (d.m * d.N), V j ^ 2 := by
    rw [Finset.mul_sum, Finset.mul_sum, ← Finset.sum_add_distrib]
    exact Finset.sum_le_sum fun j _ => sq_mix h0 h1 _ _
  have := L _ hn
  unfold World.totalCost
  rw [s1, s2]
  linarith

/-- **C110** (between): with limits (and an initial state) that are the averages of those of two programs, the plan costs at
most the average of the costs of their plans: the cost of the plan is a convex function of all the limits together, so that
loosening a limit further gains less and less. -/
theorem c110_between (h0 : 0 ≤ a) (h1 : a ≤ 1) (S1 : PlainSolve d dmax w1 g1 p1 e1 w1' true q1)
    (S2 : PlainSolve d dmax w2 g2 p2 e2 w2' true q2) (S3 : PlainSolve d dmax w3 g3 p3 e3 w3' true q3)
    (R : LimitsBetween d a w1 p1 w2 p2 w3 p3) (fr : CostsFresh d w3 g3)
    (f1 : Feasible q1 (e1.answer q1).2.e) (f2 : Feasible q2 (e2.answer q2).2.e) (o3 : IsOptimal q3 (e3.answer q3).2.e) :
    World.totalCost d w3 p3 w3'.ctl.control.e ≤
      a * World.totalCost d w1 p1 w1'.ctl.control.e + (1 - a) * World.totalCost d w2 p2 w2'.ctl.control.e := by
  obtain ⟨κ, O⟩ := c32_objective S3.hist S3.allowed S3.plain fr S3.solve S3.ps
  have le := o3.2 _ (c110_feasible_between h0 h1 S1 S2 S3 R f1 f2)
  rw [O, O] at le
  rw [c40_control_is_answer S1.plain S1.solve, c40_control_is_answer S2.plain S2.solve, c40_control_is_answer S3.plain S3.solve]
  have := LimitsBetween.cost h0 h1 R (registered_nonneg S3.hist fun _ _ h => h.2) (e1.answer q1).2.e (e2.answer q2).2.e
  linarith

/-- **C110** (between, success): if both programs succeed with answers that keep their limits, the one between them
succeeds with any solver that finds a solution if there is one. -/
theorem c110_success_between (h0 : 0 ≤ a) (h1 : a ≤ 1) (S1 : PlainSolve d dmax w1 g1 p1 e1 w1' true q1)
    (S2 : PlainSolve d dmax w2 g2 p2 e2 w2' true q2) (S3 : PlainSolve d dmax w3 g3 p3 e3 w3' b3 q3)
    (R : LimitsBetween d a w1 p1 w2 p2 w3 p3) (f1 : Feasible q1 (e1.answer q1).2.e) (f2 : Feasible q2 (e2.answer q2).2.e)
    (complete : (∃ x, Feasible q3 x) → (e3.answer q3).1 = true) : b3 = true := by
  rw [solve_reports S3.solve]
  exact complete ⟨_, c110_feasible_between h0 h1 S1 S2 S3 R f1 f2⟩

end World
end
end Copra
