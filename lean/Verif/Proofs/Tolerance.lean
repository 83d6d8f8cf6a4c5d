import Verif.SpecTol
import Verif.Props.System

/-! # Rows of registered constraints under an arbitrary scalar relation -/

namespace Copra
open Spec

set_option linter.unusedSectionVars false
set_option maxRecDepth 100000

section
variable {K : Type} [Field K] [LinearOrder K] [IsStrictOrderedRing K]

/-- `Each` with the exact relations is `Holds`. -/
theorem Spec.ConstrData.each_holds {d : Dims} {X : Nat → Nat → K} {U : Nat → K} (D : ConstrData K) :
    D.Each d Rel (fun l a u => l ≤ Ext.fin a ∧ Ext.fin a ≤ u) X U ↔ D.Holds d X U := by
  cases D <;> exact Iff.rfl

theorem relWithin_zero {q : Bool} {a : K} {b : Ext K} : RelWithin 0 q a b ↔ Rel q a b := by
  unfold RelWithin Rel
  cases q
  · simp only [Bool.false_eq_true, if_false, abs_nonpos_iff, sub_eq_zero]
    exact ⟨fun ⟨t, e, h⟩ => by rw [e, h], fun h => ⟨a, h.symm, rfl⟩⟩
  · simp

theorem holdsWithin_zero {d : Dims} {X : Nat → Nat → K} {U : Nat → K} (D : ConstrData K) :
    D.HoldsWithin d 0 X U ↔ D.Holds d X U := by
  rw [← D.each_holds]
  unfold ConstrData.HoldsWithin
  have e1 : (RelWithin (0 : K)) = Rel := by funext q a b; exact propext relWithin_zero
  have e2 : (BoundWithin (0 : K)) = fun l a u => l ≤ Ext.fin a ∧ Ext.fin a ≤ u := by
    funext l a u; unfold BoundWithin; simp
  rw [e1, e2]

theorem feasibleWithin_zero {q : QP K} {x : Nat → K} : FeasibleWithin 0 q x ↔ Feasible q x := by
  unfold FeasibleWithin Feasible
  simp only [add_zero, sub_zero, abs_nonpos_iff, sub_eq_zero]
  refine and_congr_left fun _ => forall₂_congr fun i _ => ?_
  exact ⟨fun ⟨t, e, h⟩ => by rw [e, h], fun h => ⟨_, h.symm, rfl⟩⟩

theorem relWithin_sub {δ : K} {q : Bool} {a y : K} {z : Ext K} :
    RelWithin δ q a (z.sub y) ↔ RelWithin δ q (a + y) z := by
  unfold RelWithin
  cases q
  · simp only [Bool.false_eq_true, if_false]
    cases z with
    | fin t =>
      constructor
      · rintro ⟨s, e, h⟩
        have : t - y = s := by injection e
        subst this
        exact ⟨t, rfl, by rwa [show a + y - t = a - (t - y) by ring]⟩
      · rintro ⟨s, e, h⟩
        have : t = s := by injection e
        subst this
        exact ⟨t - y, rfl, by rwa [show a - (t - y) = a + y - t by ring]⟩
    | pinf => exact ⟨fun ⟨_, e, _⟩ => (by cases e), fun ⟨_, e, _⟩ => (by cases e)⟩
    | ninf => exact ⟨fun ⟨_, e, _⟩ => (by cases e), fun ⟨_, e, _⟩ => (by cases e)⟩
  · simp only [if_true]
    rw [Ext.fin_le_sub, show a - δ + y = a + y - δ by ring]

namespace Constr

/-- The row for the system's initial state says exactly `ρ`, up to the same tolerance. -/
theorem _root_.Copra.RowIs.within_b {δ : K} {d : Dims} {ps : PreviewSystem K}
    {c : Constr K} {i : Nat} {ρ : Row K} (h : RowIs d ps c i ρ) (q : Bool) (U : Nat → K) :
    RelWithin δ q (∑ j ∈ Finset.range (d.m * d.N), c.A.e i j * U j) (c.b.e i) ↔
      RelWithin δ q (ρ.lhs d (predC d ps ps.x0.e U) U) ρ.rhs := by
  rw [h.b, relWithin_sub, h.z, relWithin_sub, ← h.value]
  unfold Constr.rowXU
  rw [add_comm (∑ j ∈ Finset.range (d.m * d.N), c.A.e i j * U j)]

/-- The rows of a trajectory bound without finite lower entries, under any relation that `+infinity` satisfies. -/
theorem rows_each_trajBound {d : Dims} {c : Constr K} (hk : c.kind = .trajBound) (h : RegTrajBound d c)
    (hll : c.lowerLines = []) (hul : c.upperLines = finiteLines Ext.isPinf c.upper)
    (R : K → Ext K → Prop) (hR : ∀ a, R a .pinf) (X : Nat → Nat → K) (U : Nat → K) :
    (∀ i < c.nrConstr, R ((c.row d i).lhs d X U) (c.row d i).rhs) ↔
      ∀ k ≤ d.N, ∀ r < d.n, R (X k r) (c.upper.e (if c.lower.rows = d.n then r else k * d.n + r)) := by
  have D := h.dims
  have hlines : ∀ k < boundSteps d c, ∀ l, l < c.lower.rows → l + d.n * k < d.n * (d.N + 1) := by
    intro k hk l hl
    unfold boundSteps at hk
    by_cases hf : c.fullSizeEntry
    · rw [if_pos hf] at D hk
      have : k = 0 := by omega
      subst this
      omega
    · rw [if_neg hf] at D hk
      have := blk_lt' (n := d.n) hk (r := l) (by omega)
      rw [Nat.mul_comm k, Nat.add_comm] at this
      exact this
  have unit : ∀ l k (b : Ext K), k < boundSteps d c → l < c.lower.rows →
      (Row.lhs d ⟨unitRow d.n l k, fun _ => 0, b⟩ X U =
        X ((l + d.n * k) / d.n) ((l + d.n * k) % d.n)) := by
    intro l k b hk hl
    unfold Row.lhs unitRow
    simp only [zero_mul, Finset.sum_const_zero, add_zero]
    exact lhs_unit (hlines k hk l hl)
  have hnr := h.nr
  rw [hll] at hnr
  simp only [List.length_nil, zero_add] at hnr
  have split : (∀ i < c.nrConstr, R ((c.row d i).lhs d X U) (c.row d i).rhs) ↔
      (∀ i < c.upperLines.length * boundSteps d c,
        R (Row.lhs d ⟨unitRow d.n (c.upperLines.getD (i % c.upperLines.length) 0)
          (i / c.upperLines.length), fun _ => 0, c.upper.e (c.upperLines.getD (i % c.upperLines.length) 0)⟩
          X U) (c.upper.e (c.upperLines.getD (i % c.upperLines.length) 0))) := by
    rw [hnr]
    refine forall₂_congr fun i hi => ?_
    unfold row
    simp only [hk, hll, List.length_nil, Nat.zero_mul, Nat.not_lt_zero, if_false, Nat.sub_zero]
  rw [split, forall_lines (P := fun l k => R (Row.lhs d ⟨unitRow d.n l k, fun _ => 0, c.upper.e l⟩ X U) (c.upper.e l))]
  have s2 : (∀ k < boundSteps d c, ∀ l ∈ c.upperLines, R (Row.lhs d ⟨unitRow d.n l k, fun _ => 0, c.upper.e l⟩ X U) (c.upper.e l)) ↔
      ∀ k < boundSteps d c, ∀ l < c.lower.rows, R (X ((l + d.n * k) / d.n) ((l + d.n * k) % d.n)) (c.upper.e l) := by
    refine forall₂_congr fun k hk => ⟨fun H l hl => ?_, fun H l hl => ?_⟩
    · by_cases hp : c.upper.e l = .pinf
      · rw [hp]; exact hR _
      · have := H l (by rw [hul]; exact mem_lines_pinf.2 ⟨by rw [h.rows]; exact hl, hp⟩)
        rwa [unit l k _ hk hl] at this
    · have hlt : l < c.lower.rows := by rw [← h.rows]; exact h.lines.2 l hl
      rw [unit l k _ hk hlt]
      exact H l hlt
  rw [s2]
  unfold boundSteps
  by_cases hf : c.fullSizeEntry
  · rw [if_pos hf] at D ⊢
    simp only [if_neg D.1]
    constructor
    · intro H k hk r hr
      have := H 0 (by omega) (k * d.n + r) (by rw [D.2]; exact blk_lt' (by omega) hr)
      rwa [Nat.mul_zero, Nat.add_zero, blk_div hr, blk_mod hr] at this
    · intro H t ht l hl
      have : t = 0 := by omega
      subst this
      rw [D.2, Nat.mul_comm] at hl
      obtain ⟨k, r, hk, hr, rfl⟩ := blk_split hl
      rw [Nat.mul_zero, Nat.add_zero, blk_div hr, blk_mod hr]
      exact H k (by omega) r hr
  · rw [if_neg hf] at D ⊢
    simp only [D]
    have idx : ∀ l k, l + d.n * k = k * d.n + l := fun l k => by rw [Nat.mul_comm, Nat.add_comm]
    constructor
    · intro H k hk r hr
      have := H k (by omega) r hr
      rwa [idx, blk_div hr, blk_mod hr] at this
    · intro H k hk r hr
      rw [idx, blk_div hr, blk_mod hr]
      exact H k (by omega) r hr

/-- The rows of a registered constraint, under any scalar relation, are the scalar conditions the user declared. -/
theorem rows_each {d : Dims} {c : Constr K} (hk : c.kind ≠ .ctrlBound) (h : Reg d c) (hl : World.LinesCurrent c)
    (hh : c.userData.Honest) (R : Bool → K → Ext K → Prop) (B : Ext K → K → Ext K → Prop)
    (hB : ∀ a u, B .ninf a u ↔ R true a u) (hR : ∀ a, R true a .pinf) (X : Nat → Nat → K) (U : Nat → K) :
    (∀ i < c.nrConstr, R c.ineq ((c.row d i).lhs d X U) (c.row d i).rhs) ↔ c.userData.Each d R B X U := by
  unfold Reg at h
  cases hkk : c.kind with
  | ctrlBound => exact absurd hkk hk
  | trajBound =>
    rw [hkk] at h
    have : c.ineq = true := by unfold ineq; rw [hkk]
    rw [this]
    unfold userData at hh ⊢
    rw [hkk] at hh
    simp only [hkk, ConstrData.Each]
    have hnin : ∀ i < c.lower.rows, c.lower.e i = .ninf := hh
    have hll : c.lowerLines = [] := by
      rw [(hl hkk).1]
      apply List.eq_nil_iff_forall_not_mem.2
      intro l hm
      obtain ⟨a, b⟩ := mem_lines_ninf.1 hm
      exact b (hnin l a)
    rw [rows_each_trajBound hkk h hll (hl hkk).2 (R true) hR X U]
    have D := h.dims
    by_cases hf : c.fullSizeEntry
    · rw [if_pos hf] at D
      simp only [if_neg D.1]
      refine forall₂_congr fun k hk => forall₂_congr fun r hr => ?_
      rw [hnin _ (by rw [D.2]; exact blk_lt' (by omega) hr), hB]
    · rw [if_neg hf] at D
      simp only [if_pos D]
      refine forall₂_congr fun k hk => forall₂_congr fun r hr => ?_
      rw [hnin _ (by rw [D]; exact hr), hB]
  | trajectory =>
    rw [hkk] at h
    have hq : c.ineq = c.isIneq := by unfold ineq; rw [hkk]
    have D := h.dims
    unfold userData
    simp only [hkk, ConstrData.Each, hq]
    by_cases hf : c.fullSizeEntry
    · rw [if_pos hf] at D
      obtain ⟨D0, D1, D2⟩ := D
      rw [if_neg D0, D2]
      unfold row Row.lhs
      simp only [hkk, hf, if_true, zero_mul, Finset.sum_const_zero, add_zero]
    · rw [if_neg hf] at D
      simp only [Bool.not_eq_true] at hf
      obtain ⟨D1, D2⟩ := D
      rw [if_pos D1, D2, forall_blk]
      constructor
      · intro H k hkN r hr
        have := H k (by omega) r hr
        rw [row_trajectory_step hkk hf hr] at this
        unfold Row.lhs at this
        simp only [zero_mul, Finset.sum_const_zero, add_zero] at this
        rwa [sum_block_ite2 (by omega) (c.E.e r)] at this
      · intro H k hkN r hr
        rw [row_trajectory_step hkk hf hr]
        unfold Row.lhs
        simp only [zero_mul, Finset.sum_const_zero, add_zero]
        rw [sum_block_ite2 (by omega) (c.E.e r)]
        exact H k (by omega) r hr
  | control =>
    rw [hkk] at h
    have hq : c.ineq = c.isIneq := by unfold ineq; rw [hkk]
    have D := h.dims
    have Z := h.sizes
    unfold userData
    simp only [hkk, hq]
    by_cases hf : c.fullSizeEntry
    · rw [if_pos hf] at D
      obtain ⟨D0, _⟩ := D
      rw [if_pos hf]
      simp only [ConstrData.Each]
      rw [if_neg D0, ← Z.Ar]
      unfold row Row.lhs
      simp only [hkk, hf, if_true, zero_mul, Finset.sum_const_zero, zero_add]
      simp only [lhs_ctrl_full]
    · rw [if_neg hf] at D
      simp only [Bool.not_eq_true] at hf
      obtain ⟨D1, D2, D3, _⟩ := D
      rw [if_neg (by simp [hf])]
      simp only [ConstrData.Each]
      rw [if_pos D1, D3, forall_blk]
      have key : ∀ k < d.N, ∀ r < c.G.rows, (c.row d (k * c.G.rows + r)).lhs d X U =
          ∑ t ∈ Finset.range d.m, c.G.e r t * ctrl d U k t ∧
          (c.row d (k * c.G.rows + r)).rhs = c.f.e r := by
        intro k hkN r hr
        unfold row blockRow Row.lhs
        simp only [hkk, hf, Bool.false_eq_true, if_false, blk_div hr, blk_mod hr, zero_mul,
          Finset.sum_const_zero, zero_add]
        refine ⟨?_, trivial⟩
        exact lhs_ctrl_step hkN (c.G.e r)
      refine forall₂_congr fun k hkN => forall₂_congr fun r hr => ?_
      rw [(key k hkN r hr).1, (key k hkN r hr).2]
  | mixed =>
    rw [hkk] at h
    have hq : c.ineq = c.isIneq := by unfold ineq; rw [hkk]
    have D := h.dims
    unfold userData
    simp only [hkk, ConstrData.Each, hq]
    by_cases hf : c.fullSizeEntry
    · rw [if_pos hf] at D
      obtain ⟨D0, D1, D2, D3⟩ := D
      rw [if_neg D0, D3]
      unfold row Row.lhs
      simp only [hkk, hf, if_true]
      simp only [lhs_ctrl_full]
    · rw [if_neg hf] at D
      simp only [Bool.not_eq_true] at hf
      obtain ⟨D1, D2, D3, _⟩ := D
      rw [if_pos ⟨D1, D2⟩, D3, forall_blk]
      have key : ∀ k < d.N, ∀ r < c.E.rows, (c.row d (k * c.E.rows + r)).lhs d X U =
          (∑ t ∈ Finset.range d.n, c.E.e r t * X k t) + ∑ t ∈ Finset.range d.m, c.G.e r t * ctrl d U k t ∧
          (c.row d (k * c.E.rows + r)).rhs = c.f.e r := by
        intro k hkN r hr
        unfold row blockRow Row.lhs
        simp only [hkk, hf, h.rowsG, blk_div hr, blk_mod hr]
        refine ⟨?_, rfl⟩
        show _ + _ = _ + _
        congr 1
        · exact sum_block_ite2 (by omega) (c.E.e r) X
        · exact lhs_ctrl_step hkN _
      refine forall₂_congr fun k hkN => forall₂_congr fun r hr => ?_
      rw [(key k hkN r hr).1, (key k hkN r hr).2]

theorem sem_each {d : Dims} {ps : PreviewSystem K} {c c' : Constr K} (hk : c.kind ≠ .ctrlBound)
    (hr : Reg d c) (hl : World.LinesCurrent c) (hh : c.userData.Honest) (P : SysPred d ps)
    (hrows : ∀ i < c.nrConstr, RowIs d ps c' i (c.row d i)) (δ : K) (U : Nat → K) :
    (∀ i < c.nrConstr, RelWithin δ c.ineq (∑ j ∈ Finset.range (d.m * d.N), c'.A.e i j * U j) (c'.b.e i)) ↔
      c.userData.HoldsWithin d δ (sim d ps.A ps.B ps.d ps.x0.e U) U := by
  have e := rows_each hk hr hl hh (RelWithin δ) (BoundWithin δ)
    (fun a u => ⟨fun h => h.2, fun h => ⟨trivial, h⟩⟩) (fun a => trivial) (sim d ps.A ps.B ps.d ps.x0.e U) U
  unfold ConstrData.HoldsWithin
  rw [← e]
  refine forall₂_congr fun i hi => ?_
  rw [(hrows i hi).within_b, Row.lhs_congr (predC_eq_sim P ps.x0.e U)]

/-- The bounds of a registered control bound constraint, within a tolerance. -/
theorem bounds_within {d : Dims} {c : Constr K} (hk : c.kind = .ctrlBound) (h : RegCtrlBound d c)
    (hst : c.fullSizeEntry = false → ∀ k < d.N, ∀ r < d.m,
        c.lb.e (k * d.m + r) = c.lower.e r ∧ c.ub.e (k * d.m + r) = c.upper.e r)
    (δ : K) (X : Nat → Nat → K) (U : Nat → K) :
    (∀ j < d.m * d.N, BoundWithin δ (c.lb.e j) (U j) (c.ub.e j)) ↔ c.userData.HoldsWithin d δ X U := by
  have D := h.dims
  rw [forall_blk]
  unfold userData
  simp only [hk]
  by_cases hf : c.fullSizeEntry
  · rw [if_pos hf] at D ⊢
    simp only [ConstrData.HoldsWithin, ConstrData.Each]
    rw [if_neg (by rw [h.lbr]; exact D)]
    rfl
  · rw [if_neg hf] at D ⊢
    simp only [Bool.not_eq_true] at hf
    simp only [ConstrData.HoldsWithin, ConstrData.Each]
    rw [if_pos D]
    refine forall₂_congr fun k hkN => forall₂_congr fun r hr => ?_
    rw [(hst hf k hkN r hr).1, (hst hf k hkN r hr).2]
    rfl

end Constr

namespace World

/-- The rows of the registered constraints after a solve, within a tolerance. -/
theorem Solved.rows_within {d : Dims} {p : Nat} {env : SolveEnv K} {w w' : World K} {b : Bool} {q : QP K}
    (S : Solved d p env w w' b q) {i : Nat} (hi : i ∈ w.ctl.spConstr) (hk : (w.cons i).kind ≠ .ctrlBound)
    (hl : LinesCurrent (w.cons i)) (hh : (w.cons i).userData.Honest) (δ : K) (U : Nat → K) :
    (∀ r < (w'.cons i).nrConstr, RelWithin δ (w.cons i).ineq
      (∑ j ∈ Finset.range (d.m * d.N), (w'.cons i).A.e r j * U j) ((w'.cons i).b.e r)) ↔
      (w.cons i).userData.HoldsWithin d δ (Spec.traj d w p U) U := by
  obtain ⟨r, f, u⟩ := (S.heap.cons i).1 hi
  have hk' : (w'.cons i).kind ≠ .ctrlBound := by rw [f.kind]; exact hk
  have hl' : LinesCurrent (w'.cons i) := by
    intro h
    rw [f.lowerLines, f.upperLines, f.lower, f.upper]
    exact hl (by rw [← f.kind]; exact h)
  have := Constr.sem_each hk' r hl' (by rw [f.userData]; exact hh) S.heap.pred (u.rows hk') δ U
  have hq : (w'.cons i).ineq = (w.cons i).ineq := by
    unfold Constr.ineq; rw [f.kind, f.isIneq]
  rw [hq] at this
  rw [this, f.userData, ← S.traj]
  rfl

/-- The feasible set of the problem handed to the solver by an `LMPC`, within a tolerance. -/
theorem Solved.feasibleWithin {d : Dims} {dmax : K} {p : Nat} {env : SolveEnv K} {w w' : World K} {g : Ghost} {b : Bool} {q : QP K}
    (hg : Good d dmax w g) (hp : w.ctl.ps = some p) (S : Solved d p env w w' b q) (hi : w.ctl.isInit = false)
    (hc : w.ctl.spBoundConstr = [] → g.clean) (hl : ∀ i ∈ w.ctl.spConstr, LinesCurrent (w.cons i))
    (hh : ∀ i ∈ w.ctl.spConstr, (w.cons i).userData.Honest) (δ : K) (U : Nat → K) :
    FeasibleWithin δ q U ↔
      (∀ i ∈ w.ctl.spConstr, (w.cons i).userData.HoldsWithin d δ (Spec.traj d w p U) U) ∧
      (w.ctl.spBoundConstr = [] → ∀ j < d.m * d.N, -dmax ≤ U j + δ ∧ U j - δ ≤ dmax) := by
  have C := hg.canUpdate hp
  have A := S.plain hi
  obtain ⟨t1, t2, t3⟩ := C.typed
  have e1 : (∀ i < q.Aeq.rows, ∃ t, q.beq.e i = Ext.fin t ∧ |rowValue q.Aeq U i - t| ≤ δ) ↔
      ∀ i ∈ w.ctl.spEqConstr, (w.cons i).userData.HoldsWithin d δ (Spec.traj d w p U) U := by
    rw [A.eq.forall (fun a b => ∃ t, b = Ext.fin t ∧ |a - t| ≤ δ) U]
    refine forall₂_congr fun i hi' => ?_
    obtain ⟨a1, a2, a3⟩ := t1 i hi'
    rw [← S.rows_within a1 a2 (hl i a1) (hh i a1) δ U, a3]
    simp [RelWithin]
  have e2 : (∀ i < q.Aineq.rows, Ext.fin (rowValue q.Aineq U i - δ) ≤ q.bineq.e i) ↔
      ∀ i ∈ w.ctl.spIneqConstr, (w.cons i).userData.HoldsWithin d δ (Spec.traj d w p U) U := by
    rw [A.ineq.forall (fun a b => Ext.fin (a - δ) ≤ b) U]
    refine forall₂_congr fun i hi' => ?_
    obtain ⟨a1, a2, a3⟩ := t2 i hi'
    rw [← S.rows_within a1 a2 (hl i a1) (hh i a1) δ U, a3]
    simp [RelWithin]
  have e3 : ((∀ j < q.lb.rows, q.lb.e j ≤ Ext.fin (U j + δ)) ∧ (∀ j < q.ub.rows, Ext.fin (U j - δ) ≤ q.ub.e j)) ↔
      (∀ i ∈ w.ctl.spBoundConstr, (w.cons i).userData.HoldsWithin d δ (Spec.traj d w p U) U) ∧
      (w.ctl.spBoundConstr = [] → ∀ j < d.m * d.N, -dmax ≤ U j + δ ∧ U j - δ ≤ dmax) := by
    rw [A.lbr, A.ubr]
    have hlen := C.one
    rcases hb : w.ctl.spBoundConstr with _ | ⟨i, _ | ⟨i', r⟩⟩
    · obtain ⟨k1, k2⟩ := A.keep hb
      have cl := hg.clean (hc hb) (by rw [hp]; exact Option.some_ne_none _)
      have off0 : off d w.ctl = 0 := by unfold off; rw [hi]; rfl
      rw [off0] at cl
      simp only [Nat.zero_add] at cl
      rw [k1, k2]
      constructor
      · rintro ⟨h1, h2⟩
        refine ⟨fun i hi => absurd hi List.not_mem_nil, fun _ j hj => ⟨?_, ?_⟩⟩
        · have := h1 j hj; rw [(cl j hj).1] at this; exact this
        · have := h2 j hj; rw [(cl j hj).2] at this; exact this
      · rintro ⟨_, h2⟩
        constructor
        · intro j hj; rw [(cl j hj).1]; exact (h2 rfl j hj).1
        · intro j hj; rw [(cl j hj).2]; exact (h2 rfl j hj).2
    · have hq := A.bound i hb
      obtain ⟨a1, a2⟩ := t3 i (by rw [hb]; exact List.mem_singleton_self _)
      obtain ⟨r, f, u⟩ := (S.heap.cons i).1 a1
      have hk' : (w'.cons i).kind = .ctrlBound := by rw [f.kind]; exact a2
      unfold Constr.Reg at r
      rw [hk'] at r
      have this := Constr.bounds_within hk' r (u.bounds hk') δ (Spec.traj d w p U) U
      rw [f.userData] at this
      simp only [List.mem_singleton, forall_eq, List.cons_ne_nil, false_implies, and_true]
      rw [← this]
      unfold BoundWithin
      constructor
      · rintro ⟨h1, h2⟩ j hj
        rw [← (hq j hj).1, ← (hq j hj).2]; exact ⟨h1 j hj, h2 j hj⟩
      · intro h
        constructor
        · intro j hj; rw [(hq j hj).1]; exact (h j hj).1
        · intro j hj; rw [(hq j hj).2]; exact (h j hj).2
    · rw [hb] at hlen; simp at hlen
  unfold FeasibleWithin
  rw [e1, e2, e3]
  constructor
  · rintro ⟨h1, h2, h3, h4⟩
    refine ⟨?_, h4⟩
    intro i hi
    rcases (mem_registered C.part i).1 hi with h | h | h
    · exact h1 i h
    · exact h2 i h
    · exact h3 i h
  · rintro ⟨h1, h4⟩
    exact ⟨fun i h => h1 i ((mem_registered C.part i).2 (Or.inl h)),
      fun i h => h1 i ((mem_registered C.part i).2 (Or.inr (Or.inl h))),
      fun i h => h1 i ((mem_registered C.part i).2 (Or.inr (Or.inr h))), h4⟩

end World
end
end Copra
