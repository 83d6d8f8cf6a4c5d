import Verif.Proofs.RoundExist
import Verif.Props.Tolerance
import Verif.Props.AnyArith

/-! # C98: rounding errors

`w` is the state of a program on machine numbers, `v` that of the same program on exact numbers, `t` that of the same program
on numbers with error bars (SpecRound.lean).  The machine arithmetic obeys the standard model `Rounds`. -/

set_option linter.unusedSectionVars false

namespace Copra
open Spec
variable {K L : Type} [Zero K] [One K] [Add K] [Sub K] [Neg K] [Mul K] [Arith K] [Field L] [LinearOrder L] [IsStrictOrderedRing L]
  {ρ : FP L} {val : K → Option L}

/-! ## Problems that are close -/

section near

theorem extR_real {e : Ext K} {te : Ext (Tr ρ)} {ve : Ext L} {β : L} (h : ExtR (Tr.Encloses val) e te) (g : ExtR Tr.Exact te ve)
    (hb : ExtBar te β) : 0 ≤ β ∧ ((realExt val e = .ninf ∧ ve = .ninf) ∨ (realExt val e = .pinf ∧ ve = .pinf) ∨
      ∃ x y, realExt val e = .fin x ∧ ve = .fin y ∧ |x - y| ≤ β) := by
  cases e <;> cases te <;> cases ve <;> first | exact h.elim | exact g.elim | skip
  · exact ⟨hb, .inl ⟨rfl, rfl⟩⟩
  · obtain ⟨e', h1, h2⟩ := hb
    obtain ⟨x, hx, k⟩ := h e' h1
    have g' : _ = _ := g
    rw [g'] at k
    refine ⟨(abs_nonneg _).trans (k.trans h2), .inr (.inr ⟨x, _, ?_, rfl, k.trans h2⟩)⟩
    show Ext.fin ((val _).getD 0) = _
    rw [hx]; rfl
  · exact ⟨hb, .inr (.inl ⟨rfl, rfl⟩)⟩

theorem num_real {a : K} {t : Tr ρ} {v e : L} (h : Tr.Encloses val a t) (g : Tr.Exact t v) (hb : Bar t e) :
    |(val a).getD 0 - v| ≤ e := by
  obtain ⟨e', h1, h2⟩ := hb
  obtain ⟨x, hx, k⟩ := h e' h1
  rw [hx]
  have g' : t.val = v := g
  rw [g'] at k
  exact k.trans h2

theorem row_near {A : Mat K} {tA : Mat (Tr ρ)} {vA : Mat L} (h : MatR (Tr.Encloses val) A tA) (g : MatR Tr.Exact tA vA) (x : Nat → L)
    {a : Nat → L} {i : Nat} (hb : ∀ j < tA.cols, Bar (tA.e i j) (a j)) :
    |rowValue (realMat val A) x i - rowValue vA x i| ≤ ∑ j ∈ Finset.range tA.cols, a j * |x j| := by
  unfold rowValue
  show |(∑ j ∈ Finset.range A.cols, (val (A.e i j)).getD 0 * x j) - _| ≤ _
  rw [h.cols, ← g.cols, ← Finset.sum_sub_distrib]
  refine (Finset.abs_sum_le_sum_abs _ _).trans (Finset.sum_le_sum fun j hj => ?_)
  rw [← sub_mul, abs_mul]
  exact mul_le_mul_of_nonneg_right (num_real (h.e i j) (g.e i j) (hb j (Finset.mem_range.1 hj))) (abs_nonneg _)

/-- Two rows with nearby residuals. -/
theorem rel_near {τ δ r s : L} {e f : Ext L} {isIneq : Bool} {β γ : L} (hr : |r - s| ≤ γ) (hβ : γ + β ≤ δ)
    (h : 0 ≤ β ∧ ((e = .ninf ∧ f = .ninf) ∨ (e = .pinf ∧ f = .pinf) ∨ ∃ x y, e = .fin x ∧ f = .fin y ∧ |x - y| ≤ β))
    (k : RelWithin τ isIneq r e) : RelWithin (τ + δ) isIneq s f := by
  obtain ⟨h0, h⟩ := h
  have a1 := abs_le.1 hr
  unfold RelWithin at *
  split at k
  · rename_i hc
    rw [if_pos hc]
    rcases h with ⟨rfl, rfl⟩ | ⟨rfl, rfl⟩ | ⟨x, y, rfl, rfl, h⟩
    · exact k.elim
    · trivial
    · have k' : r - τ ≤ x := k
      have a2 := abs_le.1 h
      show s - (τ + δ) ≤ y
      linarith [a1.1, a2.1, a1.2, a2.2]
  · rename_i hc
    rw [if_neg hc]
    obtain ⟨t, rfl, k⟩ := k
    rcases h with ⟨h, -⟩ | ⟨h, -⟩ | ⟨x, y, h1, rfl, h⟩
    · cases h
    · cases h
    · injection h1 with h1
      subst h1
      refine ⟨y, rfl, ?_⟩
      have a2 := abs_le.1 h
      have a3 := abs_le.1 k
      rw [abs_le]
      constructor <;> linarith [a1.1, a2.1, a1.2, a2.2, a3.1, a3.2]

theorem flip_near {e f : Ext L} {β : L}
    (h : 0 ≤ β ∧ ((e = .ninf ∧ f = .ninf) ∨ (e = .pinf ∧ f = .pinf) ∨ ∃ x y, e = .fin x ∧ f = .fin y ∧ |x - y| ≤ β)) :
    0 ≤ β ∧ ((f = .ninf ∧ e = .ninf) ∨ (f = .pinf ∧ e = .pinf) ∨ ∃ x y, f = .fin x ∧ e = .fin y ∧ |x - y| ≤ β) := by
  obtain ⟨h0, ⟨a, b⟩ | ⟨a, b⟩ | ⟨x, y, a, b, h⟩⟩ := h
  · exact ⟨h0, .inl ⟨b, a⟩⟩
  · exact ⟨h0, .inr (.inl ⟨b, a⟩)⟩
  · exact ⟨h0, .inr (.inr ⟨y, x, b, a, by rwa [abs_sub_comm]⟩)⟩

theorem lower_near {τ δ x : L} {e f : Ext L}
    (h : 0 ≤ δ ∧ ((e = .ninf ∧ f = .ninf) ∨ (e = .pinf ∧ f = .pinf) ∨ ∃ x y, e = .fin x ∧ f = .fin y ∧ |x - y| ≤ δ))
    (k : e ≤ Ext.fin (x + τ)) : f ≤ Ext.fin (x + (τ + δ)) := by
  obtain ⟨h0, ⟨rfl, rfl⟩ | ⟨rfl, rfl⟩ | ⟨a, b, rfl, rfl, h⟩⟩ := h
  · trivial
  · exact k.elim
  · have k' : a ≤ x + τ := k
    have := abs_le.1 h
    show b ≤ x + (τ + δ)
    linarith [this.1]

theorem upper_near {τ δ x : L} {e f : Ext L}
    (h : 0 ≤ δ ∧ ((e = .ninf ∧ f = .ninf) ∨ (e = .pinf ∧ f = .pinf) ∨ ∃ x y, e = .fin x ∧ f = .fin y ∧ |x - y| ≤ δ))
    (k : Ext.fin (x - τ) ≤ e) : Ext.fin (x - (τ + δ)) ≤ f := by
  obtain ⟨h0, ⟨rfl, rfl⟩ | ⟨rfl, rfl⟩ | ⟨a, b, rfl, rfl, h⟩⟩ := h
  · exact k.elim
  · trivial
  · have k' : x - τ ≤ a := k
    have := abs_le.1 h
    show x - (τ + δ) ≤ b
    linarith [this.2]

variable {q : QP K} {tq : QP (Tr ρ)} {vq : QP L}

theorem feasible_near (h : QPR (Tr.Encloses val) q tq) (g : QPR Tr.Exact tq vq) {x : Nat → L} {τ δ : L} (hb : ConstraintBar tq x δ)
    (hf : FeasibleWithin τ (realQP val q) x) : FeasibleWithin (τ + δ) vq x := by
  obtain ⟨b1, b2, b3, b4⟩ := hb
  obtain ⟨f1, f2, f3, f4⟩ := hf
  refine ⟨fun i hi => ?_, fun i hi => ?_, fun j hj => ?_, fun j hj => ?_⟩
  · rw [← g.Aeq.rows] at hi
    obtain ⟨a, β, k1, k2, k3⟩ := b1 i hi
    rw [← h.Aeq.rows] at hi
    exact (show RelWithin (τ + δ) false _ _ from rel_near (row_near h.Aeq g.Aeq x k1) k3 (extR_real (h.beq.e i) (g.beq.e i) k2) (f1 i hi))
  · rw [← g.Aineq.rows] at hi
    obtain ⟨a, β, k1, k2, k3⟩ := b2 i hi
    rw [← h.Aineq.rows] at hi
    exact (show RelWithin (τ + δ) true _ _ from rel_near (row_near h.Aineq g.Aineq x k1) k3 (extR_real (h.bineq.e i) (g.bineq.e i) k2) (f2 i hi))
  · rw [← g.lb.rows] at hj
    have k := extR_real (h.lb.e j) (g.lb.e j) (b3 j hj)
    rw [← h.lb.rows] at hj
    exact lower_near k (f3 j hj)
  · rw [← g.ub.rows] at hj
    have k := extR_real (h.ub.e j) (g.ub.e j) (b4 j hj)
    rw [← h.ub.rows] at hj
    exact upper_near k (f4 j hj)

theorem feasible_near' (h : QPR (Tr.Encloses val) q tq) (g : QPR Tr.Exact tq vq) {x : Nat → L} {τ δ : L} (hb : ConstraintBar tq x δ)
    (hf : FeasibleWithin τ vq x) : FeasibleWithin (τ + δ) (realQP val q) x := by
  obtain ⟨b1, b2, b3, b4⟩ := hb
  obtain ⟨f1, f2, f3, f4⟩ := hf
  refine ⟨fun i hi => ?_, fun i hi => ?_, fun j hj => ?_, fun j hj => ?_⟩
  · replace hi : i < q.Aeq.rows := hi
    rw [h.Aeq.rows] at hi
    obtain ⟨a, β, k1, k2, k3⟩ := b1 i hi
    rw [g.Aeq.rows] at hi
    have r := row_near h.Aeq g.Aeq x k1
    rw [abs_sub_comm] at r
    exact (show RelWithin (τ + δ) false _ _ from rel_near r k3 (flip_near (extR_real (h.beq.e i) (g.beq.e i) k2)) (f1 i hi))
  · replace hi : i < q.Aineq.rows := hi
    rw [h.Aineq.rows] at hi
    obtain ⟨a, β, k1, k2, k3⟩ := b2 i hi
    rw [g.Aineq.rows] at hi
    have r := row_near h.Aineq g.Aineq x k1
    rw [abs_sub_comm] at r
    exact (show RelWithin (τ + δ) true _ _ from rel_near r k3 (flip_near (extR_real (h.bineq.e i) (g.bineq.e i) k2)) (f2 i hi))
  · replace hj : j < q.lb.rows := hj
    rw [h.lb.rows] at hj
    have k := extR_real (h.lb.e j) (g.lb.e j) (b3 j hj)
    rw [g.lb.rows] at hj
    exact lower_near (flip_near k) (f3 j hj)
  · replace hj : j < q.ub.rows := hj
    rw [h.ub.rows] at hj
    have k := extR_real (h.ub.e j) (g.ub.e j) (b4 j hj)
    rw [g.ub.rows] at hj
    exact upper_near (flip_near k) (f4 j hj)

theorem objective_near (h : QPR (Tr.Encloses val) q tq) (g : QPR Tr.Exact tq vq) {x : Nat → L} {ε : L} (hb : ObjectiveBar tq x ε) :
    |objective (realQP val q) x - objective vq x| ≤ ε := by
  obtain ⟨EQ, Ec, h1, h2, h3⟩ := hb
  refine le_trans ?_ h3
  unfold objective quadValue
  show |1 / 2 * (∑ i ∈ Finset.range q.c.rows, ∑ j ∈ Finset.range q.c.rows, x i * (val (q.Q.e i j)).getD 0 * x j)
    + (∑ i ∈ Finset.range q.c.rows, (val (q.c.e i)).getD 0 * x i) - _| ≤ _
  rw [h.c.rows, ← g.c.rows]
  rw [add_sub_add_comm, ← mul_sub, ← Finset.sum_sub_distrib, ← Finset.sum_sub_distrib]
  refine (abs_add_le _ _).trans (add_le_add ?_ ?_)
  · rw [abs_mul, abs_of_nonneg (by norm_num : (0 : L) ≤ 1 / 2)]
    refine mul_le_mul_of_nonneg_left ((Finset.abs_sum_le_sum_abs _ _).trans (Finset.sum_le_sum fun i hi => ?_)) (by norm_num)
    rw [← Finset.sum_sub_distrib]
    refine (Finset.abs_sum_le_sum_abs _ _).trans (Finset.sum_le_sum fun j hj => ?_)
    rw [← sub_mul, ← mul_sub, abs_mul, abs_mul]
    exact mul_le_mul_of_nonneg_right (mul_le_mul_of_nonneg_left
      (num_real (h.Q.e i j) (g.Q.e i j) (h1 i (Finset.mem_range.1 hi) j (Finset.mem_range.1 hj))) (abs_nonneg _)) (abs_nonneg _)
  · refine (Finset.abs_sum_le_sum_abs _ _).trans (Finset.sum_le_sum fun j hj => ?_)
    rw [← sub_mul, abs_mul]
    exact mul_le_mul_of_nonneg_right (num_real (h.c.e j) (g.c.e j) (h2 j (Finset.mem_range.1 hj))) (abs_nonneg _)

end near

namespace World
variable {d : Dims} {dmax : K} {tmax : Tr ρ} {E : World K → Op K → Prop} {E' : World L → Op L → Prop} {rel : K → Tr ρ → Prop}
  {w w' : World K} {t t' : World (Tr ρ)} {v v' : World L} {g : Ghost} {env : SolveEnv K} {tenv : SolveEnv (Tr ρ)}
  {venv : SolveEnv L} {b : Bool} {q : QP K} {tq : QP (Tr ρ)} {vq : QP L} {p : Nat}

/-- C98, the tool: at every point of a program, every number of the state is within its error bar of the number of the
exact program, and both programs have the same sizes, switches and lists. -/
theorem c98_state (H : Rounds ρ val) (hm : Tr.Encloses val dmax tmax) (h : Side val rel dmax tmax w t v) :
    WorldR (Tr.Encloses val) w t ∧ WorldR Tr.Exact t v := h.related H hm

/-- C98, the tool: the next call keeps the programs together, also when it throws. -/
theorem c98_step (H : Rounds ρ val) (hm : Tr.Encloses val dmax tmax) (h : Side val rel dmax tmax w t v) {op : Op K}
    {top : Op (Tr ρ)} {vop : Op L} (ho : OpR (Tr.Encloses val) w op top) (ho' : OpR Tr.Exact t top vop) :
    ResR (WorldR (Tr.Encloses val)) (w.step dmax op) (t.step tmax top) ∧
    ResR (WorldR Tr.Exact) (t.step tmax top) (v.step tmax.val vop) :=
  ⟨(h.related H hm).1.step (Tr.scalar_encloses H) hm ho, (h.related H hm).2.step Tr.scalar_exact rfl ho'⟩

/-- C98: the problem handed over is within the error bars of the exact problem, entry by entry. -/
theorem c98_problem (H : Rounds ρ val) (hm : Tr.Encloses val dmax tmax)
    (h : SideSolve val rel dmax tmax w t v env tenv venv w' t' v' b q tq vq) :
    QPR (Tr.Encloses val) q tq ∧ QPR Tr.Exact tq vq := by
  obtain ⟨R1, R2⟩ := h.side.related H hm
  have k1 := R1.solve (Tr.scalar_encloses H) h.encloses
  have k2 := R2.solve Tr.scalar_exact h.exact
  rw [h.machine, h.bars] at k1
  rw [h.bars, h.ideal] at k2
  exact ⟨k1.qp, k2.qp⟩

/-- C98: so is the state afterwards. -/
theorem c98_after (H : Rounds ρ val) (hm : Tr.Encloses val dmax tmax)
    (h : SideSolve val rel dmax tmax w t v env tenv venv w' t' v' b q tq vq) :
    WorldR (Tr.Encloses val) w' t' ∧ WorldR Tr.Exact t' v' := by
  obtain ⟨R1, R2⟩ := h.side.related H hm
  have k1 := R1.solve (Tr.scalar_encloses H) h.encloses
  have k2 := R2.solve Tr.scalar_exact h.exact
  rw [h.machine, h.bars] at k1
  rw [h.bars, h.ideal] at k2
  exact ⟨k1.world, k2.world⟩

/-- The companions of a program on machine numbers exist, at every solve, with its data taken as they are. -/
theorem c98_exists (H : Rounds ρ val) (inv : Mat L → Mat L) (h : Hist d dmax E w g) (hE : ∀ w op, E w op → NoBoundSpan w op)
    (ho : OpOk d w g (.solve env)) (hs : w.solve env = some (w', b, q)) :
    ∃ t v tenv venv t' v' tq vq,
      SideSolve val (Tr.Taken val) dmax (Tr.lift ρ val dmax) w t v env tenv venv w' t' v' b q tq vq ∧
      Hist d (Tr.lift ρ val dmax).val NoBoundSpan v g ∧ OpOk d v g (.solve venv) := by
  obtain ⟨t, v, hS, hv⟩ := side_exists inv (E' := NoBoundSpan) H (fun w t v op top vop R1 R2 o1 o2 e => by
    have n := hE w op e
    cases op <;> cases top <;> first | exact o1.elim | skip
    all_goals cases vop <;> first | exact o2.elim | skip
    case spanConstr.spanConstr.spanConstr =>
      obtain ⟨rfl, _⟩ := o1
      obtain ⟨rfl, _⟩ := o2
      intro hk
      have := n ((R1.cons _).kind.trans ((R2.cons _).kind.trans hk))
      rw [← (R2.cons _).lower.rows, ← (R2.cons _).upper.rows, ← (R1.cons _).lower.rows, ← (R1.cons _).upper.rows]
      exact this
    all_goals exact trivial) h
  obtain ⟨R1, R2⟩ := hS.related H (Tr.lift_encloses _)
  have e1 := mEnv_encloses (ρ := ρ) (val := val) inv h ho
  have k1 := R1.solve (Tr.scalar_encloses H) e1
  have e2 := exactEnv_R (d := d) (val := val) inv t w env
  have k2 := R2.solve Tr.scalar_exact e2
  rw [hs] at k1
  generalize hte : mEnv (Tr.lift ρ val) (barInv ρ d inv) w env = tenv at *
  revert k1 k2
  cases s1 : t.solve tenv <;> intro k1
  · exact k1.elim
  cases s2 : v.solve (exactEnv d inv tenv) <;> intro k2
  · exact k2.elim
  rename_i a c
  obtain ⟨t', b1, tq⟩ := a
  obtain ⟨v', b2, vq⟩ := c
  obtain rfl : b = b1 := k1.flag
  obtain rfl : b = b2 := k2.flag
  refine ⟨t, v, tenv, exactEnv d inv tenv, t', v', tq, vq, ⟨hS, e1, ?_, e2, hs, s1, s2⟩, hv, ?_⟩
  · intro q q' hq _
    rw [← hte, mEnv_answer hq]
    exact mV_R Tr.lift_taken _
  · refine ⟨R2.ctl.ps ▸ R1.ctl.ps ▸ ho.1, ?_⟩
    rw [← hte]
    exact exactEnv_contract R2 (mEnv_contract inv h ho R1)

/-- With the data taken as they are, the exact program's solver returns the numbers the machine solver returned. -/
theorem c98_same_answer (H : Rounds ρ val) (hm : Tr.Encloses val dmax tmax)
    (h : SideSolve val (Tr.Taken val) dmax tmax w t v env tenv venv w' t' v' b q tq vq) :
    (env.answer q).1 = b ∧ (venv.answer vq).1 = b ∧ (venv.answer vq).2.rows = (env.answer q).2.rows ∧
    ∀ j, (venv.answer vq).2.e j = (val ((env.answer q).2.e j)).getD 0 := by
  obtain ⟨k1, k2⟩ := c98_problem H hm h
  have hq := handed_of_solve h.machine
  have htq := handed_of_solve h.bars
  have hvq := handed_of_solve h.ideal
  have a1 := h.data q tq hq.1 htq.1
  obtain ⟨a2, a3⟩ := h.exact.answer tq vq htq.1 k2
  refine ⟨hq.2.symm, hvq.2.symm, a3.rows.symm.trans a1.rows.symm, fun j => ?_⟩
  have e1 : (tenv.answer tq).2.e j = Tr.lift ρ val ((env.answer q).2.e j) := a1.e j
  have e2 : ((tenv.answer tq).2.e j).val = (venv.answer vq).2.e j := a3.e j
  rw [← e2, e1]
  unfold Tr.lift
  cases val ((env.answer q).2.e j) <;> rfl

/-- C98: a point that satisfies the constraints of the machine's problem up to `τ` satisfies the declared constraints, along
the exact simulation, up to `τ + δ`, when the error bars of the problem at that point sum to at most `δ`. -/
theorem c98_feasible (H : Rounds ρ val) (hm : Tr.Encloses val dmax tmax)
    (h : SideSolve val rel dmax tmax w t v env tenv venv w' t' v' b q tq vq) (hv : Hist d tmax.val E' v g)
    (hE : ∀ w op, E' w op → NoBoundSpan w op) (ho : OpOk d v g (.solve venv)) (hi : v.ctl.isInit = false)
    (hb : v.ctl.spBoundConstr = [] → g.clean) (hh : ∀ i ∈ v.ctl.spConstr, (v.cons i).userData.Honest) (hp : v.ctl.ps = some p)
    {U : Nat → L} {τ δ : L} (hf : FeasibleWithin τ (realQP val q) U) (hd : ConstraintBar tq U δ) :
    ∀ i ∈ v.ctl.spConstr, (v.cons i).userData.HoldsWithin d (τ + δ) (Spec.traj d v p U) U := by
  obtain ⟨k1, k2⟩ := c98_problem H hm h
  exact ((c71_residuals hv hE ho hi hb hh h.ideal hp _ U).1 (feasible_near k1 k2 hd hf)).1

/-- C98: a point that is within `ε` of the best feasible value of the machine's problem costs at most `ε + εU + εV` more than
any controls `V` that satisfy the declared constraints with a margin `δ`, the error bars at `V`. -/
theorem c98_cost (H : Rounds ρ val) (hm : Tr.Encloses val dmax tmax)
    (h : SideSolve val rel dmax tmax w t v env tenv venv w' t' v' b q tq vq) (hv : Hist d tmax.val E' v g)
    (hE : ∀ w op, E' w op → NoBoundSpan w op) (ho : OpOk d v g (.solve venv)) (hi : v.ctl.isInit = false)
    (hb : v.ctl.spBoundConstr = [] → g.clean) (hh : ∀ i ∈ v.ctl.spConstr, (v.cons i).userData.Honest) (hp : v.ctl.ps = some p)
    (hc : CostsFresh d v g)
    {U : Nat → L} {ε εU : L} (ho' : ∀ y, Feasible (realQP val q) y → objective (realQP val q) U ≤ objective (realQP val q) y + ε)
    (hu : ObjectiveBar tq U εU) {V : Nat → L} {δ εV : L} (hV : ObjectiveBar tq V εV) (hd : ConstraintBar tq V δ)
    (ha : ∀ i ∈ v.ctl.spConstr, (v.cons i).userData.HoldsWithin d (-δ) (Spec.traj d v p V) V)
    (hr : ∀ j < d.m * d.N, -tmax.val ≤ V j + -δ ∧ V j - -δ ≤ tmax.val) :
    totalCost d v p U ≤ totalCost d v p V + (ε + εU + εV) := by
  obtain ⟨k1, k2⟩ := c98_problem H hm h
  obtain ⟨κ, O⟩ := c32_objective hv ho hi hc h.ideal hp
  have f := feasible_near' k1 k2 hd ((c71_residuals hv hE ho hi hb hh h.ideal hp (-δ) V).2 ⟨ha, fun _ => hr⟩)
  rw [neg_add_cancel, feasibleWithin_zero] at f
  have a := ho' V f
  have a1 := abs_le.1 (objective_near k1 k2 hu)
  have a2 := abs_le.1 (objective_near k1 k2 hV)
  rw [O] at a1 a2
  linarith [a1.1, a1.2, a2.1, a2.2]

/-- C98: after a successful solve, the trajectory handed back is the exact simulation of the controls handed back, up to the
error bars. -/
theorem c98_trajectory (H : Rounds ρ val) (hm : Tr.Encloses val dmax tmax)
    (h : SideSolve val (Tr.Taken val) dmax tmax w t v env tenv venv w' t' v' true q tq vq) (hv : Hist d tmax.val E' v g)
    (ho : OpOk d v g (.solve venv)) (hi : v.ctl.isInit = false) (hp : v.ctl.ps = some p) {k c : Nat} (hk : k ≤ d.N) (hc : c < d.n)
    {e : L} (hb : Bar (t'.ctl.trajectory.e (k * d.n + c)) e) :
    ∃ x, val (w'.ctl.trajectory.e (k * d.n + c)) = some x ∧
      |x - Spec.traj d v p (fun j => (val (w'.ctl.control.e j)).getD 0) k c| ≤ e := by
  obtain ⟨R1, R2⟩ := c98_after H hm h
  obtain ⟨e', h1, h2⟩ := hb
  obtain ⟨x, hx, kx⟩ := R1.ctl.trajectory.e (k * d.n + c) e' h1
  refine ⟨x, hx, ?_⟩
  have x1 : (t'.ctl.trajectory.e (k * d.n + c)).val = v'.ctl.trajectory.e (k * d.n + c) := R2.ctl.trajectory.e _
  obtain ⟨-, S, -⟩ := c40_success hv ho h.ideal hp
  obtain ⟨-, S⟩ := S hi
  have x2 : v'.ctl.trajectory.e (k * d.n + c) = Spec.traj d v p v'.ctl.control.e k c := S.2 k c hk hc
  have x3 : v'.ctl.control.e = fun j => (val (w'.ctl.control.e j)).getD 0 := by
    funext j
    have hi' : w.ctl.isInit = false := (h.side.related H hm).1.ctl.isInit.trans ((h.side.related H hm).2.ctl.isInit.trans hi)
    rw [c97_control_is_answer hi' h.machine, c97_control_is_answer hi h.ideal]
    exact (c98_same_answer H hm h).2.2.2 j
  rw [x1, x2, x3] at kx
  exact kx.trans h2

end World
end Copra
