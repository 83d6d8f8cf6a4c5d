import Verif.Proofs.Shadow
import Verif.Props.Results
import Verif.Props.Registry

/-! # C97: sizes, exceptions and definedness do not depend on the arithmetic

`K` is any type with the operations of the scalars, exact or not: nothing at all is assumed about them (rounding, overflow,
NaN, any order of summation in a product). -/

set_option linter.unusedSectionVars false

namespace Copra
open Spec
variable {K L : Type} [Zero K] [One K] [Add K] [Sub K] [Neg K] [Mul K] [Arith K]
  [Zero L] [One L] [Add L] [Sub L] [Neg L] [Mul L] [Arith L]

namespace World

theorem reachable_of_hist {K : Type} [Field K] {d : Dims} {dmax : K} {E : World K → Op K → Prop} {w : World K} {g : Ghost}
    (h : Hist d dmax E w g) : Reachable dmax w := by
  induction h with
  | start h => exact ⟨_, [], h, rfl⟩
  | ok _ _ _ hs ih => exact ih.step (Or.inl hs)
  | thrown _ _ _ hs ih => exact ih.step (Or.inr ⟨_, hs⟩)

theorem rowCount_R {w : World K} {v : World L} (h : WorldR AnyNum w v) (l : List Nat) : rowCount w l = rowCount v l := by
  unfold rowCount
  congr 1
  apply List.map_congr_left
  intro i _
  exact (h.cons i).nrConstr

theorem parts_constr_R {c : Constr K} {c' : Constr L} (h : ConstrR AnyNum c c') : c.userData.parts = c'.userData.parts := by
  unfold Constr.userData
  rw [← h.kind, ← h.fullSizeEntry]
  cases c.kind <;> cases c.fullSizeEntry <;>
    simp only [ConstrData.parts, h.E.rows, h.G.rows, h.f.rows, h.lower.rows, h.upper.rows, h.A.rows, h.b.rows, h.lb.rows, h.ub.rows,
      if_true, if_false, Bool.false_eq_true]

theorem parts_cost_R {c : Cost K} {c' : Cost L} (h : CostR AnyNum c c') : c.userData.parts = c'.userData.parts := by
  unfold Cost.userData
  rw [← h.kind]
  cases c.kind <;> simp only [CostData.parts, h.M.rows, h.N.rows, h.p.rows, h.weights.rows]

theorem rowsNeeded_R {c : Constr K} {c' : Constr L} (h : ConstrR AnyNum c c') (d : Dims) :
    Constr.rowsNeeded d c = Constr.rowsNeeded d c' := by
  unfold Constr.rowsNeeded
  rw [← h.kind]
  cases c.kind <;> simp only [h.E.rows, h.E.cols, h.G.rows, h.G.cols, h.lower.rows, h.lowerLines, h.upperLines]

theorem opSafe_R {d : Dims} {w : World K} {v : World L} (h : WorldR AnyNum w v) {op : Op K} {op' : Op L} (ho : OpR AnyNum w op op')
    (hs : OpSafe d w op) : OpSafe d v op' := by
  cases op <;> cases op' <;> first | exact ho.elim | skip
  case spanConstr.spanConstr => obtain ⟨rfl, _⟩ := ho; dsimp only [OpSafe] at *; rw [← parts_constr_R (h.cons _)]; exact hs
  case spanCost.spanCost => obtain ⟨rfl, _⟩ := ho; dsimp only [OpSafe] at *; rw [← parts_cost_R (h.costs _)]; exact hs
  case initConstr.initConstr => obtain ⟨rfl, _⟩ := ho; dsimp only [OpSafe] at *; rw [← rowsNeeded_R (h.cons _)]; exact hs
  case addConstraint.addConstraint =>
    obtain ⟨rfl, _⟩ := ho
    dsimp only [OpSafe] at *
    rw [← rowsNeeded_R (h.cons _), ← h.ctl.nrEqConstr, ← h.ctl.nrIneqConstr, ← h.ctl.ps]
    exact hs
  case addCost.addCost => dsimp only [OpSafe] at *; rw [← h.ctl.ps]; exact hs
  case clearConstraints.clearConstraints => dsimp only [OpSafe] at *; rw [← h.ctl.ps]; exact hs
  case weights.weights => obtain ⟨rfl, e⟩ := ho; dsimp only [OpSafe] at *; rw [← e.rows]; exact hs
  case constructPs.constructPs => obtain ⟨rfl, _⟩ := ho; exact hs
  case initializeController.initializeController => dsimp only [OpSafe] at *; rw [← h.ctl.isInit]; exact hs
  all_goals exact hs

/-- C97: two programs, on any two arithmetics, that make the same calls with data of the same sizes (and the same infinite
bounds) and get solver answers of the same sizes: every call has the same outcome - it returns, or throws the same
exception, or is undefined behaviour, on both - and the states have again the same sizes, switches and lists. -/
theorem c97_outcome {dm : K} {dm' : L} {w : World K} {v : World L} (h : WorldR AnyNum w v) {op : Op K} {op' : Op L}
    (ho : OpR AnyNum w op op') : ResR (WorldR AnyNum) (w.step dm op) (v.step dm' op') :=
  h.step scalarAny trivial ho

variable {d : Dims} {dmax : K} {E : World K → Op K → Prop} {w w' : World K} {g : Ghost}

/-- C97: a call that keeps to the rules on sizes is never undefined behaviour, whatever the arithmetic. -/
theorem c97_defined (h : Hist d dmax E w g) {op : Op K} (ho : OpOk d w g op) (hs : OpSafe d w op) : w.step dmax op ≠ .ub := by
  obtain ⟨v, hv, hR⟩ := hist_R (E' := AnyOp) (fun _ _ _ _ _ _ _ => trivial) h
  obtain ⟨op', hop, hok⟩ := op_R hR hv op ho
  have k := c77_defined hv hok (opSafe_R hR hop hs)
  have r := hR.step scalarAny (dm := dmax) (dm' := 0) trivial hop
  intro e
  rw [e] at r
  revert r k
  cases v.step 0 op' <;> intro k r
  · exact r
  · exact r
  · exact k rfl

/-- So a program never gets stuck. -/
theorem c97_run (h : Hist d dmax E w g) {op : Op K} (ho : OpOk d w g op) (he : E w op) (hs : OpSafe d w op) :
    ∃ w', (w.step dmax op = .ok w' ∧ Hist d dmax E w' (g.next w True op)) ∨
      ∃ e, w.step dmax op = .thrown e w' ∧ Hist d dmax E w' (g.next w False op) := by
  cases hr : w.step dmax op with
  | ok w' => exact ⟨w', Or.inl ⟨rfl, h.ok ho he hr⟩⟩
  | thrown e w' => exact ⟨w', Or.inr ⟨e, rfl, h.thrown ho he hr⟩⟩
  | ub => exact absurd hr (c97_defined h ho hs)

theorem wellSized_R {q : QP K} {q' : QP L} (h : QPR AnyNum q q') (hq : WellSized q') : WellSized q := by
  unfold WellSized at *
  rw [h.nrVar, h.nrEq, h.nrIneq, h.Q.rows, h.Q.cols, h.c.rows, h.Aeq.rows, h.Aeq.cols, h.beq.rows, h.Aineq.rows, h.Aineq.cols,
    h.bineq.rows, h.lb.rows, h.ub.rows]
  exact hq

/-- The solve of a program on any arithmetic and of its counterpart. -/
theorem solve_R (h : Hist d dmax E w g) {env : SolveEnv K} (ho : OpOk d w g (.solve env)) :
    ∃ (v v' : World ℚ) (w' : World K) (b : Bool) (q : QP K) (q' : QP ℚ) (env' : SolveEnv ℚ), Hist d 0 AnyOp v g ∧ WorldR AnyNum w v ∧
      OpOk d v g (.solve env') ∧ v.solve env' = some (v', b, q') ∧ w.solve env = some (w', b, q) ∧ WorldR AnyNum w' v' ∧
      QPR AnyNum q q' := by
  obtain ⟨v, hv, hR⟩ := hist_R (E' := AnyOp) (fun _ _ _ _ _ _ _ => trivial) h
  obtain ⟨op', hop, hok⟩ := op_R hR hv (.solve env) ho
  cases op' <;> first | exact hop.elim | skip
  rename_i env'
  obtain ⟨v', b, q', h1, -⟩ := c50_solve_defined hv hok
  have r := hR.solve scalarAny hop
  rw [h1] at r
  revert r
  cases e : w.solve env <;> intro r
  · exact r.elim
  · rename_i t
    obtain ⟨w', b', q⟩ := t
    obtain rfl : b' = b := r.flag
    exact ⟨v, v', w', b', q, q', env', hv, hR, hok, h1, rfl, r.world, r.qp⟩

/-- C97: `solve()` always returns, and the problem it hands over is well-sized, whatever the arithmetic. -/
theorem c97_solve (h : Hist d dmax E w g) {env : SolveEnv K} (ho : OpOk d w g (.solve env)) :
    ∃ w' b q, w.solve env = some (w', b, q) ∧ w.step dmax (.solve env) = .ok w' ∧ WellSized q ∧ q.nrVar = numVars d w.ctl := by
  obtain ⟨v, v', w', b, q, q', env', hv, hR, hok, h1, h2, h3, h4⟩ := solve_R h ho
  obtain ⟨v1, b1, q1, k1, -, k2, k3⟩ := c50_solve_defined hv hok
  rw [h1] at k1
  injection k1 with k1
  obtain rfl : q' = q1 := congrArg (fun t => t.2.2) k1
  refine ⟨w', b, q, h2, ?_, wellSized_R h4 k2, ?_⟩
  · show Res.ofOption ((w.solve env).map fun r => r.1) = .ok w'
    rw [h2]; rfl
  · rw [h4.nrVar, k3, numVars_R hR]

/-- C97: the rows of the problem are the rows of the registered constraints, whatever the arithmetic. -/
theorem c97_rows (h : Hist d dmax E w g) {env : SolveEnv K} {b : Bool} {q : QP K} (ho : OpOk d w g (.solve env))
    (hs : w.solve env = some (w', b, q)) :
    (w'.ctl.nrEqConstr = q.Aeq.rows ∧ q.Aeq.rows = q.beq.rows ∧ q.Aeq.rows = rowCount w w.ctl.spEqConstr) ∧
    (w'.ctl.nrIneqConstr = q.Aineq.rows ∧ q.Aineq.rows = q.bineq.rows ∧ q.Aineq.rows = rowCount w w.ctl.spIneqConstr) := by
  obtain ⟨v, v', w1, b1, q1, q', env', hv, hR, hok, h1, h2, h3, h4⟩ := solve_R h ho
  rw [hs] at h2
  injection h2 with h2
  obtain ⟨rfl, e⟩ := Prod.mk.inj h2
  obtain ⟨rfl, rfl⟩ := Prod.mk.inj e
  have k := c34_after_solve hv hok h1
  rw [rowCount_R hR, rowCount_R hR, hR.ctl.spEqConstr, hR.ctl.spIneqConstr, h3.ctl.nrEqConstr, h3.ctl.nrIneqConstr, h4.Aeq.rows,
    h4.beq.rows, h4.Aineq.rows, h4.bineq.rows]
  exact k

/-- C97: the registries stay consistent and the counters never fall short, whatever the arithmetic. -/
theorem c97_registries (h : Hist d dmax E w g) :
    (w.ctl.spEqConstr = w.ctl.spConstr.filter fun i => (w.cons i).constraintType = .equality) ∧
    (w.ctl.spIneqConstr = w.ctl.spConstr.filter fun i => (w.cons i).constraintType = .inequality) ∧
    (w.ctl.spBoundConstr = w.ctl.spConstr.filter fun i => (w.cons i).constraintType = .bound) ∧
    w.ctl.spBoundConstr.length ≤ 1 ∧
    rowCount w w.ctl.spEqConstr ≤ w.ctl.nrEqConstr ∧ rowCount w w.ctl.spIneqConstr ≤ w.ctl.nrIneqConstr := by
  obtain ⟨v, hv, hR⟩ := hist_R (E' := AnyOp) (fun _ _ _ _ _ _ _ => trivial) h
  have k1 := hv.good.part
  have k2 := c34_counters_ge hv
  have k3 := hv.good.one
  have t : ∀ i, (w.cons i).constraintType = (v.cons i).constraintType := fun i => (hR.cons i).constraintType
  simp only [t]
  rw [rowCount_R hR, rowCount_R hR, hR.ctl.spEqConstr, hR.ctl.spIneqConstr, hR.ctl.spBoundConstr, hR.ctl.spConstr, hR.ctl.nrEqConstr,
    hR.ctl.nrIneqConstr]
  exact ⟨k1.eq, k1.ineq, k1.bound, k3, k2⟩

/-- C97: what a solve drops from the registries, whatever the arithmetic. -/
theorem c97_dropped (h : Hist d dmax E w g) {env : SolveEnv K} {b : Bool} {q : QP K} (ho : OpOk d w g (.solve env))
    (hs : w.solve env = some (w', b, q)) :
    (w'.ctl.spConstr = w.ctl.spConstr.filter fun i => 0 < w.extCons i ∨ 1 < w.ctl.spConstr.count i) ∧
    (w'.ctl.spCost = w.ctl.spCost.filter fun i => 0 < w.extCosts i ∨ 1 < w.ctl.spCost.count i) := by
  obtain ⟨v, v', w1, b1, q1, q', env', hv, hR, hok, h1, h2, h3, h4⟩ := solve_R h ho
  rw [hs] at h2
  injection h2 with h2
  obtain ⟨rfl, e⟩ := Prod.mk.inj h2
  have k := c39_as_built (reachable_of_hist hv) h1
  rw [h3.ctl.spConstr, h3.ctl.spCost, hR.ctl.spConstr, hR.ctl.spCost, hR.extCons, hR.extCosts]
  exact ⟨k.1, k.2.2.2.2⟩

/-- C97: after a successful solve the results have the length of the horizon, whatever the arithmetic. -/
theorem c97_results (h : Hist d dmax E w g) {env : SolveEnv K} {q : QP K} (ho : OpOk d w g (.solve env))
    (hs : w.solve env = some (w', true, q)) : w'.ctl.control.rows = d.m * d.N ∧ w'.ctl.trajectory.rows = d.n * (d.N + 1) := by
  obtain ⟨v, v', w1, b1, q1, q', env', hv, hR, hok, h1, h2, h3, h4⟩ := solve_R h ho
  rw [hs] at h2
  injection h2 with h2
  obtain ⟨rfl, e⟩ := Prod.mk.inj h2
  obtain ⟨rfl, -⟩ := Prod.mk.inj e
  obtain ⟨p, hp⟩ := Option.ne_none_iff_exists'.1 hok.1
  have k := c40_success hv hok h1 hp
  rw [h3.ctl.control.rows, h3.ctl.trajectory.rows]
  refine ⟨k.1, ?_⟩
  cases hi : v.ctl.isInit
  · exact (k.2.1 hi).2.1.trans (Nat.mul_comm _ _)
  · exact (k.2.2 hi).2.1.trans (Nat.mul_comm _ _)

/-! ## What a solve copies -/

/-- Assembling the problem leaves the results alone. -/
structure KeepsResults (l l' : LMPC K) : Prop where
  control : l'.control = l.control
  trajectory : l'.trajectory = l.trajectory
  isInit : l'.isInit = l.isInit

theorem KeepsResults.rfl' (l : LMPC K) : KeepsResults l l := ⟨rfl, rfl, rfl⟩

theorem KeepsResults.trans {a b c : LMPC K} (h : KeepsResults a b) (g : KeepsResults b c) : KeepsResults a c :=
  ⟨g.1.trans h.1, g.2.trans h.2, g.3.trans h.3⟩

theorem foldlM_keeps {f : LMPC K → Nat → Option (LMPC K)} (hf : ∀ a i b, f a i = some b → KeepsResults a b) :
    ∀ (L : List Nat) {a b : LMPC K}, L.foldlM f a = some b → KeepsResults a b := by
  intro L
  induction L with
  | nil => intro a b h; cases h; exact .rfl' _
  | cons i L ih =>
    intro a b h
    rw [List.foldlM_cons, Option.bind_eq_bind, Option.bind_eq_some_iff] at h
    obtain ⟨c, h1, h2⟩ := h
    exact (hf _ _ _ h1).trans (ih h2)

theorem makeQPForm_keeps {inv : Mat K → Mat K} {cons : Nat → Constr K} {costs : Nat → Cost K} {ps : PreviewSystem K} {l l' : LMPC K}
    (h : l.makeQPForm inv cons costs ps = some l') : KeepsResults l l' := by
  unfold LMPC.makeQPForm at h
  split at h
  · unfold LMPC.makeQPFormInit at h
    simp only [Option.bind_eq_bind, Option.bind_eq_some_iff, Option.pure_def, Option.some.injEq] at h
    obtain ⟨l1, h1, _, _, _, _, _, _, l2, h2, _, _, _, _, _, _, rfl⟩ := h
    have k1 : KeepsResults l l1 := foldlM_keeps (fun a i b hb => by
      unfold LMPC.addCostTermsInit at hb
      simp only [Option.bind_eq_bind, Option.bind_eq_some_iff, Option.pure_def, Option.some.injEq] at hb
      obtain ⟨_, _, _, _, _, _, _, _, _, _, _, _, rfl⟩ := hb
      exact ⟨rfl, rfl, rfl⟩) _ h1
    unfold LMPC.finishQ at h2
    simp only [Option.bind_eq_bind, Option.bind_eq_some_iff, Option.pure_def, Option.some.injEq] at h2
    obtain ⟨_, _, _, _, _, _, _, _, _, _, _, _, _, _, _, _, _, _, rfl⟩ := h2
    exact ⟨k1.1, k1.2, k1.3⟩
  · unfold LMPC.makeQPFormBase at h
    simp only [Option.bind_eq_bind, Option.bind_eq_some_iff, Option.pure_def, Option.some.injEq] at h
    obtain ⟨l1, h1, _, _, _, _, _, _, rfl⟩ := h
    have k1 : KeepsResults l l1 := foldlM_keeps (fun a i b hb => by
      unfold LMPC.addCostTerms at hb
      simp only [Option.bind_eq_bind, Option.bind_eq_some_iff, Option.pure_def, Option.some.injEq] at hb
      obtain ⟨_, _, _, _, rfl⟩ := hb
      exact ⟨rfl, rfl, rfl⟩) _ h1
    exact ⟨k1.1, k1.2, k1.3⟩

/-- C97: a failing solve leaves the results bit for bit as they were, whatever the arithmetic. -/
theorem c97_failure_keeps_results {env : SolveEnv K} {q : QP K} (h : w.solve env = some (w', false, q)) :
    w'.ctl.control = w.ctl.control ∧ w'.ctl.trajectory = w.ctl.trajectory := by
  unfold solve at h
  obtain ⟨w1, h1, h⟩ := Option.bind_eq_some_iff.1 h
  obtain ⟨p, h2, h⟩ := Option.bind_eq_some_iff.1 h
  obtain ⟨l, h3, h⟩ := Option.bind_eq_some_iff.1 h
  obtain ⟨s, h4, h⟩ := Option.bind_eq_some_iff.1 h
  have k := makeQPForm_keeps h3
  obtain ⟨-, -, -, -, c, t⟩ := WorldR.updateSystem_keeps h1
  dsimp only at h
  split at h
  · rename_i e'
    obtain ⟨_, _, h⟩ := Option.bind_eq_some_iff.1 h
    injection h with h
    have e : (env.answer l.qp).1 = false := congrArg (fun t => t.2.1) h
    exact absurd (e'.symm.trans e) (by decide)
  · injection h with h
    have e := congrArg (fun t => t.1) h
    dsimp only at e
    subst e
    exact ⟨k.1.trans c, k.2.trans t⟩

/-- C97: after a successful solve of an `LMPC`, `control()` is the solver's answer bit for bit, whatever the arithmetic. -/
theorem c97_control_is_answer {env : SolveEnv K} {q : QP K} (hi : w.ctl.isInit = false) (h : w.solve env = some (w', true, q)) :
    w'.ctl.control = (env.answer q).2 := by
  unfold solve at h
  obtain ⟨w1, h1, h⟩ := Option.bind_eq_some_iff.1 h
  obtain ⟨p, h2, h⟩ := Option.bind_eq_some_iff.1 h
  obtain ⟨l, h3, h⟩ := Option.bind_eq_some_iff.1 h
  obtain ⟨s, h4, h⟩ := Option.bind_eq_some_iff.1 h
  have k := (makeQPForm_keeps h3).isInit.trans ((WorldR.updateSystem_keeps h1).1.trans hi)
  dsimp only at h
  split at h
  · obtain ⟨l2, h5, h⟩ := Option.bind_eq_some_iff.1 h
    injection h with h
    have e := congrArg (fun t => t.1) h
    have e' := congrArg (fun t => t.2.2) h
    dsimp only at e e'
    subst e; subst e'
    unfold LMPC.updateResults at h5
    obtain ⟨s', h6, h5⟩ := Option.bind_eq_some_iff.1 h5
    have k' : (LMPC.checkDelete w1.extCons w1.extCosts { l with
      sol := some { s with result := (env.answer l.qp).2 }, solveTime := some (env.t2 - env.t1) }).isInit = false := k
    rw [if_neg (by rw [k']; decide)] at h5
    obtain ⟨t, _, h5⟩ := Option.bind_eq_some_iff.1 h5
    injection h5 with h5
    subst h5
    injection h6 with h6
    subst h6
    rfl
  · injection h with h
    rename_i e'
    exact absurd (congrArg (fun t => t.2.1) h) e'

end World
end Copra
