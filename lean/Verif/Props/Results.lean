import Verif.Props.System

/-! # Properties C34, C38, C40, C52: counters, clearing, results and times -/

namespace Copra
open Spec

set_option linter.unusedSectionVars false
set_option linter.unusedSimpArgs false

variable {K : Type} [Field K] [LinearOrder K] [IsStrictOrderedRing K]

namespace World

/-! ## C40 -/

/-- C40, failure: whatever the state of the program, a solve that returns `false` leaves `control()` and
`trajectory()` alone. -/
theorem c40_failure_keeps_results {w w' : World K} {env : SolveEnv K} {q : QP K}
    (h : w.solve env = some (w', false, q)) :
    w'.ctl.control = w.ctl.control ∧ w'.ctl.trajectory = w.ctl.trajectory := by
  obtain ⟨w1, p, l, s, l', h1, hp, hl, hs, rfl, hb, hl', rfl⟩ := solve_inv h
  rw [← hb] at hl'
  simp only [Bool.false_eq_true, if_false, Option.some.injEq] at hl'
  subst hl'
  obtain ⟨_, _, _, _, _, _, _, _, _, _, _, _, rfl, f⟩ := updateSystem_inv h1
  have g := f.trans (LMPC.makeQPForm_fixed hl)
  exact ⟨g.control, g.trajectory⟩

/-- C40, success: `control()` is the solver's answer (for an initial-state controller, its part after the
initial state) and `trajectory()` is the trajectory simulated under `control()` from the current initial
state (from the initial state found by the solver). -/
theorem c40_success {d : Dims} {dmax : K} {E : World K → Op K → Prop} {w w' : World K} {g : Ghost} {env : SolveEnv K}
    {q : QP K} {p : Nat} (h : Hist d dmax E w g) (ho : OpOk d w g (.solve env))
    (hs : w.solve env = some (w', true, q)) (hp : w.ctl.ps = some p) :
    w'.ctl.control.rows = d.m * d.N ∧
    (w.ctl.isInit = false → (∀ j < d.m * d.N, w'.ctl.control.e j = (env.answer q).2.e j) ∧
      IsStacked d (Spec.traj d w p w'.ctl.control.e) w'.ctl.trajectory) ∧
    (w.ctl.isInit = true → (∀ j < d.m * d.N, w'.ctl.control.e j = (env.answer q).2.e (d.n + j)) ∧
      IsStacked d (sim d (w.pss p).A (w.pss p).B (w.pss p).d (env.answer q).2.e w'.ctl.control.e) w'.ctl.trajectory) := by
  obtain ⟨p', hp', S⟩ := h.good.solved ho.2 hs
  rw [hp] at hp'
  cases hp'
  obtain ⟨h1, h2, h3⟩ := S.success rfl
  refine ⟨h1, ?_, ?_⟩
  · intro hi
    rw [hi] at h2 h3
    exact ⟨h2, h3⟩
  · intro hi
    rw [hi] at h2 h3
    exact ⟨h2, h3⟩

/-- C40, success, for any program state: an `LMPC` returns the solver's answer as it is. -/
theorem c40_control_is_answer {w w' : World K} {env : SolveEnv K} {q : QP K} (hi : w.ctl.isInit = false)
    (h : w.solve env = some (w', true, q)) : w'.ctl.control = (env.answer q).2 := by
  obtain ⟨w1, p1, l, s, l', h1, hp1, hl, hsl, rfl, hbb, hl', rfl⟩ := solve_inv h
  rw [← hbb] at hl'
  simp only [if_true] at hl'
  unfold LMPC.updateResults at hl'
  simp only [Option.bind_eq_bind, Option.bind_eq_some_iff] at hl'
  obtain ⟨s', hs', hl'⟩ := hl'
  have hinit : l.isInit = false := by
    obtain ⟨_, _, _, _, _, _, _, _, _, _, _, _, rfl, f⟩ := updateSystem_inv h1
    rw [(LMPC.makeQPForm_fixed hl).isInit]
    exact f.isInit.trans hi
  have hinit' : (LMPC.checkDelete w1.extCons w1.extCosts
    { l with sol := some { s with result := (env.answer l.qp).2 }, solveTime := some (env.t2 - env.t1) }).isInit = false := hinit
  rw [hinit'] at hl'
  simp only [Bool.false_eq_true, if_false, Option.bind_eq_some_iff, Option.pure_def, Option.some.injEq] at hl'
  obtain ⟨t, _, rfl⟩ := hl'
  have : some { s with result := (env.answer l.qp).2 } = some s' := hs'
  cases this
  rfl

/-! ## C52 -/

/-- C52: with a clock that does not go backwards, `0 <= solveTime() <= solveAndBuildTime()` after every
solve, whatever the state of the program and the outcome of the solve. -/
theorem c52_times {w w' : World K} {env : SolveEnv K} {b : Bool} {q : QP K} (h : w.solve env = some (w', b, q))
    (h01 : env.t0 ≤ env.t1) (h12 : env.t1 ≤ env.t2) (h23 : env.t2 ≤ env.t3) :
    ∃ s sb : Int, w'.ctl.solveTime = some s ∧ w'.ctl.solveAndBuildTime = some sb ∧ 0 ≤ s ∧ s ≤ sb := by
  obtain ⟨w1, p1, l, s, l', h1, hp1, hl, hsl, rfl, rfl, hl', rfl⟩ := solve_inv h
  refine ⟨env.t2 - env.t1, env.t3 - env.t0, ?_, rfl, by omega, by omega⟩
  show l'.solveTime = _
  split at hl'
  · rw [updateResults_frame hl']; rfl
  · cases hl'; rfl

/-! ## C34 -/

theorem rowCount_total (w : World K) (L : List Nat) : rowCount w L = total (fun i => (w.cons i).nrConstr) L := rfl

/-- C34, after a solve: the two counters equal the row counts of the matrices handed to the solver and the
number of rows of the constraints registered when the solve began. -/
theorem c34_after_solve {d : Dims} {dmax : K} {E : World K → Op K → Prop} {w w' : World K} {g : Ghost} {env : SolveEnv K}
    {b : Bool} {q : QP K} (h : Hist d dmax E w g) (ho : OpOk d w g (.solve env)) (hs : w.solve env = some (w', b, q)) :
    (w'.ctl.nrEqConstr = q.Aeq.rows ∧ q.Aeq.rows = q.beq.rows ∧ q.Aeq.rows = rowCount w w.ctl.spEqConstr) ∧
    (w'.ctl.nrIneqConstr = q.Aineq.rows ∧ q.Aineq.rows = q.bineq.rows ∧ q.Aineq.rows = rowCount w w.ctl.spIneqConstr) := by
  obtain ⟨p, hp, S⟩ := h.good.solved ho.2 hs
  rw [rowCount_total, rowCount_total,
    ← total_congr (sz := fun i => (w'.cons i).nrConstr) (L := w.ctl.spEqConstr) fun i _ => (S.heap.frame i).nr,
    ← total_congr (sz := fun i => (w'.cons i).nrConstr) (L := w.ctl.spIneqConstr) fun i _ => (S.heap.frame i).nr,
    S.nrEq, S.nrIneq]
  cases hi : w.ctl.isInit
  · have A := S.plain hi
    exact ⟨⟨by rw [A.nrEq, A.eq.rows], by rw [A.eq.rows, A.eq.brows], A.eq.rows⟩,
      ⟨by rw [A.nrIneq, A.ineq.rows], by rw [A.ineq.rows, A.ineq.brows], A.ineq.rows⟩⟩
  · have A := S.init hi
    exact ⟨⟨by rw [A.nrEq, A.eq.rows], by rw [A.eq.rows, A.eq.brows], A.eq.rows⟩,
      ⟨by rw [A.nrIneq, A.ineq.rows], by rw [A.ineq.rows, A.ineq.brows], A.ineq.rows⟩⟩

/-- C34, always: the counters are never smaller than the number of registered rows. -/
theorem c34_counters_ge {d : Dims} {dmax : K} {E : World K → Op K → Prop} {w : World K} {g : Ghost}
    (h : Hist d dmax E w g) : rowCount w w.ctl.spEqConstr ≤ w.ctl.nrEqConstr ∧
      rowCount w w.ctl.spIneqConstr ≤ w.ctl.nrIneqConstr := ⟨h.good.eqLe, h.good.ineqLe⟩

/-- The counters are exact. -/
def Counted (w : World K) (l : LMPC K) : Prop :=
  l.nrEqConstr = rowCount w l.spEqConstr ∧ l.nrIneqConstr = rowCount w l.spIneqConstr

theorem filter_keep {L : List Nat} {p : Nat → Bool} (h : ∀ i ∈ L, p i = true) : L.filter p = L :=
  List.filter_eq_self.2 h

/-- C34 (partial): the counters equal the number of registered rows at every point of every history without
`removeConstraint` in which no solve drops a constraint.  Missing: `removeConstraint` and dropping do not
update the counters (`c34_false`). -/
theorem c34_counters_partial {d : Dims} {dmax : K} {E : World K → Op K → Prop} {w : World K} {g : Ghost}
    (h : Hist d dmax E w g) (hE : ∀ w op, E w op → NoRemoval w op) :
    w.ctl.nrEqConstr = rowCount w w.ctl.spEqConstr ∧ w.ctl.nrIneqConstr = rowCount w w.ctl.spIneqConstr := by
  refine Hist.inv (P := fun w _ => Counted w w.ctl) ?_ ?_ h
  · rintro w ⟨_, _, _, b, s, h⟩
    rw [h]; exact ⟨rfl, rfl⟩
  · intro w w' g op ok hg hg' hP ho he hst h
    have hC : ∀ i, g.constr i → (w'.cons i).nrConstr = (w.cons i).nrConstr := fun i hi => ((hg.stepCons ho h).2 i hi).1
    have c1 : rowCount w' w.ctl.spEqConstr = rowCount w w.ctl.spEqConstr := by
      apply total_congr; intro i hi
      exact hC i (hg.subC i ((mem_registered hg.part i).2 (Or.inl hi)))
    have c2 : rowCount w' w.ctl.spIneqConstr = rowCount w w.ctl.spIneqConstr := by
      apply total_congr; intro i hi
      exact hC i (hg.subC i ((mem_registered hg.part i).2 (Or.inr (Or.inl hi))))
    have same : Counted w' w.ctl := ⟨hP.1.trans c1.symm, hP.2.trans c2.symm⟩
    have he' := hE w op he
    rcases h with ⟨hok, h⟩ | ⟨hok, e, h⟩ <;> cases op <;>
      simp only [step, Res.map_ok, Res.map_thrown, Res.ofOption_ok] at h
    case inl.addCost j junk | inr.addCost j junk =>
      unfold addCost at h
      split at h
      · cases h
      · split at h <;> cases h
        exact same
    case inl.addConstraint j junk =>
      unfold addConstraint at h
      split at h
      · cases h
      · split at h
        · rename_i c hc
          split at h <;> cases h
          rename_i l hl
          unfold LMPC.addConstraintByType at hl
          have h1 : w.ctl.nrEqConstr = total (fun i => (upd w.cons j c i).nrConstr) w.ctl.spEqConstr := same.1
          have h2 : w.ctl.nrIneqConstr = total (fun i => (upd w.cons j c i).nrConstr) w.ctl.spIneqConstr := same.2
          cases ht : c.constraintType <;> rw [ht] at hl <;> simp only at hl
          · simp only [Option.bind_eq_bind, Option.bind_eq_some_iff, Option.pure_def, Option.some.injEq, chkInt_eq] at hl
            obtain ⟨_, ⟨hle, rfl⟩, rfl⟩ := hl
            refine ⟨?_, same.2⟩
            show w.ctl.nrEqConstr + c.nrConstr = total (fun i => (upd w.cons j c i).nrConstr) (w.ctl.spEqConstr ++ [j])
            rw [total_append, total_cons, total_nil, upd_same]
            omega
          · simp only [Option.bind_eq_bind, Option.bind_eq_some_iff, Option.pure_def, Option.some.injEq, chkInt_eq] at hl
            obtain ⟨_, ⟨hle, rfl⟩, rfl⟩ := hl
            refine ⟨same.1, ?_⟩
            show w.ctl.nrIneqConstr + c.nrConstr = total (fun i => (upd w.cons j c i).nrConstr) (w.ctl.spIneqConstr ++ [j])
            rw [total_append, total_cons, total_nil, upd_same]
            omega
          · cases hl
            exact same
        · cases h
        · cases h
    case inr.addConstraint j junk =>
      unfold addConstraint at h
      split at h
      · cases h
      · split at h
        · split at h <;> cases h
        · cases h; exact same
        · cases h
    case inl.construct =>
      cases h; exact ⟨rfl, rfl⟩
    case inl.constructPs =>
      obtain ⟨l, h, rfl⟩ := h
      obtain ⟨_, _, rfl⟩ := initializeController_inv h
      unfold seedInit
      split <;> exact ⟨rfl, rfl⟩
    case inl.initializeController =>
      obtain ⟨l, h, rfl⟩ := h
      obtain ⟨_, _, rfl⟩ := initializeController_inv h
      exact same
    case inl.removeConstraint j => exact he'.elim
    case inl.removeCost j | inl.clearCosts => cases h; exact same
    case inl.clearConstraints =>
      obtain ⟨_, _, _, _, rfl⟩ := clearConstraints_inv h
      exact ⟨rfl, rfl⟩
    case inl.solve env =>
      obtain ⟨⟨w1, b, q⟩, hs, rfl⟩ := Option.map_eq_some_iff.1 h
      obtain ⟨p, hp, S⟩ := hg.solved ho.2 hs
      obtain ⟨h1, h2, h3, h4, h5⟩ := (solve_frame hs).2
      obtain ⟨k1, k2, k3, k4, k5, _⟩ := LMPC.checkDelete_lists hg.part w.extCons w.extCosts
      have keep : ∀ {L : List Nat}, (∀ i ∈ L, i ∈ w.ctl.spConstr) →
          L.filter (fun i => decide (2 < w.extCons i + 2 * w.ctl.spConstr.count i)) = L := by
        intro L hL
        apply filter_keep
        intro i hi
        have a := he' i (hL i hi)
        have b := List.count_pos_iff.2 (hL i hi)
        simp only [decide_eq_true_eq]
        omega
      have n1 : w1.ctl.nrEqConstr = total (fun i => (w1.cons i).nrConstr) w.ctl.spEqConstr := by
        rw [S.nrEq]
        cases hi : w.ctl.isInit
        · exact (S.plain hi).nrEq
        · exact (S.init hi).nrEq
      have n2 : w1.ctl.nrIneqConstr = total (fun i => (w1.cons i).nrConstr) w.ctl.spIneqConstr := by
        rw [S.nrIneq]
        cases hi : w.ctl.isInit
        · exact (S.plain hi).nrIneq
        · exact (S.init hi).nrIneq
      have l1 := keep (L := w.ctl.spEqConstr) fun i hi => (mem_registered hg.part i).2 (Or.inl hi)
      have l2 := keep (L := w.ctl.spIneqConstr) fun i hi => (mem_registered hg.part i).2 (Or.inr (Or.inl hi))
      refine ⟨?_, ?_⟩
      · rw [h2, k2, l1]; exact n1
      · rw [h3, k3, l2]; exact n2
    case inl.useSolver | inl.resetInitialStateCost | inl.resetInitialStateBounds =>
      cases h; exact same
    case inr.updateConstr | inr.updatePs | inr.updateCost | inr.constructPs | inr.initializeController | inr.removeConstraint =>
      obtain ⟨_, h, _⟩ := h
      exact absurd h Res.ofOption_ne_thrown
    case inr.clearConstraints | inr.solve => exact absurd h Res.ofOption_ne_thrown
    all_goals first
      | (cases h <;> exact same)
      | (obtain ⟨_, _, rfl⟩ := h; exact same)

/-! ## C38 -/

/-- C38: `clearConstraints()` unregisters every constraint, zeroes the counters and touches nothing else; a
solve right after it hands over no constraint row and only the bounds `-DBL_MAX <= U <= DBL_MAX`. -/
theorem c38_clearConstraints {d : Dims} {dmax : K} {E : World K → Op K → Prop} {w w1 : World K} {g : Ghost}
    (h : Hist d dmax E w g) (he : E w .clearConstraints) (h1 : w.step dmax .clearConstraints = .ok w1) :
    (w1.ctl.spConstr = [] ∧ w1.ctl.nrEqConstr = 0 ∧ w1.ctl.nrIneqConstr = 0 ∧ w1.ctl.spCost = w.ctl.spCost ∧
      w1.ctl.control = w.ctl.control ∧ w1.ctl.trajectory = w.ctl.trajectory ∧
      w1.pss = w.pss ∧ w1.cons = w.cons ∧ w1.costs = w.costs) ∧
    ∀ env w2 b q, SolveContract d env w1.ctl → w1.solve env = some (w2, b, q) →
      q.Aeq.rows = 0 ∧ q.Aineq.rows = 0 ∧ ∀ j < d.m * d.N,
        q.lb.e ((if w.ctl.isInit then d.n else 0) + j) = .fin (-dmax) ∧
        q.ub.e ((if w.ctl.isInit then d.n else 0) + j) = .fin dmax := by
  have H1 : Hist d dmax E w1 (g.next w True .clearConstraints) := Hist.ok h trivial he h1
  have hg := H1.good
  simp only [step, Res.ofOption_ok] at h1
  obtain ⟨p, n, hp, hn, rfl⟩ := clearConstraints_inv h1
  refine ⟨⟨rfl, rfl, rfl, rfl, rfl, rfl, rfl, rfl, rfl⟩, ?_⟩
  intro env w2 b q hc hs
  obtain ⟨p', hp', S⟩ := hg.solved hc hs
  have cl := hg.clean trivial (by rw [hp']; exact Option.some_ne_none _)
  unfold off at cl
  cases hi : w.ctl.isInit
  · have A := S.plain hi
    have e : (LMPC.clearRegistry w.ctl).isInit = false := hi
    simp only [e, Bool.false_eq_true, if_false] at cl
    refine ⟨A.eq.rows, A.ineq.rows, ?_⟩
    obtain ⟨k1, k2⟩ := A.keep rfl
    rw [k1, k2]
    simpa using cl
  · have A := S.init hi
    have e : (LMPC.clearRegistry w.ctl).isInit = true := hi
    simp only [e, if_true] at cl
    refine ⟨A.eq.rows, A.ineq.rows, ?_⟩
    intro j hj
    obtain ⟨k1, k2⟩ := A.keep rfl j hj
    simp only [if_true]
    rw [k1, k2]
    exact cl j hj

/-- C38: `clearCosts()` unregisters every cost and touches nothing else; a solve of an `LMPC` right after it
hands over the objective `0.5e-6 |U|^2`. -/
theorem c38_clearCosts {d : Dims} {dmax : K} {E : World K → Op K → Prop} {w w1 : World K} {g : Ghost}
    (h : Hist d dmax E w g) (he : E w .clearCosts) (h1 : w.step dmax .clearCosts = .ok w1) :
    w1 = { w with ctl := { w.ctl with spCost := [] } } ∧
    ∀ env w2 b q, SolveContract d env w1.ctl → w1.ctl.ps ≠ none → w1.ctl.isInit = false →
      w1.solve env = some (w2, b, q) →
      ∀ U : Nat → K, objective q U = 1 / 2 * (1 / 1000000) * ∑ j ∈ Finset.range (d.m * d.N), U j ^ 2 := by
  have H1 : Hist d dmax E w1 (g.next w True .clearCosts) := Hist.ok h trivial he h1
  have hg := H1.good
  simp only [step] at h1
  cases h1
  refine ⟨rfl, ?_⟩
  intro env w2 b q hc _ hi hs U
  obtain ⟨p', hp', S⟩ := hg.solved hc hs
  have A := S.plain hi
  unfold objective
  rw [A.cr, quadValue_sum (F := fun i => (w2.costs i).Q) (G := fun i => (w2.costs i).c) A.Q A.c U]
  show (List.map _ []).sum + _ = _
  rw [List.map_nil, List.sum_nil, zero_add]

end World
end Copra
