import Verif.Props.Meaning

/-! # C75: the accessors of the controller -/

namespace Copra

namespace Spec
variable {K : Type}

/-- The cost accessors, `Q()` and `c()`. -/
def costAccess (l : LMPC K) : Mat K × Vec K := (l.Q, l.c)

/-- The constraint accessors: `Aeq()`, `beq()`, `Aineq()`, `bineq()`, `lb()`, `ub()`. -/
def constrAccess (l : LMPC K) : Mat K × Vec (Ext K) × Mat K × Vec (Ext K) × Vec (Ext K) × Vec (Ext K) :=
  (l.Aeq, l.beq, l.Aineq, l.bineq, l.lb, l.ub)

/-- The result accessors: `control()`, `trajectory()`, `solveTime()`, `solveAndBuildTime()`. -/
def resultAccess (l : LMPC K) : Vec K × Vec K × Option Int × Option Int :=
  (l.control, l.trajectory, l.solveTime, l.solveAndBuildTime)

/-- The call is `solve()` or the construction of the controller. -/
def Renews : Op K → Prop
  | .construct .. | .constructPs .. | .solve .. => True
  | _ => False

/-- The call resizes the cost accessors: also `initializeController`. -/
def RenewsCost : Op K → Prop
  | .construct .. | .constructPs .. | .solve .. | .initializeController .. => True
  | _ => False

/-- The call resizes the constraint accessors: also `clearConstraints`. -/
def RenewsConstr : Op K → Prop
  | .construct .. | .constructPs .. | .solve .. | .initializeController .. | .clearConstraints => True
  | _ => False

end Spec
open Spec

set_option linter.unusedSectionVars false
set_option maxRecDepth 100000

section
variable {K : Type} [Field K] [LinearOrder K] [IsStrictOrderedRing K]

namespace World
variable {dmax : K} {w w' : World K}

/-- **C75**, after `solve()`: whatever the state of the program and the outcome, the accessors return the problem that was
handed to the solver. -/
theorem c75_after_solve {env : SolveEnv K} {b : Bool} {q : QP K} (h : w.solve env = some (w', b, q)) :
    costAccess w'.ctl = (q.Q, q.c) ∧ constrAccess w'.ctl = (q.Aeq, q.beq, q.Aineq, q.bineq, q.lb, q.ub) ∧
    w'.ctl.nrEqConstr = q.nrEq ∧ w'.ctl.nrIneqConstr = q.nrIneq ∧ w'.ctl.c.rows = q.nrVar := by
  obtain ⟨w1, p, l, s, l', h1, hp, hl, hs, rfl, hb, hl', rfl⟩ := solve_inv h
  split at hl'
  · obtain ⟨u, t, rfl⟩ : ∃ u t, l' = { (LMPC.checkDelete w1.extCons w1.extCosts
        { l with sol := some { s with result := (env.answer l.qp).2 }, solveTime := some (env.t2 - env.t1) }) with
        control := u, trajectory := t } := by
      unfold LMPC.updateResults at hl'
      simp only [Option.bind_eq_bind, Option.bind_eq_some_iff] at hl'
      obtain ⟨s', _, hl'⟩ := hl'
      split at hl'
      · simp only [Option.bind_eq_some_iff, Option.pure_def, Option.some.injEq] at hl'
        obtain ⟨_, _, u, _, _, _, t, _, rfl⟩ := hl'
        exact ⟨_, _, rfl⟩
      · simp only [Option.bind_eq_some_iff, Option.pure_def, Option.some.injEq] at hl'
        obtain ⟨t, _, rfl⟩ := hl'
        exact ⟨_, _, rfl⟩
    exact ⟨rfl, rfl, rfl, rfl, rfl⟩
  · cases hl'; exact ⟨rfl, rfl, rfl, rfl, rfl⟩

/-- What one call changes. -/
theorem access_step {op : Op K} (hs : w.step dmax op = .ok w' ∨ ∃ e, w.step dmax op = .thrown e w') :
    (¬ Renews op → resultAccess w'.ctl = resultAccess w.ctl) ∧
    (¬ RenewsCost op → costAccess w'.ctl = costAccess w.ctl) ∧
    (¬ RenewsConstr op → constrAccess w'.ctl = constrAccess w.ctl) := by
  rcases hs with hs | ⟨e, hs⟩
  swap
  · rw [(thrown_inv hs).1]; exact ⟨fun _ => rfl, fun _ => rfl, fun _ => rfl⟩
  cases op
  case solve => exact ⟨fun h => (h trivial).elim, fun h => (h trivial).elim, fun h => (h trivial).elim⟩
  case construct => exact ⟨fun h => (h trivial).elim, fun h => (h trivial).elim, fun h => (h trivial).elim⟩
  case constructPs => exact ⟨fun h => (h trivial).elim, fun h => (h trivial).elim, fun h => (h trivial).elim⟩
  case initializeController p junk =>
    refine ⟨fun _ => ?_, fun h => (h trivial).elim, fun h => (h trivial).elim⟩
    simp only [step, Res.map_ok, Res.ofOption_ok] at hs
    obtain ⟨l, hl, rfl⟩ := hs
    unfold LMPC.initializeController LMPC.clearConstraintMatrices LMPC.updateQPMatrixSize at hl
    simp only [Option.bind_eq_bind, Option.bind_eq_some_iff, Option.pure_def, Option.some.injEq] at hl
    obtain ⟨_, ⟨_, _, rfl⟩, _, _, rfl⟩ := hl
    rfl
  case clearConstraints =>
    simp only [step, Res.ofOption_ok] at hs
    unfold clearConstraints LMPC.clearConstraintMatrices at hs
    simp only [Option.bind_eq_bind, Option.bind_eq_some_iff, Option.pure_def, Option.some.injEq] at hs
    obtain ⟨_, _, _, ⟨_, _, rfl⟩, rfl⟩ := hs
    exact ⟨fun _ => rfl, fun _ => rfl, fun h => (h trivial).elim⟩
  case addConstraint i junk =>
    simp only [step] at hs
    unfold addConstraint at hs
    split at hs
    · cases hs
    split at hs
    · split at hs
      · next l hl =>
        injection hs with hs; subst hs
        unfold LMPC.addConstraintByType at hl
        split at hl
        · simp only [Option.bind_eq_bind, Option.bind_eq_some_iff, Option.pure_def, Option.some.injEq] at hl
          obtain ⟨_, _, rfl⟩ := hl
          exact ⟨fun _ => rfl, fun _ => rfl, fun _ => rfl⟩
        · simp only [Option.bind_eq_bind, Option.bind_eq_some_iff, Option.pure_def, Option.some.injEq] at hl
          obtain ⟨_, _, rfl⟩ := hl
          exact ⟨fun _ => rfl, fun _ => rfl, fun _ => rfl⟩
        · cases hl
          exact ⟨fun _ => rfl, fun _ => rfl, fun _ => rfl⟩
      · cases hs
    · cases hs
    · cases hs
  case removeConstraint i =>
    simp only [step, Res.map_ok, Res.ofOption_ok] at hs
    obtain ⟨l, hl, rfl⟩ := hs
    unfold LMPC.removeConstraint at hl
    split at hl
    · split at hl <;>
      · simp only [Option.bind_eq_bind, Option.bind_eq_some_iff, Option.pure_def, Option.some.injEq] at hl
        obtain ⟨_, _, rfl⟩ := hl
        exact ⟨fun _ => rfl, fun _ => rfl, fun _ => rfl⟩
    · cases hl; exact ⟨fun _ => rfl, fun _ => rfl, fun _ => rfl⟩
  case addCost i junk =>
    simp only [step] at hs
    unfold addCost at hs
    split at hs
    · cases hs
    split at hs
    · injection hs with hs; subst hs
      exact ⟨fun _ => rfl, fun _ => rfl, fun _ => rfl⟩
    · cases hs
    · cases hs
  all_goals
    simp only [step, Res.map_ok, Res.ok.injEq] at hs
    first
      | (subst hs; exact ⟨fun _ => rfl, fun _ => rfl, fun _ => rfl⟩)
      | (obtain ⟨_, _, rfl⟩ := hs; exact ⟨fun _ => rfl, fun _ => rfl, fun _ => rfl⟩)

/-- **C75**, between solves: however many calls are made and whether they return or throw, `control()`, `trajectory()` and
the times keep their values until the next `solve()` (or construction of the controller); `Q()` and `c()` until the next
`solve()` or `initializeController()`; the constraint accessors until the next `solve()`, `initializeController()` or
`clearConstraints()`. -/
theorem c75_between {ops : List (Op K)} (h : w.run dmax ops = some w') :
    ((∀ op ∈ ops, ¬ Renews op) → resultAccess w'.ctl = resultAccess w.ctl) ∧
    ((∀ op ∈ ops, ¬ RenewsCost op) → costAccess w'.ctl = costAccess w.ctl) ∧
    ((∀ op ∈ ops, ¬ RenewsConstr op) → constrAccess w'.ctl = constrAccess w.ctl) := by
  induction ops generalizing w with
  | nil => cases h; exact ⟨fun _ => rfl, fun _ => rfl, fun _ => rfl⟩
  | cons op ops ih =>
    unfold run at h
    split at h
    · next w1 hs =>
      obtain ⟨a, b, c⟩ := access_step (Or.inl hs)
      obtain ⟨a', b', c'⟩ := ih h
      exact ⟨fun k => (a' fun o ho => k o (List.mem_cons_of_mem _ ho)).trans (a (k op List.mem_cons_self)),
        fun k => (b' fun o ho => k o (List.mem_cons_of_mem _ ho)).trans (b (k op List.mem_cons_self)),
        fun k => (c' fun o ho => k o (List.mem_cons_of_mem _ ho)).trans (c (k op List.mem_cons_self))⟩
    · next e w1 hs =>
      obtain ⟨a, b, c⟩ := access_step (Or.inr ⟨e, hs⟩)
      obtain ⟨a', b', c'⟩ := ih h
      exact ⟨fun k => (a' fun o ho => k o (List.mem_cons_of_mem _ ho)).trans (a (k op List.mem_cons_self)),
        fun k => (b' fun o ho => k o (List.mem_cons_of_mem _ ho)).trans (b (k op List.mem_cons_self)),
        fun k => (c' fun o ho => k o (List.mem_cons_of_mem _ ho)).trans (c (k op List.mem_cons_self))⟩
    · cases h

end World
end

namespace Ex
open World

/-- C75 applies: after the solve of `w12`, a rejected call, new weights, a new initial state and a removal. -/
example : ∃ w', w13.run 1000 [.addConstraint 6 jk, .weight 1 5, .xInit 0 (vec [2, 2]), .removeConstraint 0, .clearCosts] = some w' ∧
    costAccess w'.ctl = (q13.Q, q13.c) ∧ constrAccess w'.ctl = (q13.Aeq, q13.beq, q13.Aineq, q13.bineq, q13.lb, q13.ub) ∧
    resultAccess w'.ctl = resultAccess w13.ctl := by
  have e : (w13.run 1000 [.addConstraint 6 jk, .weight 1 5, .xInit 0 (vec [2, 2]), .removeConstraint 0, .clearCosts]).isSome = true := by
    decide +kernel
  obtain ⟨w', hw⟩ := Option.isSome_iff_exists.1 e
  obtain ⟨a, b, c⟩ := c75_between hw
  obtain ⟨x, y, _⟩ := c75_after_solve s13
  refine ⟨w', hw, (b ?_).trans x, (c ?_).trans y, a ?_⟩ <;>
  · intro op hop
    simp only [List.mem_cons, List.not_mem_nil, or_false] at hop
    rcases hop with rfl | rfl | rfl | rfl | rfl <;> exact id

end Ex
end Copra
