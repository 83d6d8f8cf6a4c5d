import Verif.Props.Lifetime
import Verif.Props.Tolerance
import Verif.Props.Tighter
import Verif.Props.Solvable
import Verif.Props.Junk
import Verif.Props.Frame
import Verif.Props.Drift
import Verif.Props.InterleaveExamples

/-! # More theorems applied to the example programs -/

set_option maxRecDepth 100000

namespace Copra
open Spec

namespace Ex
open World

/-- C29: a second minimiser would be the first one. -/
example (y : Nat → ℚ) (hy : IsOptimal q13 y) : ∀ j < q13.nrVar, xs.e j = y j :=
  c29_unique_minimiser h12 (fun _ _ h => h.2.1) o13 plain12 s13 opt13 hy

/-- C30, as built. -/
example (U : Nat → ℚ) := c30_feasible_set_as_built h12 (fun _ _ h => h.1) o13 plain12 (fun h => by rw [bound12] at h; cases h)
  s13 ps12 U

/-- C34. -/
example : w13.ctl.nrIneqConstr = q13.Aineq.rows ∧ q13.Aineq.rows = 9 :=
  ⟨(c34_after_solve h12 o13 s13).2.1, by decide +kernel⟩
example : rowCount w12 w12.ctl.spEqConstr ≤ w12.ctl.nrEqConstr := (c34_counters_ge h12).1

/-- C44, as built. -/
example (x U : Nat → ℚ) := c44_joint_feasible_as_built hj7 (fun _ _ h => h.1) oJ7 (by decide +kernel) (fun _ => trivial) sJ
  (by decide +kernel : j7.ctl.ps = some 0) x U

/-- C52. -/
example : ∃ s sb : Int, w13.ctl.solveTime = some s ∧ w13.ctl.solveAndBuildTime = some sb ∧ 0 ≤ s ∧ s ≤ sb :=
  c52_times s13 (by decide +kernel) (by decide +kernel) (by decide +kernel)

/-- C59, with every back end. -/
example (k : SolverKind) (junk : Junk ℚ) : WrapperDefined 1000 junk k q13 := by
  obtain ⟨w', b, q, s, hq⟩ := c59_wrapper_defined h12 o13 junk k
  rw [s13] at s
  injection s with s
  have e : q13 = q := congrArg (fun r => r.2.2) s
  subst e
  exact hq (by decide +kernel)

/-- C64: removing a constraint changes no declared data. -/
example : ((after 1000 w12 (.removeConstraint 3)).cons 3).userData = (w12.cons 3).userData := by
  refine (c64_declared (op := .removeConstraint 3) h12 trivial
    (Or.inl (okB_step (by decide +kernel : okB 1000 w12 (.removeConstraint 3) = true)))).1 3 (fun j h => by cases h)

/-- C64: `autoSpan` of an accepted constraint changes nothing. -/
example : ((after 1000 w12 (.spanConstr 0 jk)).cons 0).userData = (w12.cons 0).userData := by
  refine (c64_accepted (op := .spanConstr 0 jk) h12 trivial
    (Or.inl (okB_step (by decide +kernel : okB 1000 w12 (.spanConstr 0 jk) = true)))).1 0 ?_
  show (((( _ ∨ _) ∨ _) ∨ _) ∨ _)
  tauto

/-- C65: a rejected `addConstraint` does not change the next problem. -/
example : ∃ e w' v' q', w12.step 1000 (.addConstraint 6 jk) = .thrown e w' ∧ w'.solve opt = some (v', true, q') ∧ QPEq q13 q' := by
  have a : (match w12.step 1000 (.addConstraint 6 jk) with
    | .thrown _ w' => (w'.solve opt).isSome && ((w'.solve opt).map fun r => r.2.1) == some true | _ => false) = true := by decide +kernel
  cases hs : w12.step 1000 (.addConstraint 6 jk) with
  | ok x => rw [hs] at a; cases a
  | ub => rw [hs] at a; cases a
  | thrown e x =>
    rw [hs] at a
    simp only [Bool.and_eq_true, beq_iff_eq] at a
    obtain ⟨⟨v', b, q'⟩, hr⟩ := Option.isSome_iff_exists.1 a.1
    have hb : b = true := by have := a.2; rw [hr] at this; exact Option.some.inj this
    subst hb
    exact ⟨e, x, v', q', rfl, hr, c65_same_problem (op := .addConstraint 6 jk) h12 (fun _ _ h => h.1)
      (fun h => absurd h (by decide +kernel)) ⟨trivial, trivial, trivial⟩ hs (fun h => by rw [plain12] at h; cases h) fresh12
      (fun h => by rw [bound12] at h; cases h) o13 o13.2 s13 hr⟩

/-- C71. -/
example (U : Nat → ℚ) := c71_residuals h12 (fun _ _ h => h.1) o13 plain12 (fun h => by rw [bound12] at h; cases h) honest12
  s13 ps12 (1 / 1000) U
example (x U : Nat → ℚ) := c71_residuals_init hj7 (fun _ _ h => h.1) oJ7 (by decide +kernel) (fun _ => trivial) honestJ7 sJ
  (by decide +kernel : j7.ctl.ps = some 0) (1 / 1000) x U

/-- C72. -/
example : Tighter w12 0 w13 0 := c72_solve h12 o13 s13 (fun _ _ => Nat.one_pos) (fun _ _ => Nat.one_pos) 0

/-- C73: the zero controls are a plan, so `solve()` succeeds. -/
example (k : SolverKind) (junk : Junk ℚ) : true = true := by
  have f : Feasible q13 fun _ => 0 := by decide +kernel
  have A := (c30_feasible_set h12 (fun _ _ h => h.1) o13 plain12 (fun h => by rw [bound12] at h; cases h) honest12 s13 ps12 _).1 f
  exact c73_exhibited (k := k) (junk := junk) h12 (fun _ _ h => h.1) o13 plain12 (fun h => by rw [bound12] at h; cases h) honest12
    s13 ps12 (by decide +kernel) (fun _ => solve_reports s13 ▸ rfl) A (fun _ => by decide +kernel)

/-- C56: the two executions with different uninitialised memory remove the same cost and read the same results. -/
example : SameOutcome (Mem.x6.step 1000 (.removeCost 0)) (Mem.y6.step 1000 (.removeCost 0)) ∧
    VecEq Mem.x6.ctl.trajectory Mem.y6.ctl.trajectory := by
  obtain ⟨g, h⟩ := Mem.twins6
  exact ⟨(c56_same_outcome (a := .removeCost 0) (b := .removeCost 0) h trivial rfl).2, (c56_same_results h).2.1⟩

/-- C76: a controller that was moved twice. -/
example : ∃ m' b q, Life.l10.w.solve Life.best 2 = some (m', b, q) ∧ WellSized q := by
  obtain ⟨g, h, _⟩ := Life.hl10
  obtain ⟨m', b, q, s, _, z, _⟩ := LWorld.c76_solve_defined Life.nice_calls h (by decide +kernel) (Life.o11 g)
  exact ⟨m', b, q, s, z⟩
example (g : MGhost 3) (h : LHist d 1000 Ex.Multi.Nice Life.l10 g) (c : g.clean 2) (U : Nat → ℚ) :=
  LWorld.c76_feasible_set Life.nice_calls (fun _ _ h => h.1) h (by decide +kernel) (Life.o11 g) (by decide +kernel) (fun _ => c)
    Life.honest11 Life.s11 (by decide +kernel : (Life.l10.w.ctls 2).ps = some 0) U

/-- C62: the feasible set of an `InitialStateLMPC` next to another controller. -/
example (g : MGhost 2) (h : MHist d 1000 Multi.Nice Multi.mi9 g) (c : g.clean 1) (x U : Nat → ℚ) :=
  MWorld.c62_feasible_set_init Multi.nice_about (fun _ _ h => h.1) h
    (⟨by decide +kernel, contractI rfl (by decide +kernel) (by decide +kernel)⟩ : OpOk d (Multi.mi9.view 1) (g.view 1) (.solve (envI Multi.yMI true)))
    (by decide +kernel) (fun _ => c)
    (by
      intro i hi
      rw [(by decide +kernel : (Multi.mi9.ctls 1).spConstr = [0])] at hi
      rw [List.mem_singleton.1 hi]
      have : (Multi.mi9.cons 0).kind = .trajectory := by decide +kernel
      unfold Constr.userData
      rw [this]
      trivial)
    Multi.sMI (by decide +kernel : (Multi.mi9.ctls 1).ps = some 0) x U

/-- C66: at the third solve with the same initial state the quadratic part of a mixed cost counts three times, its linear
part six times. -/
example (V : (Nat → ℚ) → (Nat → ℚ) → ℚ) (x U : Nat → ℚ) :
    drifted d V 1 2 (fun _ => x) U (.mixed ⟨1, 2, fun _ _ => 1⟩ ⟨1, 1, fun _ _ => 1⟩ ⟨1, fun _ => 0⟩ ⟨1, fun _ => 1⟩) =
      3 * evenPart (V x) U + 6 * oddPart (V x) U := by
  rw [drifted_mixed ⟨rfl, rfl⟩]; norm_num
example (V : (Nat → ℚ) → (Nat → ℚ) → ℚ) (x : Nat → Nat → ℚ) (U : Nat → ℚ) :
    drifted d V 1 2 x U (.target ⟨1, 2, fun _ _ => 1⟩ ⟨1, fun _ => 0⟩ ⟨1, fun _ => 1⟩) = V (x 2) U := drifted_declared (by exact id)

/-- C85: neither client alone is undefined, so no schedule is. -/
example : runAll 1000 Multi.m0 Multi.sched2 ≠ none := by
  refine MWorld.c85_defined (own := Multi.ow) Multi.m0_init Multi.sep2 fun t => ?_
  by_cases h0 : t = 0
  · subst h0
    exact fun h => absurd (congrArg Option.isSome h) (by decide +kernel : (runAll 1000 Multi.m0 (Multi.ow.part 0 Multi.sched2)).isSome ≠ false)
  · by_cases h1 : t = 1
    · subst h1
      exact fun h => absurd (congrArg Option.isSome h) (by decide +kernel : (runAll 1000 Multi.m0 (Multi.ow.part 1 Multi.sched2)).isSome ≠ false)
    · have e : Multi.ow.part t Multi.sched2 = [] := by
        refine List.filter_eq_nil_iff.2 fun c _ hc => ?_
        have hc : c.1.val = t := of_decide_eq_true hc
        have := c.1.isLt
        omega
      rw [e]
      exact fun h => by cases h

end Ex
end Copra
