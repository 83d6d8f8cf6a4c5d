import Verif.Props.Decrease
import Verif.Props.RecursiveExamples
import Mathlib.Tactic.NormNum.BigOperators

/-! # C87, C88 on a concrete program -/

namespace Copra
open Spec

set_option linter.unusedSectionVars false
set_option maxRecDepth 100000

namespace Ex
open World

/-- The stage cost (given for the whole trajectory, as `autoSpan` would), a terminal cost and a control cost. -/
def costsCD (i : Nat) : Cost ℚ :=
  match i with
  | 0 => Cost.mkTrajectory (mat 6 6 [[1, 0, 0, 0, 0, 0], [0, 1, 0, 0, 0, 0], [0, 0, 1, 0, 0, 0], [0, 0, 0, 1, 0, 0],
      [0, 0, 0, 0, 1, 0], [0, 0, 0, 0, 0, 1]]) (vec [0, 0, 0, 0, 0, 0])
  | 1 => Cost.mkTarget (mat 2 2 [[1, 0], [0, 1]]) (vec [0, 0])
  | 2 => Cost.mkControl (mat 1 1 [[1]]) (vec [0])
  | i => theCosts i

def cd0 : World ℚ := { rf0 with costs := costsCD }

theorem cd0_init : World.Init cd0 := by
  obtain ⟨a, b, c, e⟩ := rf0_init
  refine ⟨a, b, fun i => ?_, e⟩
  show World.FreshCost (costsCD i)
  unfold costsCD
  split
  · exact .inl ⟨_, _, rfl⟩
  · exact .inr (.inl ⟨_, _, rfl⟩)
  · exact .inr (.inr (.inl ⟨_, _, rfl⟩))
  · exact c _

/-- `x+ = x / 2 + [0;1] u`, `x0 = (1, 0)`, two steps. -/
def opSysCD : Op ℚ := .system 0 (mat 2 2 [[1/2, 0], [0, 1/2]]) (mat 2 1 [[0], [1]]) (vec [0, 0]) (vec [1, 0]) 2

def cd1 := after 1000 cd0 opSysCD
def cd2 := after 1000 cd1 opCtl
def cd3 := after 1000 cd2 (.addConstraint 2 jk)
def cd4 := after 1000 cd3 (.addConstraint 0 jk)
def cd5 := after 1000 cd4 (.addCost 0 jk)
def cd6 := after 1000 cd5 (.addCost 1 jk)
def cd7 := after 1000 cd6 (.addCost 2 jk)

abbrev Nice : World ℚ → Op ℚ → Prop := fun w op => NoBoundSpan w op ∧ NonnegWeights w op

theorem hcd7 : ∃ g : Ghost, Hist d 1000 Nice cd7 g := by
  have a1 := hist_after (d := d) (dmax := 1000) (E := Nice) (op := opSysCD) (.start cd0_init) ⟨rfl, rfl, rfl⟩
    ⟨trivial, trivial⟩ (by decide +kernel)
  have a2 := hist_after (op := opCtl) a1 (show HasSystem cd1 0 by unfold HasSystem; decide +kernel)
    ⟨trivial, trivial⟩ (by decide +kernel : okB 1000 cd1 _ = true)
  have b3 := hist_after (op := .addConstraint 2 jk) a2 (fun _ => (by decide +kernel : cd2.ctl.spBoundConstr = [])) ⟨trivial, trivial⟩
    (by decide +kernel : okB 1000 cd2 _ = true)
  have b4 := hist_after (op := .addConstraint 0 jk) b3 (fun h => absurd h (by decide +kernel : (cd3.cons 0).kind ≠ .ctrlBound))
    ⟨trivial, trivial⟩ (by decide +kernel : okB 1000 cd3 _ = true)
  have b5 := hist_after (op := .addCost 0 jk) b4 trivial ⟨trivial, trivial⟩ (by decide +kernel : okB 1000 cd4 _ = true)
  have b6 := hist_after (op := .addCost 1 jk) b5 trivial ⟨trivial, trivial⟩ (by decide +kernel : okB 1000 cd5 _ = true)
  exact ⟨_, hist_after (op := .addCost 2 jk) b6 trivial ⟨trivial, trivial⟩ (by decide +kernel : okB 1000 cd6 _ = true)⟩

theorem reg_cd7 : cd7.ctl.spConstr = [2, 0] ∧ cd7.ctl.spCost = [0, 1, 2] := by decide +kernel

theorem data_cd7 : (cd7.cons 0).userData = .trajectory true (mat 2 2 [[0, 1], [0, -1]]) (evec [.fin 2, .fin 2]) ∧
    (cd7.cons 2).userData = .ctrlBound (evec [.fin (-1)]) (evec [.fin 1]) := ⟨rfl, rfl⟩

theorem all_cd7 {P : ConstrData ℚ → Prop} (h0 : P (.trajectory true (mat 2 2 [[0, 1], [0, -1]]) (evec [.fin 2, .fin 2])))
    (h2 : P (.ctrlBound (evec [.fin (-1)]) (evec [.fin 1]))) : ∀ i ∈ cd7.ctl.spConstr, P (cd7.cons i).userData := by
  intro i hi
  rw [reg_cd7.1] at hi
  simp only [List.mem_cons, List.not_mem_nil, or_false] at hi
  rcases hi with rfl | rfl
  · rw [data_cd7.2]; exact h2
  · rw [data_cd7.1]; exact h0

theorem sys_cd7 : (cd7.pss 0).A = mat 2 2 [[1/2, 0], [0, 1/2]] ∧ (cd7.pss 0).B = mat 2 1 [[0], [1]] ∧ (cd7.pss 0).d = vec [0, 0] :=
  ⟨rfl, rfl, rfl⟩

theorem succ_cd7 (x u : Nat → ℚ) : successor d cd7 0 x u 0 = x 0 / 2 ∧ successor d cd7 0 x u 1 = x 1 / 2 + u 0 := by
  unfold successor
  rw [sys_cd7.1, sys_cd7.2.1, sys_cd7.2.2]
  constructor <;> simp [d, Finset.sum_range_succ, mat, vec] <;> ring

/-- With zero control the speed is halved. -/
theorem keeps_cd7 (x : Nat → ℚ) (h : ∀ i ∈ cd7.ctl.spConstr, (cd7.cons i).userData.AtState d x) :
    Keeps d 1000 cd7 0 x fun _ => 0 := by
  have h0 := h 0 (by rw [reg_cd7.1]; decide)
  rw [data_cd7.1] at h0
  have e := (succ_cd7 x fun _ => 0).2
  refine ⟨?_, fun hb => absurd hb (by decide +kernel : cd7.ctl.spBoundConstr ≠ [])⟩
  refine all_cd7 (P := fun D => D.AtStep d x (fun _ => 0) ∧ D.AtState d (successor d cd7 0 x fun _ => 0)) ?_ ?_
  · refine ⟨trivial, ?_⟩
    have a0 := h0 0 (by decide)
    have a1 := h0 1 (by decide)
    unfold Spec.Rel at a0 a1
    simp only [if_true, d, Finset.sum_range_succ, Finset.sum_range_zero, zero_add] at a0 a1
    have b0 : (0 : ℚ) * x 0 + 1 * x 1 ≤ 2 := a0
    have b1 : (0 : ℚ) * x 0 + -1 * x 1 ≤ 2 := a1
    intro r hr
    have hr2 : r < 2 := hr
    unfold Spec.Rel
    simp only [if_true, d, Finset.sum_range_succ, Finset.sum_range_zero, zero_add]
    rw [show successor ⟨2, 1, 2⟩ cd7 0 x (fun _ => 0) 1 = x 1 / 2 + 0 from e]
    rcases (by omega : r = 0 ∨ r = 1) with rfl | rfl
    · show (0 : ℚ) * _ + 1 * (x 1 / 2 + 0) ≤ 2
      linarith
    · show (0 : ℚ) * _ + -1 * (x 1 / 2 + 0) ≤ 2
      linarith
  · refine ⟨fun c hc => ?_, trivial⟩
    obtain rfl : c = 0 := by have : c < 1 := hc; omega
    decide +kernel

open Classical in
/-- An exact solver exists. -/
noncomputable def exact : SolveEnv ℚ :=
  { env (vec [0, 0]) true with
    answer := fun q => if h : ∃ x, IsOptimal q x then (true, ⟨q.nrVar, h.choose⟩) else (false, ⟨0, fun _ => 0⟩) }

theorem exact_ok : ExactSolver d cd7.ctl exact ∧ SolveContract d exact cd7.ctl := by
  have key : ∀ q, ((exact.answer q).1 = true ↔ ∃ x, IsOptimal q x) ∧
      ((exact.answer q).1 = true → IsOptimal q (exact.answer q).2.e ∧ (exact.answer q).2.rows = q.nrVar) := by
    intro q
    unfold exact
    simp only
    split
    case isTrue h => exact ⟨⟨fun _ => h, fun _ => rfl⟩, fun _ => ⟨h.choose_spec, rfl⟩⟩
    case isFalse h => exact ⟨⟨fun e => absurd e Bool.false_ne_true, fun e => absurd e h⟩, fun e => absurd e Bool.false_ne_true⟩
  refine ⟨fun q _ _ => ⟨(key q).1, fun h => ((key q).2 h).1⟩, ?_, fun q _ h => ((key q).2 h).2, fun h => ?_⟩
  · exact fun h => absurd (congrArg Option.isSome h) (by decide +kernel)
  · exact absurd h (by decide +kernel)

/-- The total cost. -/
theorem cost_cd7 (x V : Nat → ℚ) : totalCostFrom d cd7 0 x V =
    1 / 2 * ((x 0 ^ 2 + x 1 ^ 2) + ((x 0 / 2) ^ 2 + (x 1 / 2 + V 0) ^ 2) + 2 * ((x 0 / 4) ^ 2 + (x 1 / 4 + V 0 / 2 + V 1) ^ 2)
      + V 0 ^ 2 + V 1 ^ 2) + 1 / 2 * (1 / 1000000) * (V 0 ^ 2 + V 1 ^ 2) := by
  have e0 : (cd7.costs 0).userData = .trajectory (mat 6 6 [[1, 0, 0, 0, 0, 0], [0, 1, 0, 0, 0, 0], [0, 0, 1, 0, 0, 0], [0, 0, 0, 1, 0, 0],
      [0, 0, 0, 0, 1, 0], [0, 0, 0, 0, 0, 1]]) (vec [0, 0, 0, 0, 0, 0]) ⟨6, fun _ => 1⟩ := rfl
  have e1 : (cd7.costs 1).userData = .target (mat 2 2 [[1, 0], [0, 1]]) (vec [0, 0]) ⟨2, fun _ => 1⟩ := rfl
  have e2 : (cd7.costs 2).userData = .control (mat 1 1 [[1]]) (vec [0]) ⟨1, fun _ => 1⟩ := rfl
  unfold totalCostFrom trajFrom
  rw [reg_cd7.2, sys_cd7.1, sys_cd7.2.1, sys_cd7.2.2]
  simp only [List.map_cons, List.map_nil, List.sum_cons, List.sum_nil]
  rw [e0, e1, e2]
  simp [CostData.value, wsq, d, sim, ctrl,
    Finset.sum_range_succ, mat, vec]
  ring

theorem traj1_cd7 (x V : Nat → ℚ) : trajFrom d cd7 0 x V 1 0 = x 0 / 2 ∧ trajFrom d cd7 0 x V 1 1 = x 1 / 2 + V 0 := by
  unfold trajFrom
  rw [sys_cd7.1, sys_cd7.2.1, sys_cd7.2.2]
  constructor <;> simp [d, sim, ctrl, Finset.sum_range_succ, mat, vec] <;> ring

/-- Half the square of the norm of the state. -/
def stage (x _V : Nat → ℚ) : ℚ := 1 / 2 * (x 0 ^ 2 + x 1 ^ 2)

theorem perStep_cd7 : ∀ i ∈ cd7.ctl.spConstr, (cd7.cons i).userData.PerStep d := all_cd7 (P := fun D => D.PerStep d) rfl rfl

theorem decreasing_cd7 : Decreasing d 1000 cd7 0 stage := by
  refine decreasing_of_shift (by decide) perStep_cd7 fun x V hV => ⟨fun _ => 0, keeps_cd7 _ fun i hi =>
    ((holds_steps (perStep_cd7 i hi) _ _).1 (hV.1 i hi)).1 _ (le_refl _), ?_⟩
  rw [cost_cd7, cost_cd7, (traj1_cd7 x V).1, (traj1_cd7 x V).2]
  have s0 : shift d V (fun _ => 0) 0 = V 1 := rfl
  have s1 : shift d V (fun _ => 0) 1 = 0 := rfl
  rw [s0, s1]
  unfold stage
  have h1 := sq_nonneg (x 0 / 4)
  have h2 := sq_nonneg (x 1 / 4 + V 0 / 2 + V 1)
  have h3 := sq_nonneg (V 0)
  nlinarith

theorem plan_cd7 : PlanFrom d 1000 cd7 0 (cd7.pss 0).x0.e fun _ => 0 := by
  refine ⟨all_cd7 (P := fun D => D.Holds d (trajFrom d cd7 0 (cd7.pss 0).x0.e fun _ => 0) fun _ => 0) ?_ ?_,
    fun hb => absurd hb (by decide +kernel : cd7.ctl.spBoundConstr ≠ [])⟩
  · show TrajectoryStep _ _ _ _ _
    unfold TrajectoryStep Spec.Rel
    decide +kernel
  · show CtrlBoundStep _ _ _ _
    unfold CtrlBoundStep
    decide +kernel

theorem noPer_cd7 : NoPerStep d cd7 := by
  unfold NoPerStep
  rw [reg_cd7.2]
  intro i hi
  simp only [List.mem_cons, List.not_mem_nil, or_false] at hi
  rcases hi with rfl | rfl | rfl
  · exact fun h => absurd (show (6 : Nat) = 2 from h) (by decide)
  · exact id
  · exact id

/-- C88 applies: however long the loop runs, at most `11/(16 ε)` of its states have `|x|^2 >= 2 ε`. -/
example (n : Nat) (ε : ℚ) : ∃ w' log, closedLoop d 1000 0 cd7 (List.replicate n exact) = some (w', log) ∧ log.length = n ∧
    ((log.filter fun a => decide (ε ≤ stage a.2.1.e a.2.2.e)).length : ℚ) * ε ≤ 11 / 16 := by
  obtain ⟨g, h⟩ := hcd7
  obtain ⟨w', log, a, b, c⟩ := c88_converges (ℓ := stage)
    (fun x _ => by unfold stage; nlinarith [sq_nonneg (x 0), sq_nonneg (x 1)]) ε (List.replicate n exact) h
    (by decide +kernel) (by decide +kernel) ⟨fun _ _ => Nat.one_pos, fun _ _ => Nat.one_pos⟩
    (fun e he => by rw [List.eq_of_mem_replicate he]; exact ⟨exact_ok.2, exact_ok.1⟩)
    (fun hb => absurd hb (by decide +kernel : cd7.ctl.spBoundConstr ≠ []))
    (all_cd7 (P := fun D => D.Honest) trivial trivial) noPer_cd7 decreasing_cd7 plan_cd7
  refine ⟨w', log, a, by rw [b, List.length_replicate], c.trans (le_of_eq ?_)⟩
  have x0 : (cd7.pss 0).x0.e 0 = 1 := rfl
  have x1 : (cd7.pss 0).x0.e 1 = 0 := rfl
  rw [cost_cd7, x0, x1]
  norm_num

/-- The problem does not depend on the answer. -/
theorem same_qp {e1 e2 : SolveEnv ℚ} {w a1 a2 : World ℚ} {b1 b2 : Bool} {q1 q2 : QP ℚ} (hj : e1.junk = e2.junk)
    (hi : e1.inverse = e2.inverse) (h1 : w.solve e1 = some (a1, b1, q1)) (h2 : w.solve e2 = some (a2, b2, q2)) : q1 = q2 := by
  obtain ⟨v1, p1, l1, s1, _, a, b, c, _, rfl, _⟩ := solve_inv h1
  obtain ⟨v2, p2, l2, s2, _, a', b', c', _, rfl, _⟩ := solve_inv h2
  rw [← hj, a] at a'; cases a'
  rw [b] at b'; cases b'
  rw [← hi, c] at c'; cases c'
  rfl

/-- C87 applies: there is exactly one best plan, and `solve()` finds it. -/
example : (∃ V, BestPlan d 1000 cd7 0 V) ∧ ∃ w' q, cd7.solve exact = some (w', true, q) ∧ BestPlan d 1000 cd7 0 w'.ctl.control.e := by
  obtain ⟨g, h⟩ := hcd7
  have o : OpOk d cd7 g (.solve exact) := ⟨by decide +kernel, exact_ok.2⟩
  have hi : cd7.ctl.isInit = false := by decide +kernel
  have hp : cd7.ctl.ps = some 0 := by decide +kernel
  have hb : cd7.ctl.spBoundConstr = [] → g.clean := fun hb => absurd hb (by decide +kernel : cd7.ctl.spBoundConstr ≠ [])
  have hh : ∀ i ∈ cd7.ctl.spConstr, (cd7.cons i).userData.Honest := all_cd7 (P := fun D => D.Honest) trivial trivial
  have hf : CostsFresh d cd7 g := fun i hi hps => absurd hps (noPer_cd7 i hi)
  refine ⟨(c87_one_best_plan h (fun _ _ h => h) o hi hb hh hf hp ⟨_, plan_cd7⟩).1, ?_⟩
  obtain ⟨w', b, q, sv, _, hw, hv⟩ := c50_solve_defined h o
  obtain ⟨R1, R2⟩ := exact_ok.1 q hw hv
  have size : q.nrEq + q.nrIneq + 2 * q.nrVar ≤ intMax := by
    obtain ⟨w2, b2, q2, sv2, _⟩ := c50_solve_defined (env := env (vec [0, 0]) true) h
      ⟨by decide +kernel, contract rfl (by decide +kernel) (by decide +kernel)⟩
    have e := same_qp (e1 := exact) (e2 := env (vec [0, 0]) true) rfl rfl sv sv2
    have k : ((cd7.solve (env (vec [0, 0]) true)).map fun r => decide (r.2.2.nrEq + r.2.2.nrIneq + 2 * r.2.2.nrVar ≤ intMax)) =
        some true := by decide +kernel
    rw [sv2] at k
    rw [e]
    simpa using k
  have X : ExactOn 1000 jk .quadProgDense q (exact.answer q) := by
    have I : ∀ x, BackEndOptimal 1000 jk .quadProgDense q x ↔ IsOptimal q x := fun x => by
      rw [backEndOptimal_iff hw size]
      exact ⟨fun h => ⟨h.1.1, fun y hy => h.2 y ⟨hy, fun e => by cases e⟩⟩,
        fun h => ⟨⟨h.1, fun e => by cases e⟩, fun y hy => h.2 y hy.1⟩⟩
    simp only [ExactOn, I]
    exact ⟨R1, R2⟩
  obtain rfl : b = true := (c87_exact_success h (fun _ _ h => h) o hi hb hh sv hp size X).2
    ⟨_, plan_cd7, fun e => by cases e⟩
  exact ⟨w', q, sv, (c87_exact_result h (fun _ _ h => h) o hi hb hh hf sv hp size (by decide) X).1⟩

open Classical in
/-- An exact solver, with a correct `inverse()`. -/
noncomputable def exactI : SolveEnv ℚ :=
  { envI yI true with
    answer := fun q => if h : ∃ x, IsOptimal q x then (true, ⟨q.nrVar, h.choose⟩) else (false, ⟨0, fun _ => 0⟩) }

/-- C87 applies to an `InitialStateLMPC` as constructed. -/
example : ∃ w' q, i5.solve exactI = some (w', true, q) := by
  have key : ∀ q, ((exactI.answer q).1 = true ↔ ∃ x, IsOptimal q x) ∧
      ((exactI.answer q).1 = true → IsOptimal q (exactI.answer q).2.e ∧ (exactI.answer q).2.rows = q.nrVar) := by
    intro q
    unfold exactI
    simp only
    split
    case isTrue h => exact ⟨⟨fun _ => h, fun _ => rfl⟩, fun _ => ⟨h.choose_spec, rfl⟩⟩
    case isFalse h => exact ⟨⟨fun e => absurd e Bool.false_ne_true, fun e => absurd e h⟩, fun e => absurd e Bool.false_ne_true⟩
  obtain ⟨c1, c2, c3⟩ := (oI5 (y := yI) rfl true).2
  have o : OpOk d i5 gI (.solve exactI) := ⟨(oI5 (y := yI) rfl true).1, c1, fun q _ h => ((key q).2 h).2, c3⟩
  obtain ⟨w', b, q, sv, _, hw, hv⟩ := c50_solve_defined hi5 o
  obtain ⟨w2, b2, q2, sv2, _⟩ := c50_solve_defined hi5 (oI5 (y := yI) rfl true)
  have e : q = q2 := same_qp (e1 := exactI) (e2 := envI yI true) rfl rfl sv sv2
  have size : q.nrEq + q.nrIneq + 2 * q.nrVar ≤ intMax := by
    have k : ((i5.solve (envI yI true)).map fun r => decide (r.2.2.nrEq + r.2.2.nrIneq + 2 * r.2.2.nrVar ≤ intMax)) =
        some true := by decide +kernel
    rw [sv2] at k
    rw [e]
    simpa using k
  have X : ExactOn 1000 jk .lssol q (exactI.answer q) := by
    have I : ∀ x, BackEndOptimal 1000 jk .lssol q x ↔ IsOptimal q x := fun x => by
      rw [backEndOptimal_iff hw size]
      exact ⟨fun h => ⟨h.1.1, fun y hy => h.2 y ⟨hy, fun e => by cases e⟩⟩,
        fun h => ⟨⟨h.1, fun e => by cases e⟩, fun y hy => h.2 y hy.1⟩⟩
    simp only [ExactOn, I]
    exact ⟨(key q).1, fun h => ((key q).2 h).1⟩
  have hh : ∀ i ∈ i5.ctl.spConstr, (i5.cons i).userData.Honest := honestI5
  have := (c87_exact_success_init hi5 (fun _ _ h => ⟨h.1, h.2.1⟩) o (by decide +kernel) (trueInverse yI true) (fun _ => trivial)
    hh sv (by decide +kernel : i5.ctl.ps = some 0) size
    (.inr ⟨by unfold Spec.Symmetric; decide +kernel, (i5.pss 0).x0.e, by decide +kernel⟩) X).2
    ⟨(i5.pss 0).x0.e, fun j => yI.e (2 + j), ⟨by unfold InitBounds; decide +kernel, ?_, by decide +kernel⟩, fun e => by cases e⟩
  · exact ⟨w', q, by rw [sv, this]⟩
  · rw [(by decide +kernel : i5.ctl.spConstr = [0, 2])]
    intro i hi
    simp only [List.mem_cons, List.not_mem_nil, or_false] at hi
    rcases hi with rfl | rfl
    · show TrajectoryStep _ _ _ _ _
      unfold TrajectoryStep Spec.Rel
      decide +kernel
    · show CtrlBoundStep _ _ _ _
      unfold CtrlBoundStep
      decide +kernel

end Ex
end Copra
