import Verif.Props.InitState2
import Verif.Props.WorldExamples
import Mathlib.Tactic.IntervalCases

/-! # The theorems on `InitialStateLMPC` applied to a concrete program; what is false of the code -/

namespace Copra
open Spec

set_option linter.unusedSectionVars false
set_option maxRecDepth 100000

namespace Ex
open World

/-- The inverse of a 2x2 matrix. -/
def inv2 (M : Mat ℚ) : Mat ℚ := ⟨M.rows, M.cols, fun i j =>
  (if i = j then M.e (1 - i) (1 - j) else - M.e i j) / (M.e 0 0 * M.e 1 1 - M.e 0 1 * M.e 1 0)⟩

/-- An environment with a correct `inverse()`, whose solver answers `y` on problems with four variables. -/
def envI (y : Vec ℚ) (ok : Bool) : SolveEnv ℚ where
  junk := jk
  inverse := inv2
  answer := fun q => (ok, if q.nrVar = 4 then y else Vec.zero q.nrVar)
  t0 := 10
  t1 := 20
  t2 := 25
  t3 := 31

theorem trueInverse (y : Vec ℚ) (ok : Bool) : TrueInverse d (envI y ok) := by
  intro M hr hc P
  have h01 : M.e 0 1 = M.e 1 0 := P.1 0 (by decide) 1 (by decide)
  have s2 : ∀ f : Nat → ℚ, ∑ k ∈ Finset.range (d.m * d.N), f k = f 0 + f 1 := by
    intro f
    show ∑ k ∈ Finset.range 2, f k = _
    rw [Finset.sum_range_succ, Finset.sum_range_succ, Finset.sum_range_zero, zero_add]
  have p0 : 0 < M.e 0 0 := by
    have := P.2 (fun j => if j = 0 then 1 else 0) ⟨0, by decide, by norm_num⟩
    rw [s2, s2, s2] at this
    simpa using this
  have p1 : 0 < M.e 0 0 * (M.e 0 0 * M.e 1 1 - M.e 0 1 * M.e 1 0) := by
    have := P.2 (fun j => if j = 0 then M.e 0 1 else - M.e 0 0) ⟨1, by decide, by simpa using ne_of_gt p0⟩
    rw [s2, s2, s2] at this
    simp only [if_true, one_ne_zero, if_false] at this
    rw [← h01] at this ⊢
    linarith
  have hD : M.e 0 0 * M.e 1 1 - M.e 0 1 * M.e 1 0 ≠ 0 := by
    intro h; rw [h, mul_zero] at p1; exact lt_irrefl _ p1
  intro a ha b hb
  have ha : a < 2 := ha
  have hb : b < 2 := hb
  rw [s2]
  show M.e a 0 * ((if 0 = b then M.e (1 - 0) (1 - b) else - M.e 0 b) / _) +
    M.e a 1 * ((if 1 = b then M.e (1 - 1) (1 - b) else - M.e 1 b) / _) = _
  rw [← mul_div_assoc, ← mul_div_assoc, ← add_div, div_eq_iff hD]
  interval_cases a <;> interval_cases b <;> simp only [Nat.sub_self, Nat.sub_zero, if_true, if_false, zero_ne_one, one_ne_zero] <;>
    ring

theorem contractI {y : Vec ℚ} {ok : Bool} {l : LMPC ℚ} (hy : y.rows = 4) (hs : l.sol.isSome = true)
    (hd : l.R.rows = 2 ∧ l.R.cols = 2 ∧ l.r.rows = 2 ∧ l.x0lb.rows = 2 ∧ l.x0ub.rows = 2) : SolveContract d (envI y ok) l := by
  refine ⟨fun e => (by rw [e] at hs; cases hs), ?_, fun _ => ⟨hd.1, hd.2.1, hd.2.2.1, hd.2.2.2.1, hd.2.2.2.2, fun M h1 h2 => ⟨h1, h2⟩⟩⟩
  intro q _ _
  show (if q.nrVar = 4 then y else Vec.zero q.nrVar).rows = q.nrVar
  split
  · next h => rw [hy, h]
  · rfl

def i2 := after 1000 w1 (.constructPs true solver 0 jk)
def i3 := after 1000 i2 (.addConstraint 0 jk)
def i4 := after 1000 i3 (.addConstraint 2 jk)
def i5 := after 1000 i4 (.addCost 0 jk)
def i6 := after 1000 i5 (.resetInitialStateCost (mat 2 2 [[1, 0], [0, 1]]) (vec [1, 2]))

/-- The ghost of `i5`. -/
def gI : Ghost := ⟨fun j => (False ∨ (True ∧ j = 0)) ∨ (True ∧ j = 2), fun j => False ∨ (True ∧ j = 0),
    fun j => False ∨ (True ∧ j = 0), True⟩

theorem hi5 : Hist d 1000 Careful i5 gI := by
  have a1 := hist_after (d := d) (dmax := 1000) (E := Careful) (op := opSys) (.start w0_init) ⟨rfl, rfl, rfl⟩
    ⟨trivial, trivial, trivial⟩ (by decide +kernel)
  have a2 := hist_after (op := .constructPs true solver 0 jk) a1 (show HasSystem w1 0 by unfold HasSystem; decide +kernel)
    ⟨trivial, trivial, trivial⟩ (by decide +kernel)
  have b3 := hist_after (op := .addConstraint 0 jk) a2 (fun _ => (by decide +kernel : i2.ctl.spBoundConstr = []))
    ⟨trivial, trivial, trivial⟩ (by decide +kernel : okB 1000 i2 _ = true)
  have b5 := hist_after (op := .addConstraint 2 jk) b3 (fun _ => (by decide +kernel : i3.ctl.spBoundConstr = []))
    ⟨trivial, trivial, trivial⟩ (by decide +kernel : okB 1000 i3 _ = true)
  exact hist_after (op := .addCost 0 jk) b5 trivial ⟨trivial, trivial, trivial⟩ (by decide +kernel : okB 1000 i4 _ = true)

theorem hi6 : Hist d 1000 Careful i6 gI :=
  hist_after (op := .resetInitialStateCost (mat 2 2 [[1, 0], [0, 1]]) (vec [1, 2])) hi5 trivial ⟨trivial, trivial, trivial⟩
    (by decide +kernel : okB 1000 i5 _ = true)

theorem oI5 {y : Vec ℚ} (hy : y.rows = 4) (ok : Bool) : OpOk d i5 gI (.solve (envI y ok)) :=
  ⟨(by decide +kernel : i5.ctl.ps ≠ none), contractI hy (by decide +kernel) (by decide +kernel)⟩

theorem oI6 {y : Vec ℚ} (hy : y.rows = 4) (ok : Bool) : OpOk d i6 gI (.solve (envI y ok)) :=
  ⟨(by decide +kernel : i6.ctl.ps ≠ none), contractI hy (by decide +kernel) (by decide +kernel)⟩

/-- A feasible answer: the initial state `(1, 0)` and the controls `(-1/2, 1/2)`. -/
def yI : Vec ℚ := vec [1, 0, -1/2, 1/2]

theorem freshI5 : CostsFresh d i5 gI := by
  intro i hi _
  rw [(by decide +kernel : i5.ctl.spCost = [0])] at hi ⊢
  rw [List.mem_singleton.1 hi]
  exact ⟨Or.inr ⟨trivial, rfl⟩, rfl⟩

theorem honestI5 : ∀ i ∈ i5.ctl.spConstr, (i5.cons i).userData.Honest := by
  intro i hi
  rw [(by decide +kernel : i5.ctl.spConstr = [0, 2])] at hi
  simp only [List.mem_cons, List.not_mem_nil, or_false] at hi
  have : (i5.cons i).kind ≠ .trajBound := by rcases hi with rfl | rfl <;> decide +kernel
  unfold Constr.userData
  cases h : (i5.cons i).kind <;> simp only <;> first | trivial | exact absurd h this | (split <;> trivial)

/-- C44 and C58 apply. -/
example : ∃ w' b q, i5.solve (envI yI true) = some (w', b, q) ∧
    (∀ x U, Feasible q (joined d x U) ↔ (∀ i ∈ i5.ctl.spConstr, (i5.cons i).userData.Holds d (trajFrom d i5 0 x U) U) ∧
      InitBounds d i5.ctl x ∧ (i5.ctl.spBoundConstr = [] → ∀ j < d.m * d.N, -1000 ≤ U j ∧ U j ≤ 1000)) ∧
    ∀ x, ∃ k : ℚ, ∀ U, objective q (joined d x U) = totalCostFrom d i5 0 x U + k := by
  obtain ⟨w', b, q, hs, _⟩ := c50_solve_defined hi5 (oI5 (y := yI) rfl true)
  exact ⟨w', b, q, hs, c44_joint_feasible hi5 (fun _ _ h => h.1) (oI5 rfl true) (by decide +kernel) (fun _ => trivial) honestI5 hs
    (by decide +kernel), c58_objective_per_state hi5 (oI5 rfl true) (by decide +kernel) freshI5 hs (by decide +kernel)⟩

/-- That problem has a feasible and an infeasible point. -/
example : (i5.solve (envI yI true)).map (fun r => (decide (Feasible r.2.2 yI.e), decide (Feasible r.2.2 fun _ => 0))) = some (true, false) := by
  decide +kernel

/-- C45 (partial) applies with `R = I`. -/
example : ∃ w' b q, i6.solve (envI yI true) = some (w', b, q) ∧ PD q.nrVar q.Q := by
  obtain ⟨w', b, q, hs, _⟩ := c50_solve_defined hi6 (oI6 (y := yI) rfl true)
  refine ⟨w', b, q, hs, (c45_hessian_partial hi6 (fun _ _ h => h.2.1) (oI6 rfl true) (by decide +kernel) (trueInverse _ _) hs).2 ?_⟩
  have e : ∀ i < 2, ∀ j < 2, i6.ctl.R.e i j = if i = j then 1 else 0 := by decide +kernel
  refine ⟨fun i hi j hj => ?_, fun x hx => ?_⟩
  · rw [e i hi j hj, e j hj i hi]; simp only [eq_comm]
  · show 0 < ∑ i ∈ Finset.range 2, ∑ j ∈ Finset.range 2, x i * i6.ctl.R.e i j * x j
    have h2 : ∃ i < 2, x i ≠ 0 := hx
    rw [Finset.sum_range_succ, Finset.sum_range_succ, Finset.sum_range_zero]
    simp only [Finset.sum_range_succ, Finset.sum_range_zero, e 0 (by decide) 0 (by decide), e 0 (by decide) 1 (by decide),
      e 1 (by decide) 0 (by decide), e 1 (by decide) 1 (by decide)]
    have s0 := sq_nonneg (x 0)
    have s1 := sq_nonneg (x 1)
    obtain ⟨i, hi, hne⟩ := h2
    interval_cases i
    · have : 0 < x 0 ^ 2 := by positivity
      norm_num; nlinarith
    · have : 0 < x 1 ^ 2 := by positivity
      norm_num; nlinarith

/-- C45 is false of the code: with the `R` set by the constructor the Hessian is not positive definite. -/
theorem c45_false : ¬ ∀ (w w' : World ℚ) (g : Ghost) (env : SolveEnv ℚ) (b : Bool) (q : QP ℚ), Hist d 1000 Careful w g →
    OpOk d w g (.solve env) → TrueInverse d env → w.ctl.isInit = true → w.solve env = some (w', b, q) → PD q.nrVar q.Q := by
  intro H
  obtain ⟨w', b, q, hs, _⟩ := c50_solve_defined hi5 (oI5 (y := yI) rfl true)
  exact c45_zero_R_not_pd hi5 (fun _ _ h => h.2.1) (oI5 rfl true) (by decide +kernel) (trueInverse _ _) hs
    (by decide +kernel : ∀ a < d.n, ∀ b < d.n, i5.ctl.R.e a b = 0) (by decide)
    (H _ _ _ _ _ _ hi5 (oI5 rfl true) (trueInverse _ _) (by decide +kernel) hs)

theorem same46 : SameDeclared i5 0 a6 0 := by
  have l1 : i5.ctl.spConstr = [0, 2] := by decide +kernel
  have l2 : a6.ctl.spConstr = [0, 2] := by decide +kernel
  have l3 : i5.ctl.spCost = [0] := by decide +kernel
  have l4 : a6.ctl.spCost = [0] := by decide +kernel
  refine ⟨rfl, rfl, rfl, by decide +kernel, ?_, ?_⟩
  · rw [l1, l2]
    refine .cons ?_ (.cons ?_ .nil)
    · unfold Constr.userData
      rw [(by decide +kernel : (i5.cons 0).kind = .trajectory), (by decide +kernel : (a6.cons 0).kind = .trajectory)]
      show _ ∧ _ ∧ _
      decide +kernel
    · unfold Constr.userData
      rw [(by decide +kernel : (i5.cons 2).kind = .ctrlBound), (by decide +kernel : (a6.cons 2).kind = .ctrlBound),
        (by decide +kernel : (i5.cons 2).fullSizeEntry = false), (by decide +kernel : (a6.cons 2).fullSizeEntry = false)]
      show _ ∧ _
      decide +kernel
  · rw [l3, l4]
    refine .cons ?_ .nil
    unfold Cost.userData
    rw [(by decide +kernel : (i5.costs 0).kind = .trajectory), (by decide +kernel : (a6.costs 0).kind = .trajectory)]
    show _ ∧ _ ∧ _
    decide +kernel

/-- C46 applies to the initial-state controller of `i5` and the plain controller of `a6`. -/
example : ∃ r r', i5.solve (envI yI true) = some r ∧ a6.solve opt = some r' ∧
    ∃ k : ℚ, ∀ U, objective r.2.2 (joined d (i5.pss 0).x0.e U) = objective r'.2.2 U + k := by
  have o2 := solvable (w := a6) (by decide +kernel) (by decide +kernel) (by decide +kernel) gI
  obtain ⟨w1, b1, q1, s1, _⟩ := c50_solve_defined hi5 (oI5 (y := yI) rfl true)
  obtain ⟨w2, b2, q2, s2, _⟩ := c50_solve_defined ha6 o2
  refine ⟨_, _, s1, s2, (c46_pinned hi5 ha6 (fun _ _ h => h.1) (fun _ _ h => h.1) (oI5 rfl true) o2 (by decide +kernel) (by decide +kernel)
    (by decide +kernel) (by decide +kernel) same46 (by decide +kernel) freshI5 ?_ (fun _ => trivial) (fun _ => trivial) s1 s2).2.2.1⟩
  intro i hi _
  rw [(by decide +kernel : a6.ctl.spCost = [0])] at hi ⊢
  rw [List.mem_singleton.1 hi]
  exact ⟨Or.inr ⟨trivial, rfl⟩, rfl⟩

/-- C47 (partial) applies: `initialState()` is `(1, 0)` after this solve. -/
example : ∃ w' q, i5.solve (envI yI true) = some (w', true, q) ∧ ∃ x : Vec ℚ, w'.ctl.initialState (w'.pss 0) = some x ∧ x.e 0 = 1 ∧
    InitBounds d i5.ctl x.e := by
  obtain ⟨w', b, q, hs, _⟩ := c50_solve_defined hi5 (oI5 (y := yI) rfl true)
  have hb : b = true := by
    have : (i5.solve (envI yI true)).map (fun r => r.2.1) = some true := by decide +kernel
    rw [hs] at this; exact Option.some.inj this
  subst hb
  have hq : (i5.solve (envI yI true)).map (fun r => (decide (Feasible r.2.2 ((envI yI true).answer r.2.2).2.e),
      decide (((envI yI true).answer r.2.2).2.e 0 = 1))) = some (true, true) := by
    decide +kernel
  rw [hs] at hq
  simp only [Option.map_some, Option.some.injEq, Prod.mk.injEq, decide_eq_true_eq] at hq
  obtain ⟨x, e1, _, e3, _, _, e6⟩ := c47_initial_state_partial (p := 0) hi5 (oI5 rfl true) (by decide +kernel) hs (by decide +kernel)
  exact ⟨w', q, hs, x, e1, by rw [e3 0 (by decide)]; exact hq.2, e6 hq.1⟩

/-- A successful solve followed by one whose solver fails. -/
def i7 := after 1000 i5 (.solve (envI yI true))
def i8 := after 1000 i7 (.solve (envI (vec [9, 9, 0, 0]) false))

/-- C47 is false of the code: after a failed solve `trajectory()` does not start with `initialState()`. -/
theorem c47_false : ¬ ∀ (w : World ℚ) (g : Ghost) (x : Vec ℚ), Hist d 1000 Careful w g → w.ctl.isInit = true →
    w.ctl.initialState (w.pss 0) = some x → 0 < w.ctl.trajectory.rows → w.ctl.trajectory.e 0 = x.e 0 := by
  intro H
  have a7 := hist_after (op := .solve (envI yI true)) hi5 (oI5 rfl true)
    ⟨trivial, trivial, fun i hi => (by rw [(by decide +kernel : i5.ctl.spConstr = [0, 2])] at hi; exact Nat.one_pos)⟩ (by decide +kernel)
  have a8 := hist_after (op := .solve (envI (vec [9, 9, 0, 0]) false)) a7
    ⟨(by decide +kernel : i7.ctl.ps ≠ none), contractI rfl (by decide +kernel : i7.ctl.sol.isSome = true) (by decide +kernel)⟩
    ⟨trivial, trivial, fun i hi => (by
      have e : i7.ctl.spConstr = [0, 2] := by decide +kernel
      have hi : i ∈ i7.ctl.spConstr := hi
      rw [e] at hi
      simp only [List.mem_cons, List.not_mem_nil, or_false] at hi
      show 0 < i7.extCons i
      rcases hi with rfl | rfl <;> decide +kernel)⟩ (by decide +kernel : okB 1000 i7 _ = true)
  have hx : (i8.ctl.initialState (i8.pss 0)).map (fun x => decide (i8.ctl.trajectory.e 0 = x.e 0)) = some false := by decide +kernel
  cases hi : i8.ctl.initialState (i8.pss 0) with
  | none => rw [hi] at hx; cases hx
  | some x =>
    rw [hi] at hx
    simp only [Option.map_some, Option.some.injEq, decide_eq_false_iff_not] at hx
    exact hx (H i8 _ x a8 (by decide +kernel) hi (by decide +kernel))

/-- C48: the counterexample exists for the program of this file. -/
example : ∃ w1' w2' : World ℚ, w1.step 1000 (.construct true solver) = .ok w1' ∧
    w1'.step 1000 (.initializeController 0 jk) = .ok w2' ∧ ∀ env, w2'.solve env = none := by
  have a1 := hist_after (d := d) (dmax := 1000) (E := Careful) (op := opSys) (.start w0_init) ⟨rfl, rfl, rfl⟩
    ⟨trivial, trivial, trivial⟩ (by decide +kernel)
  have h1 := okB_step (by decide +kernel : okB 1000 w1 (.construct true solver) = true)
  have h2 := okB_step (by decide +kernel : okB 1000 (after 1000 w1 (.construct true solver)) (.initializeController 0 jk) = true)
  exact ⟨_, _, h1, h2, fun env =>
    (c48_default_constructed_unusable a1 (show HasSystem w1 0 by unfold HasSystem; decide +kernel) (by decide) h1 h2 env).1⟩

/-- C48 (partial) applies. -/
example := c48_with_resets_partial (s := solver) (jk := jk) (R := mat 2 2 [[1, 0], [0, 1]]) (r := vec [0, 0])
  (lo := evec [.fin 0, .fin 0]) (up := evec [.fin 2, .fin 2]) (env := envI yI true) (p := 0)
  hi5 (by unfold HasSystem; decide +kernel) (by decide +kernel) ⟨rfl, rfl⟩ rfl rfl rfl
  (contractI (l := i5.ctl) rfl (by decide +kernel) (by decide +kernel)).answer
  ((contractI (y := yI) (ok := true) (l := i5.ctl) rfl (by decide +kernel) (by decide +kernel)).init (by decide +kernel)).2.2.2.2.2

/-- C49 (false): after `xInit((5, 6))` the only feasible initial state is still `(1, 0)`, and there is a feasible point. -/
example : ∃ w3 b q, (after 1000 i2 (.xInit 0 (vec [5, 6]))).solve (envI yI true) = some (w3, b, q) ∧
    (∃ y, Feasible q y) ∧ ∀ y, Feasible q y → y 0 = 1 := by
  have a1 := hist_after (d := d) (dmax := 1000) (E := Careful) (op := opSys) (.start w0_init) ⟨rfl, rfl, rfl⟩
    ⟨trivial, trivial, trivial⟩ (by decide +kernel)
  have h1 := okB_step (by decide +kernel : okB 1000 w1 (.constructPs true solver 0 jk) = true)
  have h2 := okB_step (by decide +kernel : okB 1000 i2 (.xInit 0 (vec [5, 6])) = true)
  have hq : ((after 1000 i2 (.xInit 0 (vec [5, 6]))).solve (envI yI true)).map (fun r => decide (Feasible r.2.2 yI.e)) = some true := by
    decide +kernel
  cases hs : (after 1000 i2 (.xInit 0 (vec [5, 6]))).solve (envI yI true) with
  | none => rw [hs] at hq; cases hq
  | some r =>
    obtain ⟨w3, b, q⟩ := r
    rw [hs] at hq
    simp only [Option.map_some, Option.some.injEq, decide_eq_true_eq] at hq
    refine ⟨w3, b, q, rfl, ⟨_, hq⟩, fun y hy => ?_⟩
    rw [c49_xInit_ignored a1 (show HasSystem w1 0 by unfold HasSystem; decide +kernel) rfl h1 h2
      (contractI rfl (by decide +kernel) (by decide +kernel)) hs hy 0 (by decide)]
    decide +kernel

/-- C49 (partial) applies. -/
example : ∃ w3 b q, (after 1000 (after 1000 i5 (.xInit 0 (vec [0, 1]))) (.resetInitialStateBounds (vec [0, 1]).toExt (vec [0, 1]).toExt)).solve
    (envI yI true) = some (w3, b, q) ∧ ∀ y, Feasible q y → y 0 = 0 ∧ y 1 = 1 := by
  have h1 := okB_step (by decide +kernel : okB 1000 i5 (.xInit 0 (vec [0, 1])) = true)
  have h2 := okB_step (by decide +kernel : okB 1000 (after 1000 i5 (.xInit 0 (vec [0, 1])))
    (.resetInitialStateBounds (vec [0, 1]).toExt (vec [0, 1]).toExt) = true)
  have hq : ((after 1000 (after 1000 i5 (.xInit 0 (vec [0, 1]))) (.resetInitialStateBounds (vec [0, 1]).toExt (vec [0, 1]).toExt)).solve
    (envI yI true)).isSome = true := by decide +kernel
  obtain ⟨⟨w3, b, q⟩, hs⟩ := Option.isSome_iff_exists.1 hq
  refine ⟨w3, b, q, hs, fun y hy => ?_⟩
  have := (c49_with_reset_partial hi5 (by decide +kernel) (by decide +kernel) rfl h1 h2
    (contractI rfl (by decide +kernel) (by decide +kernel)) hs hy).1
  exact ⟨this 0 (by decide), this 1 (by decide)⟩

end Ex
end Copra
