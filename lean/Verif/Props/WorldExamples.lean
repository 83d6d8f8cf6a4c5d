import Verif.Props.ExWorld
import Verif.Props.Registry

/-! # The system-level theorems applied to the concrete program of `ExWorld` -/

namespace Copra
open Spec

set_option linter.unusedSectionVars false
set_option maxRecDepth 100000

instance Ext.decLe : (a b : Ext ℚ) → Decidable (a ≤ b)
  | .ninf, .ninf | .ninf, .fin _ | .ninf, .pinf => isTrue trivial
  | .fin _, .pinf | .pinf, .pinf => isTrue trivial
  | .fin a, .fin b => inferInstanceAs (Decidable (a ≤ b))
  | .fin _, .ninf | .pinf, .ninf | .pinf, .fin _ => isFalse id

instance (q : QP ℚ) (x : Nat → ℚ) : Decidable (Feasible q x) := by unfold Feasible; infer_instance

/-- A feasible stationary point of a convex problem is a minimiser. -/
theorem optimal_of_stationary {K : Type} [Field K] [LinearOrder K] [IsStrictOrderedRing K] {q : QP K} {x : Nat → K}
    (hQ : PSD q.c.rows q.Q) (hf : Feasible q x)
    (hs : ∀ i < q.c.rows, (∑ j ∈ Finset.range q.c.rows, q.Q.e i j * x j) + q.c.e i = 0) : IsOptimal q x := by
  refine ⟨hf, fun y _ => ?_⟩
  have key : quadValue q.c.rows q.Q q.c y = quadValue q.c.rows q.Q q.c x
      + 1 / 2 * ∑ i ∈ Finset.range q.c.rows, ∑ j ∈ Finset.range q.c.rows, (y i - x i) * q.Q.e i j * (y j - x j) := by
    have e1 : ∑ i ∈ Finset.range q.c.rows, (y i - x i) * ((∑ j ∈ Finset.range q.c.rows, q.Q.e i j * x j) + q.c.e i) = 0 := by
      apply Finset.sum_eq_zero; intro i hi; rw [hs i (Finset.mem_range.1 hi), mul_zero]
    have sym : ∑ i ∈ Finset.range q.c.rows, ∑ j ∈ Finset.range q.c.rows, x i * q.Q.e i j * y j =
        ∑ i ∈ Finset.range q.c.rows, ∑ j ∈ Finset.range q.c.rows, y i * q.Q.e i j * x j := by
      rw [Finset.sum_comm]
      apply Finset.sum_congr rfl; intro i hi
      apply Finset.sum_congr rfl; intro j hj
      rw [hQ.1 j (Finset.mem_range.1 hj) i (Finset.mem_range.1 hi)]; ring
    have e2 : ∑ i ∈ Finset.range q.c.rows, ∑ j ∈ Finset.range q.c.rows, (y i - x i) * q.Q.e i j * (y j - x j) =
        ∑ i ∈ Finset.range q.c.rows, ∑ j ∈ Finset.range q.c.rows, y i * q.Q.e i j * y j
        - ∑ i ∈ Finset.range q.c.rows, ∑ j ∈ Finset.range q.c.rows, y i * q.Q.e i j * x j
        - ∑ i ∈ Finset.range q.c.rows, ∑ j ∈ Finset.range q.c.rows, x i * q.Q.e i j * y j
        + ∑ i ∈ Finset.range q.c.rows, ∑ j ∈ Finset.range q.c.rows, x i * q.Q.e i j * x j := by
      simp only [← Finset.sum_sub_distrib, ← Finset.sum_add_distrib]
      apply Finset.sum_congr rfl; intro i _
      apply Finset.sum_congr rfl; intro j _
      ring
    have e3 : ∑ i ∈ Finset.range q.c.rows, (y i - x i) * ((∑ j ∈ Finset.range q.c.rows, q.Q.e i j * x j) + q.c.e i) =
        ∑ i ∈ Finset.range q.c.rows, ∑ j ∈ Finset.range q.c.rows, y i * q.Q.e i j * x j
        - ∑ i ∈ Finset.range q.c.rows, ∑ j ∈ Finset.range q.c.rows, x i * q.Q.e i j * x j
        + ∑ i ∈ Finset.range q.c.rows, q.c.e i * y i - ∑ i ∈ Finset.range q.c.rows, q.c.e i * x i := by
      simp only [← Finset.sum_sub_distrib, ← Finset.sum_add_distrib]
      apply Finset.sum_congr rfl; intro i _
      rw [mul_add, Finset.mul_sum]
      have : ∑ j ∈ Finset.range q.c.rows, (y i - x i) * (q.Q.e i j * x j) =
          ∑ j ∈ Finset.range q.c.rows, (y i * q.Q.e i j * x j - x i * q.Q.e i j * x j) := by
        apply Finset.sum_congr rfl; intro j _; ring
      rw [this, Finset.sum_sub_distrib]; ring
    unfold quadValue
    rw [e2, sym]
    rw [e3] at e1
    linear_combination e1
  unfold objective
  rw [key]
  have := hQ.2 fun j => y j - x j
  linarith

namespace Ex
open World

/-- The minimiser of the problem. -/
def xs : Vec ℚ := vec [2666668000000 / 18666672666667, 10666668000000 / 18666672666667]

/-- The solve that returns it. -/
def opt : SolveEnv ℚ := env xs true

def r13 : World ℚ × Bool × QP ℚ := (w12.solve opt).getD (w12, false, ⟨0, 0, 0, Mat.empty, Vec.zero 0, Mat.empty, Vec.nil, Mat.empty, Vec.nil, Vec.nil, Vec.nil⟩)
def w13 : World ℚ := r13.1
def q13 : QP ℚ := r13.2.2

theorem s13 : w12.solve opt = some (w13, true, q13) := by
  have h : (w12.solve opt).isSome = true := by decide +kernel
  obtain ⟨r, hr⟩ := Option.isSome_iff_exists.1 h
  have e : r13 = r := by unfold r13; rw [hr]; rfl
  have b : r13.2.1 = true := by decide +kernel
  unfold w13 q13
  rw [hr, ← e, ← b]

theorem o13 : OpOk d w12 g12 (.solve opt) :=
  ⟨(by decide +kernel : w12.ctl.ps ≠ none), contract rfl
    (fun h => absurd (congrArg Option.isSome h) (by decide +kernel : w12.ctl.sol.isSome ≠ false)) (by decide +kernel)⟩

theorem ps12 : w12.ctl.ps = some 0 := by decide +kernel
theorem plain12 : w12.ctl.isInit = false := by decide +kernel
theorem bound12 : w12.ctl.spBoundConstr = [2] := by decide +kernel
theorem cons12 : w12.ctl.spConstr = [0, 1, 2, 3, 4] := by decide +kernel
theorem costs12 : w12.ctl.spCost = [0, 1, 2, 3] := by decide +kernel

theorem fresh12 : CostsFresh d w12 g12 := by
  intro i hi _
  rw [costs12] at hi ⊢
  simp only [List.mem_cons, List.not_mem_nil, or_false] at hi
  refine ⟨?_, ?_⟩
  · show (((False ∨ (True ∧ i = 0)) ∨ (True ∧ i = 1)) ∨ (True ∧ i = 2)) ∨ (True ∧ i = 3)
    tauto
  · rcases hi with rfl | rfl | rfl | rfl <;> rfl

theorem honest12 : ∀ i ∈ w12.ctl.spConstr, (w12.cons i).userData.Honest := by
  intro i hi
  rw [cons12] at hi
  simp only [List.mem_cons, List.not_mem_nil, or_false] at hi
  have hk : i ≠ 3 → (w12.cons i).kind ≠ .trajBound := by
    rcases hi with rfl | rfl | rfl | rfl | rfl <;> decide +kernel
  by_cases h3 : i = 3
  · subst h3
    have hk : (w12.cons 3).kind = .trajBound := by decide +kernel
    unfold Constr.userData
    rw [hk]
    show ∀ i < (w12.cons 3).lower.rows, (w12.cons 3).lower.e i = .ninf
    decide +kernel
  · have := hk h3
    unfold Constr.userData
    cases h : (w12.cons i).kind <;> simp only <;> first | trivial | exact absurd h this | (split <;> trivial)

instance (A B : Mat ℚ) : Decidable (MatEq A B) := by unfold MatEq; infer_instance
instance (u v : Vec ℚ) : Decidable (VecEq u v) := by unfold VecEq; infer_instance
instance (u v : Vec (Ext ℚ)) : Decidable (VecEq u v) := by unfold VecEq; infer_instance
instance (p q : QP ℚ) : Decidable (QPEq p q) := by unfold QPEq; infer_instance

/-! ## C29, C30, C32, C33, C50, C40, C52 -/

/-- C50 applies. -/
example : ∃ w' b q, w12.solve opt = some (w', b, q) ∧ w12.step 1000 (.solve opt) = .ok w' ∧ WellSized q ∧ q.nrVar = numVars d w12.ctl :=
  c50_solve_defined h12 o13

/-- C29 applies. -/
theorem pd13 : PD q13.nrVar q13.Q := c29_hessian h12 (fun _ _ h => h.2.1) o13 plain12 s13

/-- C30 applies, to a feasible and to an infeasible control sequence. -/
example : Feasible q13 (fun _ => 1 / 2) ∧ ¬ Feasible q13 (fun j => if j = 0 then 2 else 0) ∧ ∀ U, Feasible q13 U ↔
    (∀ i ∈ w12.ctl.spConstr, (w12.cons i).userData.Holds d (Spec.traj d w12 0 U) U) ∧
      (w12.ctl.spBoundConstr = [] → ∀ j < d.m * d.N, -1000 ≤ U j ∧ U j ≤ 1000) :=
  ⟨by decide +kernel, by decide +kernel, c30_feasible_set h12 (fun _ _ h => h.1) o13 plain12
    (fun h => by rw [bound12] at h; cases h) honest12 s13 ps12⟩

/-- C32 applies. -/
example : ∃ k : ℚ, ∀ U, objective q13 U = totalCost d w12 0 U + k := c32_objective h12 o13 plain12 fresh12 s13 ps12

/-- The answer of the solver is a minimiser. -/
theorem opt13 : IsOptimal q13 (opt.answer q13).2.e := by
  have hn : q13.nrVar = q13.c.rows := by decide +kernel
  have P := pd13
  rw [hn] at P
  refine optimal_of_stationary ⟨P.1, fun x => ?_⟩ (by decide +kernel) (by decide +kernel)
  by_cases h : ∃ i < q13.c.rows, x i ≠ 0
  · exact le_of_lt (P.2 x h)
  · push Not at h
    apply le_of_eq
    symm
    apply Finset.sum_eq_zero; intro i hi
    apply Finset.sum_eq_zero; intro j _
    rw [h i (Finset.mem_range.1 hi), zero_mul, zero_mul]

/-- C33 applies. -/
example := c33_optimum h12 (fun _ _ h => h.1) o13 plain12 (fun h => by rw [bound12] at h; cases h) honest12 fresh12 s13 ps12 opt13

/-- C40 and C52 apply: this solve succeeded and took 5 of 21 ticks. -/
example : w13.ctl.control = xs ∧ w13.ctl.solveTime = some 5 ∧ w13.ctl.solveAndBuildTime = some 21 := by
  refine ⟨?_, by decide +kernel, by decide +kernel⟩
  have := c40_control_is_answer plain12 s13
  rw [this]
  rfl
example := c40_success h12 o13 s13 ps12

/-- A failing solve. -/
example : ∃ w' q, w13.solve (env xs false) = some (w', false, q) ∧ w'.ctl.control = w13.ctl.control := by
  have h : (w13.solve (env xs false)).isSome = true := by decide +kernel
  obtain ⟨⟨w', b, q⟩, hr⟩ := Option.isSome_iff_exists.1 h
  have hb : b = false := by
    have : (w13.solve (env xs false)).map (fun r => r.2.1) = some false := by decide +kernel
    rw [hr] at this
    exact Option.some.inj this
  subst hb
  exact ⟨w', q, hr, (c40_failure_keeps_results hr).1⟩

/-! ## C34, C38 -/

example : w12.ctl.nrEqConstr = rowCount w12 w12.ctl.spEqConstr ∧ w12.ctl.nrIneqConstr = rowCount w12 w12.ctl.spIneqConstr :=
  c34_counters_partial h12 (fun _ _ h => h.2.2)
example : w12.ctl.nrIneqConstr = 9 := by decide +kernel

/-- Without the condition on removals. -/
theorem h12' : Hist d 1000 AnyOp w12 g12 := by
  have : ∀ {w g}, Hist d 1000 Careful w g → Hist d 1000 AnyOp w g := by
    intro w g h
    induction h with
    | start h => exact .start h
    | ok _ ho _ hs ih => exact .ok ih ho trivial hs
    | thrown _ ho _ hs ih => exact .thrown ih ho trivial hs
  exact this h12

def wRem := after 1000 w12 (.removeConstraint 0)

/-- C34 is false of the code: `removeConstraint` leaves the counters as they are. -/
theorem c34_false : ¬ ∀ (w : World ℚ) (g : Ghost), Hist d 1000 AnyOp w g →
    w.ctl.nrEqConstr = rowCount w w.ctl.spEqConstr ∧ w.ctl.nrIneqConstr = rowCount w w.ctl.spIneqConstr := by
  intro H
  have h := hist_after (op := .removeConstraint 0) h12' trivial trivial (by decide +kernel)
  have := (H _ _ h).2
  exact absurd this (by decide +kernel : ¬ wRem.ctl.nrIneqConstr = rowCount wRem wRem.ctl.spIneqConstr)

def wClr := after 1000 w12 .clearConstraints
example := c38_clearConstraints h12' trivial (okB_step (by decide +kernel : okB 1000 w12 .clearConstraints = true))
example : ((wClr.solve opt).map fun r => (r.2.2.Aineq.rows, r.2.2.lb.e 0)) = some (0, .fin (-1000)) := by decide +kernel
example := c38_clearCosts h12' trivial (okB_step (by decide +kernel : okB 1000 w12 .clearCosts = true))

/-! ## C27 -/

/-- C27 is false of the code: with a per-step trajectory cost the second solve of an unchanged controller,
whose objects are all still held by the client, gets another Hessian. -/
theorem c27_false : ∃ (w w' w'' : World ℚ) (g : Ghost) (q q' : QP ℚ), Hist d 1000 AnyOp w g ∧ Held w ∧
    OpOk d w g (.solve opt) ∧ w.solve opt = some (w', true, q) ∧ w'.solve opt = some (w'', true, q') ∧ ¬ MatEq q.Q q'.Q := by
  have h : (w13.solve opt).isSome = true := by decide +kernel
  obtain ⟨⟨w', b, q⟩, hr⟩ := Option.isSome_iff_exists.1 h
  have hb : b = true := by
    have : (w13.solve opt).map (fun r => r.2.1) = some true := by decide +kernel
    rw [hr] at this
    exact Option.some.inj this
  subst hb
  refine ⟨w12, w13, w', g12, q13, q, h12', ?_, o13, s13, hr, ?_⟩
  · exact ⟨fun _ _ => Nat.one_pos, fun _ _ => Nat.one_pos⟩
  · intro hm
    have e : (w13.solve opt).map (fun r => decide (q13.Q.e 0 0 = r.2.2.Q.e 0 0)) = some false := by decide +kernel
    rw [hr] at e
    simp only [Option.map_some, Option.some.injEq, decide_eq_false_iff_not] at e
    exact e (hm.2.2 0 (by decide +kernel) 0 (by decide +kernel))

def u8 := after 1000 w7 (.addCost 1 jk)
def u9 := after 1000 u8 (.addCost 2 jk)

theorem k9 : ∃ g, Hist d 1000 AnyOp u9 g := by
  have : ∀ {w g}, Hist d 1000 Careful w g → Hist d 1000 AnyOp w g := by
    intro w g h
    induction h with
    | start h => exact .start h
    | ok _ ho _ hs ih => exact .ok ih ho trivial hs
    | thrown _ ho _ hs ih => exact .thrown ih ho trivial hs
  have a8 := hist_after (op := .addCost 1 jk) (this h7) trivial trivial (by decide +kernel : okB 1000 w7 _ = true)
  exact ⟨_, hist_after (op := .addCost 2 jk) a8 trivial trivial (by decide +kernel : okB 1000 u8 _ = true)⟩

/-- C27 (partial) applies: three solves of a controller with a control and a target cost. -/
example : ∃ w' qs, solveSeq u9 [opt, opt, env xs false] = some (w', qs) ∧ qs.length = 3 ∧ ∀ q ∈ qs, ∀ q' ∈ qs, QPEq q q' := by
  obtain ⟨g, h⟩ := k9
  refine c27_same_problem_partial h (by decide +kernel) ?_ ⟨fun _ _ => Nat.one_pos, fun _ _ => Nat.one_pos⟩ ?_ ?_
  · have hs : u9.ctl.sol ≠ none :=
      fun h => absurd (congrArg Option.isSome h) (by decide +kernel : u9.ctl.sol.isSome ≠ false)
    have hi : u9.ctl.isInit = false := by decide +kernel
    intro e he
    simp only [List.mem_cons, List.not_mem_nil, or_false] at he
    rcases he with rfl | rfl | rfl
    · exact contract rfl hs hi
    · exact contract rfl hs hi
    · exact contract rfl hs hi
  · intro i hi
    have hl : u9.ctl.spCost = [1, 2] := by decide +kernel
    rw [hl] at hi
    simp only [List.mem_cons, List.not_mem_nil, or_false] at hi
    unfold Cost.userData
    rcases hi with rfl | rfl
    · rw [(by decide +kernel : (u9.costs 1).kind = .control)]; exact id
    · rw [(by decide +kernel : (u9.costs 2).kind = .target)]; exact id
  · intro hi
    rw [(by decide +kernel : u9.ctl.isInit = false)] at hi
    cases hi

/-! ## C57: another program with the same declared data -/

/-- Other contents of uninitialised memory. -/
def jk' : Junk ℚ := ⟨fun _ i j => 9 + i + j, fun _ i => 9 - i, fun _ _ => .pinf⟩

def a5 := after 1000 w3 (.addConstraint 2 jk)
def a6 := after 1000 a5 (.addCost 0 jk)

def v2 := after 1000 w1 (.constructPs false solver 0 jk')
def v3 := after 1000 v2 (.addConstraint 0 jk')
def v4 := after 1000 v3 (.solve opt)
def v5 := after 1000 v4 (.removeConstraint 0)
def v6 := after 1000 v5 (.xInit 0 (vec [5, 6]))
def v7 := after 1000 v6 (.xInit 0 (vec [1, 0]))
def v8 := after 1000 v7 (.addConstraint 0 jk')
def v9 := after 1000 v8 (.addConstraint 2 jk')
def v10 := after 1000 v9 (.addCost 0 jk')

theorem ha6 : Hist d 1000 Careful a6 ⟨fun j => (False ∨ (True ∧ j = 0)) ∨ (True ∧ j = 2), fun j => False ∨ (True ∧ j = 0),
    fun j => False ∨ (True ∧ j = 0), True⟩ := by
  have b3 := hist_after (op := .addConstraint 0 jk) h2 (fun _ => (by decide +kernel)) ⟨trivial, trivial, trivial⟩ (by decide +kernel)
  have b5 := hist_after (op := .addConstraint 2 jk) b3 (fun _ => (by decide +kernel : w3.ctl.spBoundConstr = [])) ⟨trivial, trivial, trivial⟩
    (by decide +kernel : okB 1000 w3 _ = true)
  exact hist_after (op := .addCost 0 jk) b5 trivial ⟨trivial, trivial, trivial⟩ (by decide +kernel : okB 1000 a5 _ = true)

theorem solvable {w : World ℚ} (h : w.ctl.sol.isSome = true) (hp : w.ctl.ps ≠ none) (hi : w.ctl.isInit = false) (g : Ghost) :
    OpOk d w g (.solve opt) :=
  ⟨hp, contract rfl (fun e => by rw [e] at h; cases h) hi⟩

theorem hv10 : ∃ g : Ghost, Hist d 1000 NoBoundSpan v10 g ∧ g.fresh 0 ∧ g.clean := by
  have b1 := hist_after (d := d) (dmax := 1000) (E := NoBoundSpan) (op := opSys) (.start w0_init) ⟨rfl, rfl, rfl⟩
    trivial (by decide +kernel)
  have b2 := hist_after (op := .constructPs false solver 0 jk') b1 (show HasSystem w1 0 by unfold HasSystem; decide +kernel)
    trivial (by decide +kernel)
  have b3 := hist_after (op := .addConstraint 0 jk') b2 (fun _ => (by decide +kernel : v2.ctl.spBoundConstr = [])) trivial
    (by decide +kernel : okB 1000 v2 _ = true)
  have b4 := hist_after (op := .solve opt) b3 (solvable (w := v3) (by decide +kernel) (by decide +kernel) (by decide +kernel) _) trivial
    (by decide +kernel : okB 1000 v3 _ = true)
  have b5 := hist_after (op := .removeConstraint 0) b4 trivial trivial (by decide +kernel : okB 1000 v4 _ = true)
  have b6 := hist_after (op := .xInit 0 (vec [5, 6])) b5 rfl trivial (by decide +kernel : okB 1000 v5 _ = true)
  have b7 := hist_after (op := .xInit 0 (vec [1, 0])) b6 rfl trivial (by decide +kernel : okB 1000 v6 _ = true)
  have b8 := hist_after (op := .addConstraint 0 jk') b7 (fun _ => (by decide +kernel : v7.ctl.spBoundConstr = [])) trivial
    (by decide +kernel : okB 1000 v7 _ = true)
  have b9 := hist_after (op := .addConstraint 2 jk') b8 (fun _ => (by decide +kernel : v8.ctl.spBoundConstr = [])) trivial
    (by decide +kernel : okB 1000 v8 _ = true)
  have b10 := hist_after (op := .addCost 0 jk') b9 trivial trivial (by decide +kernel : okB 1000 v9 _ = true)
  refine ⟨_, b10, Or.inr ⟨trivial, rfl⟩, ?_⟩
  show True ∧ v3.ctl.spBoundConstr = []
  decide +kernel

theorem same57 : SameDeclared a6 0 v10 0 := by
  have l1 : a6.ctl.spConstr = [0, 2] := by decide +kernel
  have l2 : v10.ctl.spConstr = [0, 2] := by decide +kernel
  have l3 : a6.ctl.spCost = [0] := by decide +kernel
  have l4 : v10.ctl.spCost = [0] := by decide +kernel
  refine ⟨rfl, rfl, rfl, by decide +kernel, ?_, ?_⟩
  · rw [l1, l2]
    refine .cons ?_ (.cons ?_ .nil)
    · unfold Constr.userData
      rw [(by decide +kernel : (a6.cons 0).kind = .trajectory), (by decide +kernel : (v10.cons 0).kind = .trajectory)]
      show _ ∧ _ ∧ _
      decide +kernel
    · unfold Constr.userData
      rw [(by decide +kernel : (a6.cons 2).kind = .ctrlBound), (by decide +kernel : (v10.cons 2).kind = .ctrlBound),
        (by decide +kernel : (a6.cons 2).fullSizeEntry = false), (by decide +kernel : (v10.cons 2).fullSizeEntry = false)]
      show _ ∧ _
      decide +kernel
  · rw [l3, l4]
    refine .cons ?_ .nil
    unfold Cost.userData
    rw [(by decide +kernel : (a6.costs 0).kind = .trajectory), (by decide +kernel : (v10.costs 0).kind = .trajectory)]
    show _ ∧ _ ∧ _
    decide +kernel

/-- C57 applies: the second program solved and removed a constraint before, moved the initial state away and back,
and has other junk in memory. -/
example : ∃ r r', a6.solve opt = some r ∧ v10.solve opt = some r' ∧ QPEq r.2.2 r'.2.2 := by
  obtain ⟨g, h, hf, hc⟩ := hv10
  have o1 := solvable (w := a6) (by decide +kernel) (by decide +kernel) (by decide +kernel)
    ⟨fun j => (False ∨ (True ∧ j = 0)) ∨ (True ∧ j = 2), fun j => False ∨ (True ∧ j = 0), fun j => False ∨ (True ∧ j = 0), True⟩
  have o2 := solvable (w := v10) (by decide +kernel) (by decide +kernel) (by decide +kernel) g
  obtain ⟨w1, b1, q1, s1, _⟩ := c50_solve_defined ha6 o1
  obtain ⟨w2, b2, q2, s2, _⟩ := c50_solve_defined h o2
  refine ⟨_, _, s1, s2, c57_problem_determined ha6 h (fun _ _ h => h.1) (fun _ _ h => h) o1 o2 (by decide +kernel) (by decide +kernel)
    (by decide +kernel) (by decide +kernel) same57 ?_ ?_ (fun _ => trivial) (fun _ => hc) s1 s2⟩
  · intro i hi _
    rw [(by decide +kernel : a6.ctl.spCost = [0])] at hi ⊢
    rw [List.mem_singleton.1 hi]
    exact ⟨Or.inr ⟨trivial, rfl⟩, rfl⟩
  · intro i hi _
    rw [(by decide +kernel : v10.ctl.spCost = [0])] at hi ⊢
    rw [List.mem_singleton.1 hi]
    exact ⟨hf, rfl⟩

/-! ## C19, C20, C28, C35, C36, C39 -/

theorem Hist.reachable {w : World ℚ} {g : Ghost} {E} (h : Hist d 1000 E w g) : Reachable 1000 w := by
  induction h with
  | start h => exact ⟨_, [], h, rfl⟩
  | ok _ _ _ hs ih => exact ih.step (Or.inl hs)
  | thrown _ _ _ hs ih => exact ih.step (Or.inr ⟨_, hs⟩)

theorem r12 : Reachable 1000 w12 := Hist.reachable h12

/-- The calls that lead to `w12`. -/
def ops12 : List (Op ℚ) := [opSys, opCtl, .addConstraint 0 jk, .addConstraint 1 jk, .addConstraint 2 jk, .addConstraint 3 jk,
  .addConstraint 4 jk, .addCost 0 jk, .addCost 1 jk, .addCost 2 jk, .addCost 3 jk, .weight 1 3]

theorem run12 : w0.run 1000 ops12 = some w12 := by
  have st : ∀ {w : World ℚ} {op} {ops}, okB 1000 w op = true → w.run 1000 (op :: ops) = (after 1000 w op).run 1000 ops := by
    intro w op ops h
    simp only [World.run, okB_step h]
  unfold ops12
  rw [st (by decide +kernel)]; change w1.run _ _ = _
  rw [st (by decide +kernel)]; change w2.run _ _ = _
  rw [st (by decide +kernel)]; change w3.run _ _ = _
  rw [st (by decide +kernel)]; change w4.run _ _ = _
  rw [st (by decide +kernel)]; change w5.run _ _ = _
  rw [st (by decide +kernel)]; change w6.run _ _ = _
  rw [st (by decide +kernel)]; change w7.run _ _ = _
  rw [st (by decide +kernel)]; change w8.run _ _ = _
  rw [st (by decide +kernel)]; change w9.run _ _ = _
  rw [st (by decide +kernel)]; change w10.run _ _ = _
  rw [st (by decide +kernel)]; change w11.run _ _ = _
  rw [st (by decide +kernel)]
  rfl

/-- C19 applies to constraint 7 (accepted) and to constraint 6 (three columns for a two-state system: refused). -/
example : (∃ w', w12.step 1000 (.addConstraint 7 jk) = .ok w' ∧ w'.ctl.spConstr = w12.ctl.spConstr ++ [7]) ∧
    w12.step 1000 (.addConstraint 6 jk) = .thrown .domainError w12 := by
  have hd : dimsOf (w12.pss 0) = ⟨2, 1, 2⟩ := by decide +kernel
  constructor
  · have := (c19_addConstraint_accepts_iff w0_init run12 ps12 (by decide +kernel) (i := 7)
      (fun h => absurd h (by unfold Constr.Once; decide +kernel)) jk).2.1
      (by unfold Constr.Fits; rw [(by decide +kernel : (w12.cons 7).kind = .trajectory)]; simp only; decide +kernel)
      (by unfold CountersFit; decide +kernel)
    obtain ⟨w', a, b, _⟩ := this
    exact ⟨w', a, b⟩
  · exact (c19_addConstraint_accepts_iff w0_init run12 ps12 (by decide +kernel) (i := 6)
      (fun h => absurd h (by unfold Constr.Once; decide +kernel)) jk).1
      (by unfold Constr.Fits; rw [(by decide +kernel : (w12.cons 6).kind = .trajectory)]; simp only; decide +kernel)

/-- C20 applies: the control bound was accepted, so it cannot be added again. -/
example : w12.step 1000 (.addConstraint 2 jk) = .thrown .runtimeError w12 := by
  refine (c20_single_use w0_init run12 (i := 2) (Or.inr (by decide +kernel)) ?_).1 jk 0 ps12
  exact (flag_iff w0_init run12 (Or.inr (by decide +kernel))).1 (by decide +kernel)

example := c28_weights_count r12 0
example := c35_registries_consistent r12
example := c36_remove_undoes_add_constraint r12 (okB_step (by decide +kernel : okB 1000 w12 (.addConstraint 7 jk) = true))
example := c36_remove_undoes_add_cost (okB_step (by decide +kernel : okB 1000 w12 (.addCost 4 jk) = true))
example := c36_remove_any r12 3

/-- The client forgets constraint 0 and cost 1. -/
def z14 := after 1000 (after 1000 w12 (.refsConstr 0 0)) (.refsCost 1 0)

theorem rz14 : Reachable 1000 z14 :=
  (r12.step (Or.inl (okB_step (by decide +kernel)))).step (Or.inl (okB_step (by decide +kernel : okB 1000 (after 1000 w12 (.refsConstr 0 0)) (.refsCost 1 0) = true)))

/-- C39 (partial) applies: the next solve drops exactly these two. -/
example : ∃ r, z14.solve opt = some r ∧ r.1.ctl.spConstr = [1, 2, 3, 4] ∧ r.1.ctl.spCost = [0, 2, 3] := by
  have h : (z14.solve opt).isSome = true := by decide +kernel
  obtain ⟨⟨w', b, q⟩, hr⟩ := Option.isSome_iff_exists.1 h
  have := c39_drops_abandoned_partial rz14 hr (by decide +kernel) (by decide +kernel)
  refine ⟨_, hr, ?_, ?_⟩
  · rw [this.1]; decide +kernel
  · rw [this.2.2.2.2]; decide +kernel

/-- The same cost registered twice, then forgotten by the client. -/
def z15 := after 1000 (after 1000 w12 (.addCost 1 jk)) (.refsCost 1 0)

/-- C39 is false of the code: a cost that nobody outside the controller references is kept by a solve when it is
registered twice. -/
theorem c39_false : ¬ ∀ (w w' : World ℚ) (env : SolveEnv ℚ) (b : Bool) (q : QP ℚ), Reachable 1000 w → w.solve env = some (w', b, q) →
    w'.ctl.spCost = w.ctl.spCost.filter fun i => 0 < w.extCosts i := by
  intro H
  have r : Reachable 1000 z15 :=
    (r12.step (Or.inl (okB_step (by decide +kernel)))).step (Or.inl (okB_step (by decide +kernel : okB 1000 (after 1000 w12 (.addCost 1 jk)) (.refsCost 1 0) = true)))
  have h : (z15.solve opt).isSome = true := by decide +kernel
  obtain ⟨⟨w', b, q⟩, hr⟩ := Option.isSome_iff_exists.1 h
  have e := H _ _ _ _ _ r hr
  have k : (z15.solve opt).map (fun r => decide (r.1.ctl.spCost = z15.ctl.spCost.filter fun i => 0 < z15.extCosts i)) = some false := by
    decide +kernel
  rw [hr] at k
  simp only [Option.map_some, Option.some.injEq, decide_eq_false_iff_not] at k
  exact k e

end Ex
end Copra
