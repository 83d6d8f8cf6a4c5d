import Verif.Props.EndToEnd
import Verif.Props.InitExamples
import Verif.Props.InitJoint

/-! # C59 and C60 on concrete programs: the hypotheses are met -/

namespace Copra
open Spec

set_option linter.unusedSectionVars false
set_option maxRecDepth 100000

section
variable {K : Type} [Field K] [LinearOrder K] [IsStrictOrderedRing K]

/-- A minimiser of the QP given to `SI_solve` is one of the back end's problem (for OSQP: if its rows do not underflow). -/
theorem backEndOptimal_of {dmax : K} {junk : Junk K} {k : SolverKind} {q : QP K} {x : Nat → K} (hw : WellSized q)
    (hi : q.nrEq + q.nrIneq + 2 * q.nrVar ≤ intMax) (hr : ∀ i < q.Aineq.rows, -dmax ≤ rowValue q.Aineq x i)
    (h : IsOptimal q x) : BackEndOptimal dmax junk k q x := by
  cases k
  case quadProgDense =>
    obtain ⟨p, hp, _, _, F, O⟩ := c41_quadProg junk hw (by omega)
    exact ⟨p, hp, (F x).2 h.1, fun y hy => by rw [O, O]; exact h.2 y ((F y).1 hy)⟩
  case lssol =>
    obtain ⟨p, hp, _, _, F, O⟩ := c42_lssol junk hw (by omega)
    exact ⟨p, hp, (F x).2 h.1, fun y hy => by rw [O, O]; exact h.2 y ((F y).1 hy)⟩
  case osqp =>
    obtain ⟨p, hp, _, _, F, O⟩ := c42_osqp dmax junk hw (by omega)
    exact ⟨p, hp, (F x).2 ⟨h.1, hr⟩, fun y hy => by rw [O, O]; exact h.2 y ((F y).1 hy).1⟩
  case qld => exact h
  case userDefined => exact h
  case gurobi => exact h

/-- Positive definite implies positive semidefinite. -/
theorem psd_of_pd {n : Nat} {M : Mat K} (P : PD n M) : PSD n M := by
  refine ⟨P.1, fun x => ?_⟩
  by_cases h : ∃ i < n, x i ≠ 0
  · exact le_of_lt (P.2 x h)
  · push Not at h
    apply le_of_eq
    symm
    apply Finset.sum_eq_zero; intro i hi
    apply Finset.sum_eq_zero; intro j _
    rw [h i (Finset.mem_range.1 hi), zero_mul, zero_mul]
end

namespace Ex
open World

/-- C59 applies, with every back end. -/
theorem end13 (k : SolverKind) (junk : Junk ℚ) :
    ∀ V : Nat → ℚ, (∀ i ∈ w12.ctl.spConstr, (w12.cons i).userData.Holds d (Spec.traj d w12 0 V) V) →
      (∀ j < d.m * d.N, -1000 ≤ V j ∧ V j ≤ 1000) →
      (k = .osqp → ∀ i < q13.Aineq.rows, -1000 ≤ rowValue q13.Aineq V i) →
      totalCost d w12 0 w13.ctl.control.e ≤ totalCost d w12 0 V :=
  (c59_end_to_end (k := k) (junk := junk) h12 (fun _ _ h => h.1) o13 plain12 (fun h => by rw [bound12] at h; cases h) honest12
    fresh12 s13 ps12 (by decide +kernel)
    (backEndOptimal_of (by decide +kernel) (by decide +kernel) (by decide +kernel) opt13)).2.2

/-! An initial-state controller with `R = I`, `r = (1/10, 1/5)` and initial states between -5 and 5. -/

def j6 := after 1000 i5 (.resetInitialStateCost (mat 2 2 [[1, 0], [0, 1]]) (vec [1/10, 1/5]))
def j7 := after 1000 j6 (.resetInitialStateBounds (evec [.fin (-5), .fin (-5)]) (evec [.fin 5, .fin 5]))

theorem hj7 : Hist d 1000 Careful j7 gI := by
  have a := hist_after (op := .resetInitialStateCost (mat 2 2 [[1, 0], [0, 1]]) (vec [1/10, 1/5])) hi5 trivial
    ⟨trivial, trivial, trivial⟩ (by decide +kernel : okB 1000 i5 _ = true)
  exact hist_after (op := .resetInitialStateBounds (evec [.fin (-5), .fin (-5)]) (evec [.fin 5, .fin 5])) a trivial
    ⟨trivial, trivial, trivial⟩ (by decide +kernel : okB 1000 j6 _ = true)

/-- The minimiser. -/
def yJ : Vec ℚ := vec [-1/10, -1/5, 700000900000 / 2000004000001, -299999800000 / 2000004000001]

theorem oJ7 : OpOk d j7 gI (.solve (envI yJ true)) :=
  ⟨by decide +kernel, contractI rfl (by decide +kernel) (by decide +kernel)⟩

theorem freshJ7 : CostsFresh d j7 gI := by
  intro i hi _
  rw [(by decide +kernel : j7.ctl.spCost = [0])] at hi ⊢
  rw [List.mem_singleton.1 hi]
  exact ⟨Or.inr ⟨trivial, rfl⟩, rfl⟩

theorem honestJ7 : ∀ i ∈ j7.ctl.spConstr, (j7.cons i).userData.Honest := by
  intro i hi
  rw [(by decide +kernel : j7.ctl.spConstr = [0, 2])] at hi
  simp only [List.mem_cons, List.not_mem_nil, or_false] at hi
  have : (j7.cons i).kind ≠ .trajBound := by rcases hi with rfl | rfl <;> decide +kernel
  unfold Constr.userData
  cases h : (j7.cons i).kind <;> simp only <;> first | trivial | exact absurd h this | (split <;> trivial)

def rJ : World ℚ × Bool × QP ℚ := (j7.solve (envI yJ true)).getD (j7, false, q13)

theorem sJ : j7.solve (envI yJ true) = some (rJ.1, true, rJ.2.2) := by
  have e : (j7.solve (envI yJ true)).isSome = true := by decide +kernel
  obtain ⟨r, hr⟩ := Option.isSome_iff_exists.1 e
  have h1 : rJ = r := by unfold rJ; rw [hr]; rfl
  have h2 : rJ.2.1 = true := by decide +kernel
  rw [hr, ← h2, h1]

theorem optJ : IsOptimal rJ.2.2 ((envI yJ true).answer rJ.2.2).2.e := by
  have P := (c45_hessian_partial hj7 (fun _ _ h => h.2.1) oJ7 (by decide +kernel) (trueInverse _ _) sJ).2 (by
    have e : ∀ i < 2, ∀ j < 2, j7.ctl.R.e i j = if i = j then 1 else 0 := by decide +kernel
    refine ⟨fun i hi j hj => ?_, fun x hx => ?_⟩
    · rw [e i hi j hj, e j hj i hi]; simp only [eq_comm]
    · show 0 < ∑ i ∈ Finset.range 2, ∑ j ∈ Finset.range 2, x i * j7.ctl.R.e i j * x j
      have h2 : ∃ i < 2, x i ≠ 0 := hx
      rw [Finset.sum_range_succ, Finset.sum_range_succ, Finset.sum_range_zero]
      simp only [Finset.sum_range_succ, Finset.sum_range_zero, e 0 (by decide) 0 (by decide), e 0 (by decide) 1 (by decide),
        e 1 (by decide) 0 (by decide), e 1 (by decide) 1 (by decide)]
      have s0 := sq_nonneg (x 0)
      have s1 := sq_nonneg (x 1)
      obtain ⟨i, hi, hne⟩ := h2
      interval_cases i
      · have : 0 < x 0 ^ 2 := by positivity
        norm_num; nlinarith
      · have : 0 < x 1 ^ 2 := by positivity
        norm_num; nlinarith)
  rw [(by decide +kernel : rJ.2.2.nrVar = rJ.2.2.c.rows)] at P
  exact optimal_of_stationary (psd_of_pd P) (by decide +kernel) (by decide +kernel)

/-- C60 applies, with every back end. -/
example (k : SolverKind) (junk : Junk ℚ) :=
  c60_initial_state_end_to_end (k := k) (junk := junk) hj7 (fun _ _ h => h.1) oJ7 (by decide +kernel) (fun _ => trivial) honestJ7
    freshJ7 sJ (by decide +kernel : j7.ctl.ps = some 0) (by decide +kernel)
    (backEndOptimal_of (by decide +kernel) (by decide +kernel) (by decide +kernel) optJ)

/-- C61, as built, applies. -/
example := c61_as_built hj7 (fun _ _ h => h.2.1) oJ7 (by decide +kernel) freshJ7 (trueInverse _ _) sJ (by decide +kernel : j7.ctl.ps = some 0)

/-- **C61 is false of the code**: the solver's minimiser does not minimise the declared costs plus the initial-state cost
over the feasible pairs of an initial state and controls; zero state and zero controls do better. -/
theorem c61_false : ¬ ∀ (w w' : World ℚ) (g : Ghost) (env : SolveEnv ℚ) (q : QP ℚ) (y : Nat → ℚ), Hist d 1000 Careful w g →
    OpOk d w g (.solve env) → TrueInverse d env → CostsFresh d w g → w.ctl.isInit = true → w.ctl.ps = some 0 →
    w.solve env = some (w', true, q) → IsOptimal q y → ∀ x U, Feasible q (joined d x U) →
      initialCost d w.ctl y + totalCostFrom d w 0 y (fun j => y (d.n + j)) ≤ initialCost d w.ctl x + totalCostFrom d w 0 x U := by
  intro H
  have := H _ _ _ _ _ _ hj7 oJ7 (trueInverse _ _) freshJ7 (by decide +kernel) (by decide +kernel) sJ optJ (fun _ => 0) (fun _ => 0)
    (by decide +kernel)
  revert this
  decide +kernel

end Ex
end Copra
