import Verif.Props.Slice
import Verif.Props.InitExamples
import Verif.Props.EndToEndExamples

/-! # C101 on a concrete program: the hypotheses are met -/

namespace Copra
open Spec

set_option linter.unusedSectionVars false
set_option maxRecDepth 100000

namespace Ex
open World

def Plainly (w : World ℚ) (op : Op ℚ) : Prop := NoBoundSpan w op ∧ NonnegWeights w op

theorem plainly_only : OnlyObjects Plainly := onlyObjects_noBoundSpan.and onlyObjects_nonnegWeights

/-! An `InitialStateLMPC` with two constraints and a cost solves (`i7`) and is moved into an `LMPC`; the cost is removed, the
`LMPC` is initialised, and the cost is added again. -/

def sl0 : World ℚ := i7.slice
def sl1 := after 1000 sl0 (.removeCost 0)
def sl2 := after 1000 sl1 (.initializeController 0 jk)
def sl3 := after 1000 sl2 (.addCost 0 jk)

def slg0 : Ghost := gI.next i5 True (.solve (envI yI true))
def slg1 : Ghost := slg0.next sl0 True (.removeCost 0)
def slg2 : Ghost := slg1.next sl1 True (.initializeController 0 jk)
def slg3 : Ghost := slg2.next sl2 True (.addCost 0 jk)

theorem slice_i7 : Hist d 1000 Plainly i7 slg0 := by
  have a1 := hist_after (d := d) (dmax := 1000) (E := Plainly) (op := opSys) (.start w0_init) ⟨rfl, rfl, rfl⟩
    ⟨trivial, trivial⟩ (by decide +kernel)
  have a2 := hist_after (op := .constructPs true solver 0 jk) a1 (show HasSystem w1 0 by unfold HasSystem; decide +kernel)
    ⟨trivial, trivial⟩ (by decide +kernel)
  have b3 := hist_after (op := .addConstraint 0 jk) a2 (fun _ => (by decide +kernel : i2.ctl.spBoundConstr = []))
    ⟨trivial, trivial⟩ (by decide +kernel : okB 1000 i2 _ = true)
  have b5 := hist_after (op := .addConstraint 2 jk) b3 (fun _ => (by decide +kernel : i3.ctl.spBoundConstr = []))
    ⟨trivial, trivial⟩ (by decide +kernel : okB 1000 i3 _ = true)
  have b6 : Hist d 1000 Plainly i5 gI :=
    hist_after (op := .addCost 0 jk) b5 trivial ⟨trivial, trivial⟩ (by decide +kernel : okB 1000 i4 _ = true)
  exact hist_after (op := .solve (envI yI true)) b6 (oI5 rfl true) ⟨trivial, trivial⟩ (by decide +kernel)

theorem slice_moved : SlicedHist d 1000 Plainly False sl0 slg0 := .moved slice_i7 (by decide +kernel)

/-- C101 (before `initializeController`) applies: a cost is registered, so `solve()` is not defined. -/
example (y : Vec ℚ) (hy : y.rows = 2) : sl0.step 1000 (.solve (env y true)) = .ub :=
  ((c101_not_ready plainly_only slice_moved id (env := env y true)
    ⟨(by decide +kernel : sl0.ctl.ps ≠ none), contract hy
      (fun h => absurd (congrArg Option.isSome h) (by decide +kernel : sl0.ctl.sol.isSome ≠ false)) (by decide +kernel)⟩
    (by decide)).1 (by decide +kernel)).2

/-- Without the cost, `solve()` hands an ill-sized problem to the solver: four variables, constraint matrices with two columns. -/
example : (sl1.solve (env (vec [0, 0]) false)).map (fun r => (r.2.2.nrVar, r.2.2.Aineq.cols)) = some (4, 2) := by decide +kernel

theorem slice_hist : SlicedHist d 1000 Plainly (((False ∨ False) ∨ True) ∨ False) sl3 slg3 := by
  have a1 := SlicedHist.ok (op := .removeCost 0) slice_moved trivial ⟨trivial, trivial⟩ id (fun h => h.elim)
    (okB_step (by decide +kernel : okB 1000 sl0 _ = true))
  have a2 := SlicedHist.ok (op := .initializeController 0 jk) a1 (show HasSystem sl1 0 by unfold HasSystem; decide +kernel)
    ⟨trivial, trivial⟩ id (fun h => h.elim) (okB_step (by decide +kernel : okB 1000 sl1 _ = true))
  exact SlicedHist.ok (op := .addCost 0 jk) a2 trivial ⟨trivial, trivial⟩ id (fun h => h.elim)
    (okB_step (by decide +kernel : okB 1000 sl2 _ = true))

theorem slice_lists : sl3.ctl.spConstr = [0, 2] ∧ sl3.ctl.spCost = [0] ∧ sl3.ctl.ps = some 0 := by decide +kernel

def sl_det : ℚ := (3 + 1 / 1000000) * (1 + 1 / 1000000) - 1
def sl_opt : SolveEnv ℚ := env (vec [-(1 + 1 / 1000000) / sl_det, 1 / sl_det]) true
def sl_r : World ℚ × Bool × QP ℚ := (sl3.solve sl_opt).getD (sl3, false, q13)

theorem sl_s : sl3.solve sl_opt = some (sl_r.1, true, sl_r.2.2) := by
  have h : (sl3.solve sl_opt).isSome = true := by decide +kernel
  obtain ⟨r, hr⟩ := Option.isSome_iff_exists.1 h
  have e : sl_r = r := by unfold sl_r; rw [hr]; rfl
  have b : sl_r.2.1 = true := by decide +kernel
  rw [e] at b ⊢
  rw [hr, ← b]

theorem sl_o : OpOk d sl3 slg3 (.solve sl_opt) :=
  ⟨(by decide +kernel : sl3.ctl.ps ≠ none), contract rfl
    (fun h => absurd (congrArg Option.isSome h) (by decide +kernel : sl3.ctl.sol.isSome ≠ false)) (by decide +kernel)⟩

theorem sl_fresh : CostsFresh d sl3 slg3 := by
  intro i hi _
  rw [slice_lists.2.1] at hi ⊢
  rw [List.mem_singleton.1 hi]
  exact ⟨Or.inr ⟨trivial, rfl⟩, rfl⟩

theorem sl_honest : ∀ i ∈ sl3.ctl.spConstr, (sl3.cons i).userData.Honest := by
  intro i hi
  rw [slice_lists.1] at hi
  simp only [List.mem_cons, List.not_mem_nil, or_false] at hi
  have hk : (sl3.cons i).kind ≠ .trajBound := by rcases hi with rfl | rfl <;> decide +kernel
  unfold Constr.userData
  cases h : (sl3.cons i).kind <;> first | exact absurd h hk | exact trivial | (dsimp only; split <;> exact trivial)

/-- C101 (end to end) applies. -/
theorem slice_end (k : SolverKind) (junk : Junk ℚ) :
    ∀ V : Nat → ℚ, (∀ i ∈ sl3.ctl.spConstr, (sl3.cons i).userData.Holds d (Spec.traj d sl3 0 V) V) →
      (∀ j < d.m * d.N, -1000 ≤ V j ∧ V j ≤ 1000) →
      (k = .osqp → ∀ i < sl_r.2.2.Aineq.rows, -1000 ≤ rowValue sl_r.2.2.Aineq V i) →
      totalCost d sl3 0 sl_r.1.ctl.control.e ≤ totalCost d sl3 0 V := by
  obtain ⟨_, v, hv, vi, e1, e2, e3, e4, e5, e6, e7, hq⟩ := c101_like_plain plainly_only slice_hist (Or.inl (Or.inr trivial))
  obtain ⟨v', hs', _⟩ := hq _ _ _ _ sl_s
  have ov : OpOk d v slg3 (.solve sl_opt) :=
    ⟨(by rw [e4]; exact sl_o.1), ⟨fun h => (by obtain ⟨s, a, _⟩ := (solve_ctl hs').1; rw [h] at a; cases a),
      fun q hn hb => sl_o.2.answer q (by rw [hn]; unfold numVars; rw [vi, (by decide +kernel : sl3.ctl.isInit = false)]) hb,
      fun h => (by rw [vi] at h; cases h)⟩⟩
  have P := psd_of_pd (c29_hessian hv (fun _ _ h => h.2) ov vi hs')
  rw [(by decide +kernel : sl_r.2.2.nrVar = sl_r.2.2.c.rows)] at P
  exact (c101_end_to_end (k := k) (junk := junk) plainly_only slice_hist (Or.inl (Or.inr trivial)) (fun _ _ h => h.1) sl_o
    (fun h => absurd h (by decide +kernel)) sl_honest sl_fresh sl_s slice_lists.2.2 (by decide +kernel)
    (backEndOptimal_of (by decide +kernel) (by decide +kernel) (by decide +kernel)
      (optimal_of_stationary P (by decide +kernel) (by decide +kernel)))).2.2

end Ex
end Copra
