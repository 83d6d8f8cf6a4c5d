import Verif.Props.InitRemoval
import Verif.Proofs.Copies

/-! # C72 and C95 for `InitialStateLMPC` on a concrete program: `u0 + u1 ≤ 3` added to `j7` -/

namespace Copra
open Spec

set_option linter.unusedSectionVars false
set_option maxRecDepth 100000

namespace Ex
open World

def jK := after 1000 j7 (.addConstraint 1 jk)

theorem hjK : Hist d 1000 Careful jK (gI.next j7 True (.addConstraint 1 jk)) :=
  hist_after (op := .addConstraint 1 jk) hj7 (fun h => absurd h (by decide +kernel : (j7.cons 1).kind ≠ .ctrlBound))
    ⟨trivial, trivial, trivial⟩ (by decide +kernel : okB 1000 j7 _ = true)

def rJK : World ℚ × Bool × QP ℚ := (jK.solve (envI yJ true)).getD (jK, false, q13)

theorem sJK : jK.solve (envI yJ true) = some (rJK.1, true, rJK.2.2) := by
  obtain ⟨r, hr⟩ := Option.isSome_iff_exists.1 (by decide +kernel : (jK.solve (envI yJ true)).isSome = true)
  have h1 : rJK = r := by unfold rJK; rw [hr]; rfl
  have h2 : rJK.2.1 = true := by decide +kernel
  rw [hr, ← h2, h1]

theorem solveJ : InitSolve d 1000 j7 gI 0 (envI yJ true) rJ.1 true rJ.2.2 where
  hist := hj7.mono fun _ _ h => ⟨h.1, h.2.1⟩
  allowed := oJ7
  ps := by decide +kernel
  init := by decide +kernel
  clean := fun _ => trivial
  honest := honestJ7
  fresh := freshJ7
  inverse := trueInverse _ _
  solve := sJ

theorem solveJK : InitSolve d 1000 jK (gI.next j7 True (.addConstraint 1 jk)) 0 (envI yJ true) rJK.1 true rJK.2.2 where
  hist := hjK.mono fun _ _ h => ⟨h.1, h.2.1⟩
  allowed := ⟨by decide +kernel, contractI rfl (by decide +kernel) (by decide +kernel)⟩
  ps := by decide +kernel
  init := by decide +kernel
  clean := fun _ => trivial
  honest := by
    intro i hi
    rw [(by decide +kernel : jK.ctl.spConstr = [0, 2, 1])] at hi
    simp only [List.mem_cons, List.not_mem_nil, or_false] at hi
    have : (jK.cons i).kind ≠ .trajBound := by rcases hi with rfl | rfl | rfl <;> decide +kernel
    unfold Constr.userData
    cases h : (jK.cons i).kind <;> simp only <;> first | trivial | exact absurd h this | (split <;> trivial)
  fresh := by
    intro i hi _
    rw [(by decide +kernel : jK.ctl.spCost = [0])] at hi ⊢
    rw [List.mem_singleton.1 hi]
    exact ⟨Or.inr ⟨trivial, rfl⟩, rfl⟩
  inverse := trueInverse _ _
  solve := sJK

theorem optJK : IsOptimal rJK.2.2 ((envI yJ true).answer rJK.2.2).2.e := by
  have P := psd_of_pd ((c45_hessian_partial solveJK.hist (fun _ _ h => h.2) solveJK.allowed solveJK.init (trueInverse _ _) sJK).2
    (pdR _ (by decide +kernel)))
  rw [(by decide +kernel : rJK.2.2.nrVar = rJK.2.2.c.rows)] at P
  exact optimal_of_stationary P (by decide +kernel) (by decide +kernel)

theorem moreJK : Tighter j7 0 jK 0 :=
  c72_addConstraint hj7 (fun h => absurd h (by decide +kernel : (j7.cons 1).kind ≠ .ctrlBound))
    (okB_step (by decide +kernel : okB 1000 j7 _ = true)) 0

theorem dataJK : SameInitData d j7.ctl jK.ctl :=
  ⟨by decide +kernel, by decide +kernel, by decide +kernel, by decide +kernel⟩

/-- C72 applies to initial-state controllers: the answer of `j7` satisfies the constraint added to it; the problem of the second
one has one more row. -/
example : ∃ x1 x2, rJ.1.ctl.initialState (rJ.1.pss 0) = some x1 ∧ rJK.1.ctl.initialState (rJK.1.pss 0) = some x2 ∧
    VecEq x1 x2 ∧ VecEq rJ.1.ctl.control rJK.1.ctl.control ∧ VecEq rJ.1.ctl.trajectory rJK.1.ctl.trajectory ∧
    rJ.2.2.Aineq.rows ≠ rJK.2.2.Aineq.rows := by
  obtain ⟨x1, x2, h1, h2, _, _, H⟩ := c72_more_constraints_init solveJ solveJK moreJK dataJK (sameInverse _ _ _ _)
    (pdR _ (by decide +kernel)) optJ optJK (by decide +kernel) (by decide +kernel)
  obtain ⟨x, e, _, _, _, hx⟩ := InitSolve.result solveJ
  rw [h1] at e
  cases e
  have W := (InitSolve.sized solveJK).1
  have F : Feasible rJK.2.2 (joined d x1.e rJ.1.ctl.control.e) :=
    feasible_ext W (x := ((envI yJ true).answer rJ.2.2).2.e) (fun j hj => (hx j (by
      rw [(by decide +kernel : rJ.2.2.nrVar = rJK.2.2.nrVar)]; exact hj)).symm) (by decide +kernel)
  obtain ⟨a, b, c⟩ := H ((InitSolve.feasible solveJK _ _).1 F).1
  exact ⟨x1, x2, h1, h2, a, b, c, by decide +kernel⟩

/-- C95 applies to initial-state controllers: `u0 + u1 ≤ 3` holds with a margin and can be dropped. -/
example : ∃ x1 x2, rJ.1.ctl.initialState (rJ.1.pss 0) = some x1 ∧ rJK.1.ctl.initialState (rJK.1.pss 0) = some x2 ∧
    VecEq x1 x2 ∧ VecEq rJ.1.ctl.control rJK.1.ctl.control ∧ VecEq rJ.1.ctl.trajectory rJK.1.ctl.trajectory := by
  obtain ⟨x2, h2, _⟩ := InitSolve.result solveJK
  have H := c95_same_results_init solveJ solveJK moreJK dataJK (sameInverse _ _ _ _) (pdR _ (by decide +kernel)) optJ optJK h2
  specialize H ?_ (fun hb => absurd hb (by decide +kernel : j7.ctl.spBoundConstr ≠ []))
  · intro j hj
    rw [(by decide +kernel : jK.ctl.spConstr = [0, 2, 1])] at hj
    simp only [List.mem_cons, List.not_mem_nil, or_false] at hj
    rcases hj with rfl | rfl | rfl
    · exact Or.inl ⟨0, by decide +kernel, rfl⟩
    · exact Or.inl ⟨2, by decide +kernel, rfl⟩
    · right
      have e0 : rJK.1.ctl.control.e 0 ≤ 9 / 10 := by decide +kernel
      have e1 : rJK.1.ctl.control.e 1 ≤ 9 / 10 := by decide +kernel
      refine ⟨1 / 10, by norm_num, fun X' U' _ hU r hr => ?_⟩
      have a0 := (abs_le.1 (hU 0 (by decide))).2
      have a1 := (abs_le.1 (hU 1 (by decide))).2
      obtain rfl : r = 0 := Nat.lt_one_iff.1 hr
      show (∑ k ∈ Finset.range 2, ∑ c ∈ Finset.range 1, (mat 1 2 [[1, 1]]).e 0 (k * 1 + c) * U' (k * 1 + c)) ≤ (3 : ℚ)
      simp [Finset.sum_range_succ, mat]
      linarith
  · obtain ⟨x1, h1, a, b, c⟩ := H
    exact ⟨x1, x2, h1, h2, a, b, c⟩

end Ex
end Copra
