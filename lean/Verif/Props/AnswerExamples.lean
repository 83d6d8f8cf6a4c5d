import Verif.Props.Answer

/-! # C67 and C68 on concrete programs: the hypotheses are met -/

namespace Copra
open Spec

set_option linter.unusedSectionVars false
set_option maxRecDepth 100000

namespace Ex
open World

/-- C67 applies, with every back end, to the zero control sequence. -/
theorem reg13 (k : SolverKind) (junk : Junk ℚ) :
    declaredCost d w12 0 w13.ctl.control.e ≤ declaredCost d w12 0 (fun _ => 0)
      + 1 / 1000000 * (normSq d (fun _ => 0) - normSq d w13.ctl.control.e) := by
  have F : Feasible q13 fun _ => 0 := by decide +kernel
  refine (c67_regularisation (k := k) (junk := junk) h12 (fun _ _ h => h.1) o13 plain12 (fun h => by rw [bound12] at h; cases h)
    honest12 fresh12 s13 ps12 (by decide +kernel)
    (backEndOptimal_of (by decide +kernel) (by decide +kernel) (by decide +kernel) opt13) ?_ (by decide +kernel)
    (fun _ => by decide +kernel)).1
  exact ((c30_feasible_set h12 (fun _ _ h => h.1) o13 plain12 (fun h => by rw [bound12] at h; cases h) honest12 s13 ps12 _).1 F).1

/-! ## C68: `m7` and `n6` register the same objects in opposite orders -/

/-- The minimiser of their problem. -/
def yA : Vec ℚ := vec [-1000000000000 / 7000006000001, 4000001000000 / 7000006000001]

def rA : World ℚ × Bool × QP ℚ := (m7.solve (env yA true)).getD (m7, false, q13)
def rB : World ℚ × Bool × QP ℚ := (n6.solve (env yA true)).getD (n6, false, q13)

theorem sA : m7.solve (env yA true) = some (rA.1, true, rA.2.2) := by
  have e : (m7.solve (env yA true)).isSome = true := by decide +kernel
  obtain ⟨r, hr⟩ := Option.isSome_iff_exists.1 e
  have h1 : rA = r := by unfold rA; rw [hr]; rfl
  have h2 : rA.2.1 = true := by decide +kernel
  rw [hr, ← h2, h1]

theorem sB : n6.solve (env yA true) = some (rB.1, true, rB.2.2) := by
  have e : (n6.solve (env yA true)).isSome = true := by decide +kernel
  obtain ⟨r, hr⟩ := Option.isSome_iff_exists.1 e
  have h1 : rB = r := by unfold rB; rw [hr]; rfl
  have h2 : rB.2.1 = true := by decide +kernel
  rw [hr, ← h2, h1]

/-- C68 applies, with any two back ends. -/
example (k1 k2 : SolverKind) (junk1 junk2 : Junk ℚ) :
    VecEq rA.1.ctl.control rB.1.ctl.control ∧ VecEq rA.1.ctl.trajectory rB.1.ctl.trajectory := by
  obtain ⟨g1, h1, f1, c1⟩ := hm7
  obtain ⟨g2, h2, f2, c2⟩ := hn6
  have o1 : OpOk d m7 g1 (.solve (env yA true)) :=
    ⟨(by decide +kernel : m7.ctl.ps ≠ none), contract rfl
      (fun h => absurd (congrArg Option.isSome h) (by decide +kernel : m7.ctl.sol.isSome ≠ false)) (by decide +kernel)⟩
  have o2 : OpOk d n6 g2 (.solve (env yA true)) :=
    ⟨(by decide +kernel : n6.ctl.ps ≠ none), contract rfl
      (fun h => absurd (congrArg Option.isSome h) (by decide +kernel : n6.ctl.sol.isSome ≠ false)) (by decide +kernel)⟩
  have PA := psd_of_pd (c29_hessian h1 (fun _ _ h => h.2.1) o1 (by decide +kernel) sA)
  have PB := psd_of_pd (c29_hessian h2 (fun _ _ h => h.2.1) o2 (by decide +kernel) sB)
  rw [(by decide +kernel : rA.2.2.nrVar = rA.2.2.c.rows)] at PA
  rw [(by decide +kernel : rB.2.2.nrVar = rB.2.2.c.rows)] at PB
  refine c68_answer_determined h1 h2 (fun _ _ h => ⟨h.1, h.2.1⟩) (fun _ _ h => h.1) o1 o2 (by decide +kernel)
    (by decide +kernel) (by decide +kernel) (by decide +kernel) same51 ?_ ?_ (fun _ => c1) (fun _ => c2) sA sB (by decide +kernel)
    (by decide +kernel) (backEndOptimal_of (k := k1) (junk := junk1) (by decide +kernel) (by decide +kernel) (by decide +kernel)
      (optimal_of_stationary PA (by decide +kernel) (by decide +kernel)))
    (backEndOptimal_of (k := k2) (junk := junk2) (by decide +kernel) (by decide +kernel) (by decide +kernel)
      (optimal_of_stationary PB (by decide +kernel) (by decide +kernel)))
    (fun _ => by decide +kernel) (fun _ => by decide +kernel)
  · intro i hi hps
    rw [(by decide +kernel : m7.ctl.spCost = [0, 1])] at hi ⊢
    simp only [List.mem_cons, List.not_mem_nil, or_false] at hi
    rcases hi with rfl | rfl
    · exact ⟨f1, rfl⟩
    · unfold Cost.userData at hps
      rw [(by decide +kernel : (m7.costs 1).kind = .control)] at hps
      exact hps.elim
  · intro i hi hps
    rw [(by decide +kernel : n6.ctl.spCost = [1, 0])] at hi ⊢
    simp only [List.mem_cons, List.not_mem_nil, or_false] at hi
    rcases hi with rfl | rfl
    · unfold Cost.userData at hps
      rw [(by decide +kernel : (n6.costs 1).kind = .control)] at hps
      exact hps.elim
    · exact ⟨f2, rfl⟩

/-! ## C68 for initial-state controllers: the same settings as `j7`, the objects registered in the opposite order -/

def jB6 := after 1000 j5 (.resetInitialStateCost (mat 2 2 [[1, 0], [0, 1]]) (vec [1/10, 1/5]))
def jB7 := after 1000 jB6 (.resetInitialStateBounds (evec [.fin (-5), .fin (-5)]) (evec [.fin 5, .fin 5]))

theorem hjB7 : ∃ g : Ghost, Hist d 1000 Careful jB7 g ∧ g.fresh 0 ∧ g.clean := by
  obtain ⟨g, h, f, c⟩ := hj5
  have a := hist_after (op := .resetInitialStateCost (mat 2 2 [[1, 0], [0, 1]]) (vec [1/10, 1/5])) h trivial
    ⟨trivial, trivial, trivial⟩ (by decide +kernel : okB 1000 j5 _ = true)
  exact ⟨_, hist_after (op := .resetInitialStateBounds (evec [.fin (-5), .fin (-5)]) (evec [.fin 5, .fin 5])) a trivial
    ⟨trivial, trivial, trivial⟩ (by decide +kernel : okB 1000 jB6 _ = true), f, c⟩

def rJB : World ℚ × Bool × QP ℚ := (jB7.solve (envI yJ true)).getD (jB7, false, q13)

theorem sJB : jB7.solve (envI yJ true) = some (rJB.1, true, rJB.2.2) := by
  have e : (jB7.solve (envI yJ true)).isSome = true := by decide +kernel
  obtain ⟨r, hr⟩ := Option.isSome_iff_exists.1 e
  have h1 : rJB = r := by unfold rJB; rw [hr]; rfl
  have h2 : rJB.2.1 = true := by decide +kernel
  rw [hr, ← h2, h1]

theorem pdR (M : Mat ℚ) (e : ∀ i < 2, ∀ j < 2, M.e i j = if i = j then 1 else 0) : PD 2 M := by
  refine ⟨fun i hi j hj => ?_, fun x hx => ?_⟩
  · rw [e i hi j hj, e j hj i hi]; simp only [eq_comm]
  · simp only [Finset.sum_range_succ, Finset.sum_range_zero, e 0 (by decide) 0 (by decide), e 0 (by decide) 1 (by decide),
      e 1 (by decide) 0 (by decide), e 1 (by decide) 1 (by decide)]
    have s0 := sq_nonneg (x 0)
    have s1 := sq_nonneg (x 1)
    obtain ⟨i, hi, hne⟩ := hx
    interval_cases i
    · have : 0 < x 0 ^ 2 := by positivity
      norm_num; nlinarith
    · have : 0 < x 1 ^ 2 := by positivity
      norm_num; nlinarith

/-- C68 applies to initial-state controllers, with any two back ends. -/
example (k1 k2 : SolverKind) (junk1 junk2 : Junk ℚ) :
    VecEq rJ.1.ctl.control rJB.1.ctl.control ∧ VecEq rJ.1.ctl.trajectory rJB.1.ctl.trajectory ∧
    ∃ x1 x2, rJ.1.ctl.initialState (rJ.1.pss 0) = some x1 ∧ rJB.1.ctl.initialState (rJB.1.pss 0) = some x2 ∧ VecEq x1 x2 := by
  obtain ⟨g2, h2, f2, c2⟩ := hjB7
  have o2 : OpOk d jB7 g2 (.solve (envI yJ true)) := ⟨by decide +kernel, contractI rfl (by decide +kernel) (by decide +kernel)⟩
  have PB := psd_of_pd ((c45_hessian_partial h2 (fun _ _ h => h.2.1) o2 (by decide +kernel) (trueInverse _ _) sJB).2
    (pdR _ (by decide +kernel)))
  rw [(by decide +kernel : rJB.2.2.nrVar = rJB.2.2.c.rows)] at PB
  have l1 : j7.ctl.spConstr = [0, 2] := by decide +kernel
  have l2 : jB7.ctl.spConstr = [2, 0] := by decide +kernel
  have l3 : j7.ctl.spCost = [0] := by decide +kernel
  have l4 : jB7.ctl.spCost = [0] := by decide +kernel
  have same : SamePermuted j7 0 jB7 0 := by
    refine ⟨rfl, rfl, rfl, by decide +kernel, ⟨[0, 2], by rw [l2]; decide, ?_⟩, ⟨[0], by rw [l4], ?_⟩⟩
    · rw [l1]
      refine .cons ?_ (.cons ?_ .nil)
      · unfold Constr.userData
        rw [(by decide +kernel : (j7.cons 0).kind = .trajectory), (by decide +kernel : (jB7.cons 0).kind = .trajectory)]
        show _ ∧ _ ∧ _
        decide +kernel
      · unfold Constr.userData
        rw [(by decide +kernel : (j7.cons 2).kind = .ctrlBound), (by decide +kernel : (jB7.cons 2).kind = .ctrlBound),
          (by decide +kernel : (j7.cons 2).fullSizeEntry = false), (by decide +kernel : (jB7.cons 2).fullSizeEntry = false)]
        show _ ∧ _
        decide +kernel
    · rw [l3]
      refine .cons ?_ .nil
      unfold Cost.userData
      rw [(by decide +kernel : (j7.costs 0).kind = .trajectory), (by decide +kernel : (jB7.costs 0).kind = .trajectory)]
      show _ ∧ _ ∧ _
      decide +kernel
  refine c68_answer_determined_init hj7 h2 (fun _ _ h => ⟨h.1, h.2.1⟩) (fun _ _ h => h.1) oJ7 o2 (by decide +kernel)
    (by decide +kernel) (by decide +kernel) (by decide +kernel) same
    ⟨by decide +kernel, by decide +kernel, by decide +kernel, by decide +kernel⟩ (sameInverse _ _ _ _) (trueInverse _ _)
    (pdR _ (by decide +kernel)) freshJ7 ?_ (fun _ => trivial) (fun _ => c2) sJ sJB (by decide +kernel) (by decide +kernel)
    (backEndOptimal_of (k := k1) (junk := junk1) (by decide +kernel) (by decide +kernel) (by decide +kernel) optJ)
    (backEndOptimal_of (k := k2) (junk := junk2) (by decide +kernel) (by decide +kernel) (by decide +kernel)
      (optimal_of_stationary PB (by decide +kernel) (by decide +kernel)))
    (fun _ => by decide +kernel) (fun _ => by decide +kernel)
  intro i hi _
  rw [l4] at hi ⊢
  rw [List.mem_singleton.1 hi]
  exact ⟨f2, rfl⟩

end Ex
end Copra
