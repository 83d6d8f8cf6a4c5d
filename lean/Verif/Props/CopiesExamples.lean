import Verif.Props.Copies
import Verif.Props.EndToEndExamples

/-! # C100 on a concrete program: the hypotheses are met -/

namespace Copra
open Spec

set_option linter.unusedSectionVars false
set_option maxRecDepth 100000

namespace Ex
open World

theorem careful_objectWise : ObjectWise Careful :=
  objectWise_noBoundSpan.and (objectWise_nonneg.and objectWise_noRemoval)

/-! A system, a copy of it, copies of a trajectory constraint and of a control bound; a controller on the copied system with
the copied constraints, a cost, and a copy of that cost made after it was added. -/

def cp2 : World ℚ := w1.copyPs 1 0
def cp3 : World ℚ := cp2.copyConstr 20 0
def cp4 : World ℚ := cp3.copyConstr 21 2
def cp5 := after 1000 cp4 (.constructPs false solver 1 jk)
def cp6 := after 1000 cp5 (.addConstraint 20 jk)
def cp7 := after 1000 cp6 (.addConstraint 21 jk)
def cp8 := after 1000 cp7 (.addCost 0 jk)
def cp9 : World ℚ := cp8.copyCost 20 0
def cp10 := after 1000 cp9 (.addCost 20 jk)

def cpg9 : Ghost := (((Ghost.start.next cp5 True (.addConstraint 20 jk)).next cp6 True (.addConstraint 21 jk)).next cp7 True (.addCost 0 jk))
def cpg10 : Ghost := (cpg9.copyCost 20 0).next cp9 True (.addCost 20 jk)

theorem copies_hist : ∃ C Q, CHist d 1000 Careful cp10 cpg10 C Q := by
  have a0 : CHist d 1000 Careful w0 Ghost.start (fun _ => False) (fun _ => False) := .start w0_init
  have a1 := CHist.ok (op := opSys) a0 ⟨rfl, rfl, rfl⟩ ⟨trivial, trivial, trivial⟩ (okB_step (by decide +kernel))
  have a2 := CHist.copyPs (p := 1) (q := 0) a1 (show HasSystem w1 0 by unfold HasSystem; decide +kernel)
  have a3 := CHist.copyConstr (i := 0) (j := 20) a2 (by decide) (by rintro (h | h) <;> exact h)
  have a4 := CHist.copyConstr (i := 2) (j := 21) a3 (by decide) (by
    rintro ((h | h) | h | h)
    · exact h
    · exact h
    · cases h
    · cases h)
  have e4 : (Ghost.start.copyConstr 20 0).copyConstr 21 2 = Ghost.start := by
    unfold Ghost.copyConstr Ghost.start
    congr 1
    funext k
    exact propext ⟨fun h => by
      rcases h with ⟨_, ⟨_, h⟩ | ⟨_, h⟩⟩ | ⟨_, ⟨_, h⟩ | ⟨_, h⟩⟩ <;> exact h, False.elim⟩
  have e1 : Ghost.start.next w0 True opSys = Ghost.start := rfl
  rw [e1] at a4
  rw [e4] at a4
  have a5 := CHist.ok (op := .constructPs false solver 1 jk) a4 (show HasSystem cp4 1 by unfold HasSystem; decide +kernel)
    ⟨trivial, trivial, trivial⟩ (okB_step (by decide +kernel : okB 1000 cp4 _ = true))
  have a6 := CHist.ok (op := .addConstraint 20 jk) a5 (fun _ => (by decide +kernel : cp5.ctl.spBoundConstr = []))
    ⟨trivial, trivial, trivial⟩ (okB_step (by decide +kernel : okB 1000 cp5 _ = true))
  have a7 := CHist.ok (op := .addConstraint 21 jk) a6 (fun _ => (by decide +kernel : cp6.ctl.spBoundConstr = []))
    ⟨trivial, trivial, trivial⟩ (okB_step (by decide +kernel : okB 1000 cp6 _ = true))
  have a8 := CHist.ok (op := .addCost 0 jk) a7 trivial ⟨trivial, trivial, trivial⟩ (okB_step (by decide +kernel : okB 1000 cp7 _ = true))
  have a9 := CHist.copyCost (i := 0) (j := 20) a8 (by decide) (by
    rintro (h | h)
    · revert h; simp [namesCost, opSys]
    · cases h)
  exact ⟨_, _, CHist.ok (op := .addCost 20 jk) a9 trivial ⟨trivial, trivial, trivial⟩ (okB_step (by decide +kernel : okB 1000 cp9 _ = true))⟩

/-- The objects registered at the end. -/
theorem copies_lists : cp10.ctl.spConstr = [20, 21] ∧ cp10.ctl.spCost = [0, 20] ∧ cp10.ctl.ps = some 1 := by
  decide +kernel

def cp_kdet : ℚ := (6 + 1 / 1000000) * (2 + 1 / 1000000) - 4
def cp_kopt : SolveEnv ℚ := env (vec [-2 * (2 + 1 / 1000000) / cp_kdet, 4 / cp_kdet]) true
def cp_kr : World ℚ × Bool × QP ℚ := (cp10.solve cp_kopt).getD (cp10, false, q13)

theorem cp_ks : cp10.solve cp_kopt = some (cp_kr.1, true, cp_kr.2.2) := by
  have h : (cp10.solve cp_kopt).isSome = true := by decide +kernel
  obtain ⟨r, hr⟩ := Option.isSome_iff_exists.1 h
  have e : cp_kr = r := by unfold cp_kr; rw [hr]; rfl
  have b : cp_kr.2.1 = true := by decide +kernel
  rw [e] at b ⊢
  rw [hr, ← b]

theorem cp_ko (g : Ghost) : OpOk d cp10 g (.solve cp_kopt) :=
  ⟨(by decide +kernel : cp10.ctl.ps ≠ none), contract rfl
    (fun h => absurd (congrArg Option.isSome h) (by decide +kernel : cp10.ctl.sol.isSome ≠ false)) (by decide +kernel)⟩

theorem cp_kfresh : CostsFresh d cp10 cpg10 := by
  intro i hi _
  rw [copies_lists.2.1] at hi ⊢
  simp only [List.mem_cons, List.not_mem_nil, or_false] at hi
  rcases hi with rfl | rfl
  · exact ⟨Or.inl (Or.inr ⟨by decide, Or.inr ⟨trivial, rfl⟩⟩), by decide⟩
  · exact ⟨Or.inr ⟨trivial, rfl⟩, by decide⟩

theorem cp_khonest : ∀ i ∈ cp10.ctl.spConstr, (cp10.cons i).userData.Honest := by
  intro i hi
  rw [copies_lists.1] at hi
  simp only [List.mem_cons, List.not_mem_nil, or_false] at hi
  have hk : (cp10.cons i).kind ≠ .trajBound := by rcases hi with rfl | rfl <;> decide +kernel
  unfold Constr.userData
  cases h : (cp10.cons i).kind <;> first | exact absurd h hk | exact trivial | (dsimp only; split <;> exact trivial)

/-- C100 (end to end) applies: the controls are optimal for the copied constraints and the cost counted twice. -/
theorem copies_end (k : SolverKind) (junk : Junk ℚ) :
    ∀ V : Nat → ℚ, (∀ i ∈ cp10.ctl.spConstr, (cp10.cons i).userData.Holds d (Spec.traj d cp10 1 V) V) →
      (∀ j < d.m * d.N, -1000 ≤ V j ∧ V j ≤ 1000) →
      (k = .osqp → ∀ i < cp_kr.2.2.Aineq.rows, -1000 ≤ rowValue cp_kr.2.2.Aineq V i) →
      totalCost d cp10 1 cp_kr.1.ctl.control.e ≤ totalCost d cp10 1 V := by
  obtain ⟨C, Q, h⟩ := copies_hist
  have P := psd_of_pd (c29_hessian (c100_no_new_states careful_objectWise h) (fun _ _ h => h.2.1) (cp_ko _) (by decide +kernel) cp_ks)
  rw [(by decide +kernel : cp_kr.2.2.nrVar = cp_kr.2.2.c.rows)] at P
  exact (c100_end_to_end (k := k) (junk := junk) careful_objectWise h (fun _ _ h => h.1) (cp_ko _) (by decide +kernel)
    (fun h => absurd h (by decide +kernel)) cp_khonest cp_kfresh cp_ks copies_lists.2.2 (by decide +kernel)
    (backEndOptimal_of (by decide +kernel) (by decide +kernel) (by decide +kernel)
      (optimal_of_stationary P (by decide +kernel) (by decide +kernel)))).2.2

/-- The control bound 21, itself a copy, has been added: a copy of it is refused. -/
example : (cp10.copyConstr 22 21).step 1000 (.addConstraint 22 jk) = .thrown .runtimeError (cp10.copyConstr 22 21) := by
  obtain ⟨C, Q, h⟩ := copies_hist
  exact (c100_single_use careful_objectWise h (Or.inr ⟨trivial, rfl⟩) (Or.inr (by decide +kernel))).1 jk 1 copies_lists.2.2

/-- The original control bound 2 has not been used: only its copy has. -/
example : (cp10.cons 2).hasBeenInitialized = false ∧ (cp10.cons 21).hasBeenInitialized = true := by decide +kernel

/-- The copied system keeps predicting the old trajectory when the original is given another initial state. -/
example : ∀ U, Spec.traj d (after 1000 cp2 (.xInit 0 (vec [3, 4]))) 1 U = Spec.traj d w1 0 U :=
  (c100_system_alike (dmax := 1000) (by decide) (Or.inl (okB_step (by decide +kernel : okB 1000 cp2 (.xInit 0 (vec [3, 4])) = true)))
    (Or.inl rfl)).2

end Ex
end Copra
