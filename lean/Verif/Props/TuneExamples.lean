import Verif.Props.Tune
import Verif.Props.ScaleExamples

/-! # C109 on a concrete program: the control cost of `m7` with the weights 2 and 8 -/

namespace Copra
open Spec

set_option linter.unusedSectionVars false
set_option maxRecDepth 100000

namespace Ex
open World

def tuA := after 1000 m7 (.weight 1 2)
def tuB := after 1000 m7 (.weight 1 8)

theorem stA : m7.step 1000 (.weight 1 2) = .ok tuA := okB_step (by decide +kernel : okB 1000 m7 (.weight 1 2) = true)
theorem stB : m7.step 1000 (.weight 1 8) = .ok tuB := okB_step (by decide +kernel : okB 1000 m7 (.weight 1 8) = true)

/-- The minimiser for the weight `a`. -/
def yTu (a : ℚ) : Vec ℚ :=
  let e : ℚ := 1 / 1000000
  let D := (3 + a + e) * (1 + a + e) - 1
  vec [((a - 1) * (1 + a + e) - a) / D, ((3 + a + e) * a - (a - 1)) / D]

def rTuA : World ℚ × Bool × QP ℚ := (tuA.solve (env (yTu 2) true)).getD (tuA, false, q13)
def rTuB : World ℚ × Bool × QP ℚ := (tuB.solve (env (yTu 8) true)).getD (tuB, false, q13)

theorem sTuA : tuA.solve (env (yTu 2) true) = some (rTuA.1, true, rTuA.2.2) := by
  obtain ⟨r, hr⟩ := Option.isSome_iff_exists.1 (by decide +kernel : (tuA.solve (env (yTu 2) true)).isSome = true)
  have h1 : rTuA = r := by unfold rTuA; rw [hr]; rfl
  have h2 : rTuA.2.1 = true := by decide +kernel
  rw [hr, ← h2, h1]
theorem sTuB : tuB.solve (env (yTu 8) true) = some (rTuB.1, true, rTuB.2.2) := by
  obtain ⟨r, hr⟩ := Option.isSome_iff_exists.1 (by decide +kernel : (tuB.solve (env (yTu 8) true)).isSome = true)
  have h1 : rTuB = r := by unfold rTuB; rw [hr]; rfl
  have h2 : rTuB.2.1 = true := by decide +kernel
  rw [hr, ← h2, h1]

theorem solveTuA {g : Ghost} (h : Hist d 1000 Careful m7 g) (c : g.clean) :
    PlainSolve d 1000 tuA g 0 (env (yTu 2) true) rTuA.1 true rTuA.2.2 where
  hist := (Hist.ok (op := .weight 1 2) h trivial ⟨trivial, (by norm_num : (0 : ℚ) ≤ 2), trivial⟩ stA).mono fun _ _ h => ⟨h.1, h.2.1⟩
  allowed := ⟨by decide +kernel, contract rfl
    (fun h => absurd (congrArg Option.isSome h) (by decide +kernel : tuA.ctl.sol.isSome ≠ false)) (by decide +kernel)⟩
  ps := by decide +kernel
  plain := by decide +kernel
  clean := fun _ => c
  honest := honestOf (by decide +kernel)
  solve := sTuA

theorem solveTuB {g : Ghost} (h : Hist d 1000 Careful m7 g) (c : g.clean) :
    PlainSolve d 1000 tuB g 0 (env (yTu 8) true) rTuB.1 true rTuB.2.2 where
  hist := (Hist.ok (op := .weight 1 8) h trivial ⟨trivial, (by norm_num : (0 : ℚ) ≤ 8), trivial⟩ stB).mono fun _ _ h => ⟨h.1, h.2.1⟩
  allowed := ⟨by decide +kernel, contract rfl
    (fun h => absurd (congrArg Option.isSome h) (by decide +kernel : tuB.ctl.sol.isSome ≠ false)) (by decide +kernel)⟩
  ps := by decide +kernel
  plain := by decide +kernel
  clean := fun _ => c
  honest := honestOf (by decide +kernel)
  solve := sTuB

theorem freshTu {w : World ℚ} {g : Ghost} (f : g.fresh 0) (h : w.ctl.spCost = [0, 1]) (k : (w.costs 1).kind = .control) :
    CostsFresh d w g := by
  intro i hi hps
  rw [h] at hi ⊢
  simp only [List.mem_cons, List.not_mem_nil, or_false] at hi
  rcases hi with rfl | rfl
  · exact ⟨f, rfl⟩
  · unfold Cost.userData at hps
    rw [k] at hps
    exact hps.elim

/-- C109 applies: with the weight 8 the controls are closer to 1 than with the weight 2. -/
example : (reweighted (fun _ => 1) (m7.costs 1).userData).value d (Spec.traj d tuB 0 rTuB.1.ctl.control.e) rTuB.1.ctl.control.e ≤
      (reweighted (fun _ => 1) (m7.costs 1).userData).value d (Spec.traj d tuA 0 rTuA.1.ctl.control.e) rTuA.1.ctl.control.e ∧
    restCost d tuA 0 [(m7.costs 0).userData] rTuA.1.ctl.control.e ≤ restCost d tuB 0 [(m7.costs 0).userData] rTuB.1.ctl.control.e := by
  obtain ⟨g, h, f, c⟩ := hm7
  have S1 := solveTuA h c
  have S2 := solveTuB h c
  have P1 := psd_of_pd (c29_hessian S1.hist (fun _ _ h => h.2) S1.allowed S1.plain S1.solve)
  have P2 := psd_of_pd (c29_hessian S2.hist (fun _ _ h => h.2) S2.allowed S2.plain S2.solve)
  rw [(by decide +kernel : rTuA.2.2.nrVar = rTuA.2.2.c.rows)] at P1
  rw [(by decide +kernel : rTuB.2.2.nrVar = rTuB.2.2.c.rows)] at P2
  have T := c109_weight (p := 0) (by decide +kernel : m7.ctl.spCost.count 1 = 1) stA stB
  rw [(by decide +kernel : m7.ctl.spCost.erase 1 = [0]), List.map_cons, List.map_nil] at T
  obtain ⟨v, r⟩ := c109_turned_up S1 S2 T (by norm_num) (freshTu f (by decide +kernel) (by decide +kernel))
    (freshTu f (by decide +kernel) (by decide +kernel))
    (optimal_of_stationary P1 (by decide +kernel) (by decide +kernel)) (optimal_of_stationary P2 (by decide +kernel) (by decide +kernel))
  exact ⟨v, r (by norm_num)⟩

/-- C109 applies: the penalty, against doing `(1, 1)` all the time, which has no control cost at all. -/
example : (reweighted (fun _ => 1) (m7.costs 1).userData).value d (Spec.traj d tuB 0 rTuB.1.ctl.control.e) rTuB.1.ctl.control.e ≤
    (reweighted (fun _ => 1) (m7.costs 1).userData).value d (Spec.traj d tuB 0 (vec [1, 1]).e) (vec [1, 1]).e +
      2 * restCost d tuB 0 [(m7.costs 0).userData] (vec [1, 1]).e / 8 := by
  obtain ⟨g, h, f, c⟩ := hm7
  have S := solveTuB h c
  have P := psd_of_pd (c29_hessian S.hist (fun _ _ h => h.2) S.allowed S.plain S.solve)
  rw [(by decide +kernel : rTuB.2.2.nrVar = rTuB.2.2.c.rows)] at P
  have T := c109_weight (p := 0) (by decide +kernel : m7.ctl.spCost.count 1 = 1) stA stB
  rw [(by decide +kernel : m7.ctl.spCost.erase 1 = [0]), List.map_cons, List.map_nil] at T
  refine c109_penalty S T.costs2 (by norm_num) (fun C hC => ?_) (freshTu f (by decide +kernel) (by decide +kernel))
    (optimal_of_stationary P (by decide +kernel) (by decide +kernel)) (by decide +kernel)
  rw [List.mem_singleton.1 hC]
  exact (by decide +kernel : ∀ r < 2, 0 ≤ (m7.costs 0).weights.e r)

end Ex
end Copra
