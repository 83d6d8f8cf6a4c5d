import Verif.Props.Scale
import Verif.Props.MeaningInitExamples

/-! # C104 on two concrete programs

`m7` and `j7` declared in a unit that is half as large, with the objects registered in another order. -/

namespace Copra
open Spec

set_option linter.unusedSectionVars false
set_option maxRecDepth 100000

namespace Ex
open World

def consD (i : Nat) : Constr ℚ :=
  if i = 0 then Constr.mkTrajectory (mat 1 2 [[1, 0]]) (evec [.fin 10]) true
  else if i = 2 then Constr.mkCtrlBound (evec [.fin (-2)]) (evec [.fin 2]) else theCons i

def costsD (i : Nat) : Cost ℚ := if i = 1 then Cost.mkControl (mat 1 1 [[1]]) (vec [2]) else theCosts i

def sd0 : World ℚ := { w0 with cons := consD, costs := costsD }

theorem sd0_init : World.Init sd0 := by
  obtain ⟨a, b, c, e⟩ := w0_init
  refine ⟨a, fun i => ?_, fun i => ?_, e⟩
  · show World.FreshConstr (consD i)
    unfold consD
    split
    · exact .inl ⟨_, _, _, rfl⟩
    · split
      · exact .inr (.inr (.inr (.inr ⟨_, _, rfl⟩)))
      · exact b i
  · show World.FreshCost (costsD i)
    unfold costsD
    split
    · exact .inr (.inr (.inl ⟨_, _, rfl⟩))
    · exact c i

def opSysD : Op ℚ := .system 0 (mat 2 2 [[1, 1], [0, 1]]) (mat 2 1 [[0], [1]]) (vec [0, 0]) (vec [2, 0]) 2

def sd1 := after 1000 sd0 opSysD
def sd2 := after 1000 sd1 opCtl
def sd3 := after 1000 sd2 (.addConstraint 2 jk)
def sd4 := after 1000 sd3 (.addConstraint 0 jk)
def sd5 := after 1000 sd4 (.addCost 1 jk)
def sd6 := after 1000 sd5 (.addCost 0 jk)

theorem hsd1 : ∃ g : Ghost, Hist d 1000 Careful sd1 g ∧ g.clean :=
  ⟨_, hist_after (d := d) (dmax := 1000) (E := Careful) (op := opSysD) (.start sd0_init) ⟨rfl, rfl, rfl⟩
    ⟨trivial, trivial, trivial⟩ (by decide +kernel), trivial⟩

theorem hsd6 : ∃ g : Ghost, Hist d 1000 Careful sd6 g ∧ g.fresh 0 ∧ g.clean := by
  obtain ⟨_, a1, _⟩ := hsd1
  have a2 := hist_after (op := opCtl) a1 (show HasSystem sd1 0 by unfold HasSystem; decide +kernel)
    ⟨trivial, trivial, trivial⟩ (by decide +kernel : okB 1000 sd1 _ = true)
  have b3 := hist_after (op := .addConstraint 2 jk) a2 (fun _ => (by decide +kernel : sd2.ctl.spBoundConstr = []))
    ⟨trivial, trivial, trivial⟩ (by decide +kernel : okB 1000 sd2 _ = true)
  have b4 := hist_after (op := .addConstraint 0 jk) b3 (fun h => absurd h (by decide +kernel : (sd3.cons 0).kind ≠ .ctrlBound))
    ⟨trivial, trivial, trivial⟩ (by decide +kernel : okB 1000 sd3 _ = true)
  have b5 := hist_after (op := .addCost 1 jk) b4 trivial ⟨trivial, trivial, trivial⟩ (by decide +kernel : okB 1000 sd4 _ = true)
  exact ⟨_, hist_after (op := .addCost 0 jk) b5 trivial ⟨trivial, trivial, trivial⟩ (by decide +kernel : okB 1000 sd5 _ = true),
    Or.inr ⟨trivial, rfl⟩, trivial⟩

def ySD : Vec ℚ := vec [-2000000000000 / 7000006000001, 8000002000000 / 7000006000001]

def rSD : World ℚ × Bool × QP ℚ := (sd6.solve (env ySD true)).getD (sd6, false, q13)

theorem sSD : sd6.solve (env ySD true) = some (rSD.1, true, rSD.2.2) := by
  obtain ⟨r, hr⟩ := Option.isSome_iff_exists.1 (by decide +kernel : (sd6.solve (env ySD true)).isSome = true)
  have h1 : rSD = r := by unfold rSD; rw [hr]; rfl
  have h2 : rSD.2.1 = true := by decide +kernel
  rw [hr, ← h2, h1]

theorem honestOf {w : World ℚ} (h : ∀ i ∈ w.ctl.spConstr, (w.cons i).kind ≠ .trajBound) :
    ∀ i ∈ w.ctl.spConstr, (w.cons i).userData.Honest := by
  intro i hi
  have := h i hi
  unfold Constr.userData
  cases h : (w.cons i).kind <;> simp only <;> first | trivial | exact absurd h this | (split <;> trivial)

theorem solveM7 {g : Ghost} (h : Hist d 1000 Careful m7 g) (c : g.clean) : PlainSolve d 1000 m7 g 0 (env yA true) rA.1 true rA.2.2 where
  hist := h.mono fun _ _ h => ⟨h.1, h.2.1⟩
  allowed := ⟨by decide +kernel, contract rfl
    (fun h => absurd (congrArg Option.isSome h) (by decide +kernel : m7.ctl.sol.isSome ≠ false)) (by decide +kernel)⟩
  ps := by decide +kernel
  plain := by decide +kernel
  clean := fun _ => c
  honest := honestOf (by decide +kernel)
  solve := sA

theorem solveSD {g : Ghost} (h : Hist d 1000 Careful sd6 g) (c : g.clean) :
    PlainSolve d 1000 sd6 g 0 (env ySD true) rSD.1 true rSD.2.2 where
  hist := h.mono fun _ _ h => ⟨h.1, h.2.1⟩
  allowed := ⟨by decide +kernel, contract rfl
    (fun h => absurd (congrArg Option.isSome h) (by decide +kernel : sd6.ctl.sol.isSome ≠ false)) (by decide +kernel)⟩
  ps := by decide +kernel
  plain := by decide +kernel
  clean := fun _ => c
  honest := honestOf (by decide +kernel)
  solve := sSD

theorem times_trajectory {w1 w2 : World ℚ} (h1 : (w1.cons 0).userData = .trajectory true (mat 1 2 [[1, 0]]) (evec [.fin 5]))
    (h2 : (w2.cons 0).userData = .trajectory true (mat 1 2 [[1, 0]]) (evec [.fin 10])) :
    (w1.cons 0).userData.TimesS d 2 (w2.cons 0).userData := by
  rw [h1, h2]
  refine ⟨rfl, rfl, ?_⟩
  unfold ExtTimesUpTo
  decide +kernel

theorem times_bound {w1 w2 : World ℚ} (h1 : (w1.cons 2).userData = .ctrlBound (evec [.fin (-1)]) (evec [.fin 1]))
    (h2 : (w2.cons 2).userData = .ctrlBound (evec [.fin (-2)]) (evec [.fin 2])) :
    (w1.cons 2).userData.TimesS d 2 (w2.cons 2).userData := by
  rw [h1, h2]
  refine ⟨rfl, ?_, ?_⟩
  · unfold ExtTimesUpTo; decide +kernel
  · unfold ExtTimesUpTo; decide +kernel

theorem times_state {w1 w2 : World ℚ} (h1 : (w1.costs 0).userData = .trajectory (mat 2 2 [[1, 0], [0, 1]]) (vec [0, 0]) (Vec.const 2 1))
    (h2 : (w2.costs 0).userData = .trajectory (mat 2 2 [[1, 0], [0, 1]]) (vec [0, 0]) (Vec.const 2 1)) :
    (w1.costs 0).userData.TimesS 2 (w2.costs 0).userData := by
  rw [h1, h2]
  refine ⟨rfl, rfl, ?_⟩
  unfold TimesUpTo; decide +kernel

theorem times_control {w1 w2 : World ℚ} (h1 : (w1.costs 1).userData = .control (mat 1 1 [[1]]) (vec [1]) (Vec.const 1 1))
    (h2 : (w2.costs 1).userData = .control (mat 1 1 [[1]]) (vec [2]) (Vec.const 1 1)) :
    (w1.costs 1).userData.TimesS 2 (w2.costs 1).userData := by
  rw [h1, h2]
  refine ⟨rfl, rfl, ?_⟩
  unfold TimesUpTo; decide +kernel

theorem unitsSD : InUnits d 2 m7 0 sd6 0 where
  A := rfl
  B := rfl
  bias := by unfold TimesUpTo; decide +kernel
  cons := by
    refine ⟨[0, 2], by rw [(by decide +kernel : sd6.ctl.spConstr = [2, 0])]; decide, ?_⟩
    rw [(by decide +kernel : m7.ctl.spConstr = [0, 2])]
    exact .cons (times_trajectory rfl rfl) (.cons (times_bound rfl rfl) .nil)
  costs := by
    refine ⟨[0, 1], by rw [(by decide +kernel : sd6.ctl.spCost = [1, 0])]; decide, ?_⟩
    rw [(by decide +kernel : m7.ctl.spCost = [0, 1])]
    exact .cons (times_state rfl rfl) (.cons (times_control rfl rfl) .nil)

/-- C104 applies to LMPC controllers. -/
example : (∀ j < rA.1.ctl.control.rows, rSD.1.ctl.control.e j = 2 * rA.1.ctl.control.e j) ∧
    ∀ j < rA.1.ctl.trajectory.rows, rSD.1.ctl.trajectory.e j = 2 * rA.1.ctl.trajectory.e j := by
  obtain ⟨g1, h1, f1, c1⟩ := hm7
  obtain ⟨g2, h2, f2, c2⟩ := hsd6
  have S1 := solveM7 h1 c1
  have S2 := solveSD h2 c2
  have PA := psd_of_pd (c29_hessian S1.hist (fun _ _ h => h.2) S1.allowed (by decide +kernel) sA)
  have PB := psd_of_pd (c29_hessian S2.hist (fun _ _ h => h.2) S2.allowed (by decide +kernel) sSD)
  rw [(by decide +kernel : rA.2.2.nrVar = rA.2.2.c.rows)] at PA
  rw [(by decide +kernel : rSD.2.2.nrVar = rSD.2.2.c.rows)] at PB
  have fr1 : CostsFresh d m7 g1 := by
    intro i hi hps
    rw [(by decide +kernel : m7.ctl.spCost = [0, 1])] at hi ⊢
    simp only [List.mem_cons, List.not_mem_nil, or_false] at hi
    rcases hi with rfl | rfl
    · exact ⟨f1, rfl⟩
    · exact hps.elim
  have fr2 : CostsFresh d sd6 g2 := by
    intro i hi hps
    rw [(by decide +kernel : sd6.ctl.spCost = [1, 0])] at hi ⊢
    simp only [List.mem_cons, List.not_mem_nil, or_false] at hi
    rcases hi with rfl | rfl
    · exact hps.elim
    · exact ⟨f2, rfl⟩
  obtain ⟨_, a, _, b⟩ := c104_same_results (by norm_num) S1 S2 unitsSD (by unfold TimesUpTo; decide +kernel) fr1 fr2
    (optimal_of_stationary PA (by decide +kernel) (by decide +kernel))
    (optimal_of_stationary PB (by decide +kernel) (by decide +kernel))
    (by decide +kernel) (by decide +kernel)
  exact ⟨a, b⟩

/-- The controls are not zero. -/
example : rA.1.ctl.control.e 0 ≠ 0 ∧ rA.1.ctl.trajectory.e 0 = 1 ∧ rSD.1.ctl.trajectory.e 0 = 2 := by decide +kernel

/-! ## `InitialStateLMPC` -/

def sv2 := after 1000 sd1 (.constructPs true solver 0 jk)
def sv3 := after 1000 sv2 (.addConstraint 2 jk)
def sv4 := after 1000 sv3 (.addConstraint 0 jk)
def sv5 := after 1000 sv4 (.addCost 0 jk)
def sv6 := after 1000 sv5 (.resetInitialStateCost (mat 2 2 [[1, 0], [0, 1]]) (vec [1/5, 2/5]))
def sv7 := after 1000 sv6 (.resetInitialStateBounds (evec [.fin (-10), .fin (-10)]) (evec [.fin 10, .fin 10]))

theorem hsv7 : ∃ g : Ghost, Hist d 1000 Careful sv7 g ∧ g.fresh 0 ∧ g.clean := by
  obtain ⟨_, a1, _⟩ := hsd1
  have a2 := hist_after (op := .constructPs true solver 0 jk) a1 (show HasSystem sd1 0 by unfold HasSystem; decide +kernel)
    ⟨trivial, trivial, trivial⟩ (by decide +kernel : okB 1000 sd1 _ = true)
  have b3 := hist_after (op := .addConstraint 2 jk) a2 (fun _ => (by decide +kernel : sv2.ctl.spBoundConstr = []))
    ⟨trivial, trivial, trivial⟩ (by decide +kernel : okB 1000 sv2 _ = true)
  have b4 := hist_after (op := .addConstraint 0 jk) b3 (fun h => absurd h (by decide +kernel : (sv3.cons 0).kind ≠ .ctrlBound))
    ⟨trivial, trivial, trivial⟩ (by decide +kernel : okB 1000 sv3 _ = true)
  have b5 := hist_after (op := .addCost 0 jk) b4 trivial ⟨trivial, trivial, trivial⟩ (by decide +kernel : okB 1000 sv4 _ = true)
  have b6 := hist_after (op := .resetInitialStateCost (mat 2 2 [[1, 0], [0, 1]]) (vec [1/5, 2/5])) b5 trivial
    ⟨trivial, trivial, trivial⟩ (by decide +kernel : okB 1000 sv5 _ = true)
  exact ⟨_, hist_after (op := .resetInitialStateBounds (evec [.fin (-10), .fin (-10)]) (evec [.fin 10, .fin 10])) b6 trivial
    ⟨trivial, trivial, trivial⟩ (by decide +kernel : okB 1000 sv6 _ = true), Or.inr ⟨trivial, rfl⟩, trivial⟩

def ySV : Vec ℚ := vec [-1/5, -2/5, 1400001800000 / 2000004000001, -599999600000 / 2000004000001]

def rSV : World ℚ × Bool × QP ℚ := (sv7.solve (envI ySV true)).getD (sv7, false, q13)

theorem sSV : sv7.solve (envI ySV true) = some (rSV.1, true, rSV.2.2) := by
  obtain ⟨r, hr⟩ := Option.isSome_iff_exists.1 (by decide +kernel : (sv7.solve (envI ySV true)).isSome = true)
  have h1 : rSV = r := by unfold rSV; rw [hr]; rfl
  have h2 : rSV.2.1 = true := by decide +kernel
  rw [hr, ← h2, h1]

theorem solveSV {g : Ghost} (h : Hist d 1000 Careful sv7 g) (f : g.fresh 0) (c : g.clean) :
    InitSolve d 1000 sv7 g 0 (envI ySV true) rSV.1 true rSV.2.2 where
  hist := h.mono fun _ _ h => ⟨h.1, h.2.1⟩
  allowed := ⟨by decide +kernel, contractI rfl (by decide +kernel) (by decide +kernel)⟩
  ps := by decide +kernel
  init := by decide +kernel
  clean := fun _ => c
  honest := honestOf (by decide +kernel)
  fresh := by
    intro i hi _
    rw [(by decide +kernel : sv7.ctl.spCost = [0])] at hi ⊢
    rw [List.mem_singleton.1 hi]
    exact ⟨f, rfl⟩
  inverse := trueInverse _ _
  solve := sSV

theorem unitsSV : InUnits d 2 j7 0 sv7 0 where
  A := rfl
  B := rfl
  bias := by unfold TimesUpTo; decide +kernel
  cons := by
    refine ⟨[0, 2], by rw [(by decide +kernel : sv7.ctl.spConstr = [2, 0])]; decide, ?_⟩
    rw [(by decide +kernel : j7.ctl.spConstr = [0, 2])]
    exact .cons (times_trajectory rfl rfl) (.cons (times_bound rfl rfl) .nil)
  costs := by
    refine ⟨[0], by rw [(by decide +kernel : sv7.ctl.spCost = [0])], ?_⟩
    rw [(by decide +kernel : j7.ctl.spCost = [0])]
    exact .cons (times_state rfl rfl) .nil

/-- C104 applies to initial-state controllers. -/
example : ∃ x1 x2, rJ.1.ctl.initialState (rJ.1.pss 0) = some x1 ∧ rSV.1.ctl.initialState (rSV.1.pss 0) = some x2 ∧
    (∀ j < x1.rows, x2.e j = 2 * x1.e j) ∧
    ∀ j < rJ.1.ctl.trajectory.rows, rSV.1.ctl.trajectory.e j = 2 * rJ.1.ctl.trajectory.e j := by
  obtain ⟨g, h, f, c⟩ := hsv7
  have S := solveSV h f c
  have P := psd_of_pd ((c45_hessian_partial S.hist (fun _ _ h => h.2) S.allowed S.init (trueInverse _ _) sSV).2
    (pdR _ (by decide +kernel)))
  rw [(by decide +kernel : rSV.2.2.nrVar = rSV.2.2.c.rows)] at P
  obtain ⟨x1, x2, a, b, _, e, _, _, _, t⟩ := c104_same_results_init (by norm_num) solveJ S unitsSV
    ⟨by decide +kernel, by unfold TimesUpTo; decide +kernel, by unfold ExtTimesUpTo; decide +kernel, by unfold ExtTimesUpTo; decide +kernel⟩
    (sameInverse _ _ _ _) (pdR _ (by decide +kernel))
    optJ (optimal_of_stationary P (by decide +kernel) (by decide +kernel)) (by decide +kernel) (by decide +kernel)
  exact ⟨x1, x2, a, b, e, t⟩

end Ex
end Copra
