import Verif.Props.PlantsExamples
import Verif.Props.MirrorExamples
import Verif.Props.HorizonExamples

/-! # C105 for initial-state controllers on a concrete program

Two plants like `sj5` on one `InitialStateLMPC` with two states and two controls. -/

namespace Copra
open Spec

set_option linter.unusedSectionVars false
set_option maxRecDepth 100000

namespace Ex
open World

/-- One plant: the data of `mj5` on a horizon of one step. -/
def dSJ : Dims := ⟨1, 1, 1⟩

def opSysSJ : Op ℚ := .system 0 (mat 1 1 [[1]]) (mat 1 1 [[1]]) (vec [0]) (vec [1]) 1

def sj1 := after 1000 mj0 opSysSJ
def sj2 := after 1000 sj1 (.constructPs true solver 0 jk)
def sj3 := after 1000 sj2 (.addConstraint 2 jk)
def sj4 := after 1000 sj3 (.addCost 0 jk)
def sj5 := after 1000 sj4 (.resetInitialStateBounds (evec [.fin (-5)]) (evec [.fin 5]))

theorem hsj5 : ∃ g : Ghost, Hist dSJ 1000 Careful sj5 g ∧ g.fresh 0 ∧ g.clean := by
  have a1 := hist_after (d := dSJ) (dmax := 1000) (E := Careful) (op := opSysSJ) (.start mj0_init) ⟨rfl, rfl, rfl⟩
    ⟨trivial, trivial, trivial⟩ (by decide +kernel)
  have a2 := hist_after (op := .constructPs true solver 0 jk) a1 (show HasSystem sj1 0 by unfold HasSystem; decide +kernel)
    ⟨trivial, trivial, trivial⟩ (by decide +kernel)
  have a3 := hist_after (op := .addConstraint 2 jk) a2 (fun _ => (by decide +kernel : sj2.ctl.spBoundConstr = []))
    ⟨trivial, trivial, trivial⟩ (by decide +kernel : okB 1000 sj2 _ = true)
  have a4 := hist_after (op := .addCost 0 jk) a3 trivial ⟨trivial, trivial, trivial⟩ (by decide +kernel : okB 1000 sj3 _ = true)
  have a5 := hist_after (op := .resetInitialStateBounds (evec [.fin (-5)]) (evec [.fin 5])) a4 trivial ⟨trivial, trivial, trivial⟩
    (by decide +kernel : okB 1000 sj4 _ = true)
  exact ⟨_, a5, Or.inr ⟨trivial, rfl⟩, trivial⟩

def envSJ : SolveEnv ℚ := { envHi with answer := fun q => (true, Vec.zero q.nrVar) }

def rSJ : World ℚ × Bool × QP ℚ := (sj5.solve envSJ).getD (sj5, false, q13)

theorem sSJ : sj5.solve envSJ = some (rSJ.1, true, rSJ.2.2) := by
  obtain ⟨r, hr⟩ := Option.isSome_iff_exists.1 (by decide +kernel : (sj5.solve envSJ).isSome = true)
  have h1 : rSJ = r := by unfold rSJ; rw [hr]; rfl
  have h2 : rSJ.2.1 = true := by decide +kernel
  rw [hr, ← h2, h1]

theorem solveSJ {g : Ghost} (h : Hist dSJ 1000 Careful sj5 g) (f : g.fresh 0) (c : g.clean) :
    InitSolve dSJ 1000 sj5 g 0 envSJ rSJ.1 true rSJ.2.2 where
  hist := h.mono fun _ _ h => ⟨h.1, h.2.1⟩
  allowed := ⟨by decide +kernel, (fun h => absurd (congrArg Option.isSome h) (by decide +kernel : sj5.ctl.sol.isSome ≠ false)),
    fun q _ _ => rfl, fun _ => by
      refine ⟨by decide +kernel, by decide +kernel, by decide +kernel, by decide +kernel, by decide +kernel, fun M h1 h2 => ⟨h1, h2⟩⟩⟩
  ps := by decide +kernel
  init := by decide +kernel
  clean := fun _ => c
  honest := honestOf (by decide +kernel)
  fresh := by
    intro i hi _
    rw [(by decide +kernel : sj5.ctl.spCost = [0])] at hi ⊢
    rw [List.mem_singleton.1 hi]
    exact ⟨f, rfl⟩
  inverse := inverseHi
  solve := sSJ

/-- Two such plants. -/
def dTJ : Dims := ⟨2, 2, 1⟩

def costsTJ (i : Nat) : Cost ℚ :=
  if i = 0 then Cost.mkTrajectory (mat 1 2 [[1, 0]]) (vec [0]) else Cost.mkTrajectory (mat 1 2 [[0, 1]]) (vec [0])

def tj0 : World ℚ :=
  { w0 with
    cons := fun _ => Constr.mkCtrlBound (evec [.fin (-1), .fin (-1)]) (evec [.fin 1, .fin 1])
    costs := costsTJ }

theorem tj0_init : World.Init tj0 := by
  obtain ⟨a, _, _, e⟩ := w0_init
  refine ⟨a, fun i => .inr (.inr (.inr (.inr ⟨_, _, rfl⟩))), fun i => ?_, e⟩
  show World.FreshCost (costsTJ i)
  unfold costsTJ
  split
  · exact .inl ⟨_, _, rfl⟩
  · exact .inl ⟨_, _, rfl⟩

def opSysTJ : Op ℚ := .system 0 (mat 2 2 [[1, 0], [0, 1]]) (mat 2 2 [[1, 0], [0, 1]]) (vec [0, 0]) (vec [1, 1]) 1

def tj1 := after 1000 tj0 opSysTJ
def tj2 := after 1000 tj1 (.constructPs true solver 0 jk)
def tj3 := after 1000 tj2 (.addConstraint 2 jk)
def tj4 := after 1000 tj3 (.addCost 0 jk)
def tj5 := after 1000 tj4 (.addCost 1 jk)
def tj6 := after 1000 tj5 (.resetInitialStateBounds (evec [.fin (-5), .fin (-5)]) (evec [.fin 5, .fin 5]))

theorem htj6 : ∃ g : Ghost, Hist dTJ 1000 Careful tj6 g ∧ g.fresh 0 ∧ g.fresh 1 ∧ g.clean := by
  have a1 := hist_after (d := dTJ) (dmax := 1000) (E := Careful) (op := opSysTJ) (.start tj0_init) ⟨rfl, rfl, rfl⟩
    ⟨trivial, trivial, trivial⟩ (by decide +kernel)
  have a2 := hist_after (op := .constructPs true solver 0 jk) a1 (show HasSystem tj1 0 by unfold HasSystem; decide +kernel)
    ⟨trivial, trivial, trivial⟩ (by decide +kernel)
  have a3 := hist_after (op := .addConstraint 2 jk) a2 (fun _ => (by decide +kernel : tj2.ctl.spBoundConstr = []))
    ⟨trivial, trivial, trivial⟩ (by decide +kernel : okB 1000 tj2 _ = true)
  have a4 := hist_after (op := .addCost 0 jk) a3 trivial ⟨trivial, trivial, trivial⟩ (by decide +kernel : okB 1000 tj3 _ = true)
  have a5 := hist_after (op := .addCost 1 jk) a4 trivial ⟨trivial, trivial, trivial⟩ (by decide +kernel : okB 1000 tj4 _ = true)
  have a6 := hist_after (op := .resetInitialStateBounds (evec [.fin (-5), .fin (-5)]) (evec [.fin 5, .fin 5])) a5 trivial
    ⟨trivial, trivial, trivial⟩ (by decide +kernel : okB 1000 tj5 _ = true)
  exact ⟨_, a6, Or.inl (Or.inr ⟨trivial, rfl⟩), Or.inr ⟨trivial, rfl⟩, trivial⟩

def rTJ : World ℚ × Bool × QP ℚ := (tj6.solve envMj).getD (tj6, false, q13)

theorem sTJ : tj6.solve envMj = some (rTJ.1, true, rTJ.2.2) := by
  obtain ⟨r, hr⟩ := Option.isSome_iff_exists.1 (by decide +kernel : (tj6.solve envMj).isSome = true)
  have h1 : rTJ = r := by unfold rTJ; rw [hr]; rfl
  have h2 : rTJ.2.1 = true := by decide +kernel
  rw [hr, ← h2, h1]

theorem solveTJ {g : Ghost} (h : Hist dTJ 1000 Careful tj6 g) (f0 : g.fresh 0) (f1 : g.fresh 1) (c : g.clean) :
    InitSolve dTJ 1000 tj6 g 0 envMj rTJ.1 true rTJ.2.2 where
  hist := h.mono fun _ _ h => ⟨h.1, h.2.1⟩
  allowed := ⟨by decide +kernel, (fun h => absurd (congrArg Option.isSome h) (by decide +kernel : tj6.ctl.sol.isSome ≠ false)),
    fun q _ _ => rfl, fun _ => by
      refine ⟨by decide +kernel, by decide +kernel, by decide +kernel, by decide +kernel, by decide +kernel, fun M h1 h2 => ⟨h1, h2⟩⟩⟩
  ps := by decide +kernel
  init := by decide +kernel
  clean := fun _ => c
  honest := honestOf (by decide +kernel)
  fresh := by
    intro i hi _
    rw [(by decide +kernel : tj6.ctl.spCost = [0, 1])] at hi ⊢
    simp only [List.mem_cons, List.not_mem_nil, or_false] at hi
    rcases hi with rfl | rfl
    · exact ⟨f0, rfl⟩
    · exact ⟨f1, rfl⟩
  inverse := trueInverse (vec [0, 0, 0]) true
  solve := sTJ

theorem twoPlantsJ : TwoPlants 1 1 1 1 1 sj5 0 sj5 0 tj6 0 where
  A := by unfold Diagonal; decide +kernel
  B := by unfold Diagonal; decide +kernel
  bias := by unfold Stacked2; decide +kernel
  x0 := by unfold Stacked2; decide +kernel
  cons := by
    intro X U
    rw [(by decide +kernel : tj6.ctl.spConstr = [2]), (by decide +kernel : sj5.ctl.spConstr = [2])]
    simp only [List.forall_mem_cons, List.not_mem_nil, false_imp_iff, implies_true, and_true]
    exact c105_bounds_of_both (n1 := 1) (n2 := 1) (m1 := 1) (m2 := 1) (N := 1) (l := evec [.fin (-1), .fin (-1)])
      (u := evec [.fin 1, .fin 1]) (l1 := evec [.fin (-1)]) (u1 := evec [.fin 1]) (l2 := evec [.fin (-1)]) (u2 := evec [.fin 1])
      (by unfold Stacked2; decide +kernel) (by unfold Stacked2; decide +kernel) rfl rfl rfl X U
  costs := by
    intro X U
    rw [(by decide +kernel : tj6.ctl.spCost = [0, 1]), (by decide +kernel : sj5.ctl.spCost = [0])]
    simp only [List.map_cons, List.map_nil, List.sum_cons, List.sum_nil]
    have p1 : (tj6.costs 0).userData.OnPlant dTJ dSJ 0 0 (sj5.costs 0).userData := by
      refine ⟨?_, rfl, rfl⟩
      unfold OnPart; decide +kernel
    have p2 : (tj6.costs 1).userData.OnPlant dTJ dSJ 1 1 (sj5.costs 0).userData := by
      refine ⟨?_, rfl, rfl⟩
      unfold OnPart; decide +kernel
    have a : CostData.value (bothDims 1 1 1 1 1) X U _ = _ :=
      c105_cost_on_plant (d := dTJ) (p := dSJ) (by decide) (by decide) rfl p1 X U
    have b : CostData.value (bothDims 1 1 1 1 1) X U _ = _ :=
      c105_cost_on_plant (d := dTJ) (p := dSJ) (by decide) (by decide) rfl p2 X U
    rw [a, b, add_zero, add_zero, add_zero]
    rfl

/-- The joint initial-state controller: an initial state `x` and controls `U` in the range are feasible exactly when both halves are
feasible for the single-plant controller, and its objective ranks controls by the sum of the two. -/
example (x U V : Nat → ℚ) (hU : ∀ j < 2, -1000 ≤ U j ∧ U j ≤ 1000) :
    (Feasible rTJ.2.2 (joined dTJ x U) ↔ Feasible rSJ.2.2 (joined dSJ x (partU 2 0 1 U)) ∧
      Feasible rSJ.2.2 (joined dSJ (fun j => x (1 + j)) (partU 2 1 1 U))) ∧
    objective rTJ.2.2 (joined dTJ x U) - objective rTJ.2.2 (joined dTJ x V) =
      (objective rSJ.2.2 (joined dSJ x (partU 2 0 1 U)) - objective rSJ.2.2 (joined dSJ x (partU 2 0 1 V))) +
      (objective rSJ.2.2 (joined dSJ (fun j => x (1 + j)) (partU 2 1 1 U)) -
        objective rSJ.2.2 (joined dSJ (fun j => x (1 + j)) (partU 2 1 1 V))) := by
  obtain ⟨g, h, f, c⟩ := hsj5
  obtain ⟨g', h', f0, f1, c'⟩ := htj6
  have S := solveSJ h f c
  have J := solveTJ h' f0 f1 c'
  exact ⟨c105_feasible_init S S J twoPlantsJ (by unfold Stacked2; decide +kernel) (by unfold Stacked2; decide +kernel)
    (fun _ _ => rfl) (fun _ _ => rfl) hU, c105_objective_init S S J twoPlantsJ (fun _ _ => rfl) (fun _ _ => rfl) U V⟩

end Ex
end Copra
