import Verif.Props.Representation
import Verif.Props.ConvexExamples

/-! # C93 on a concrete program: a cart described by position and speed, and by its speed in other units -/

namespace Copra
open Spec

set_option linter.unusedSectionVars false
set_option maxRecDepth 100000

namespace Ex.Rep
open World

def cons (i : Nat) : Constr ℚ :=
  match i with
  | 0 => Constr.mkTrajectory (mat 1 2 [[0, 1]]) (evec [.fin 4]) true
  | 1 => Constr.mkCtrlBound (evec [.fin (-1)]) (evec [.fin 1])
  | _ => Constr.mkTrajectory (mat 1 1 [[1/2]]) (evec [.fin 4]) true

def costs (i : Nat) : Cost ℚ :=
  match i with
  | 0 => Cost.mkTrajectory (mat 1 2 [[0, 1]]) (vec [0])
  | 1 => Cost.mkControl (mat 1 1 [[1]]) (vec [1])
  | _ => Cost.mkTrajectory (mat 1 1 [[1/2]]) (vec [0])

def v0 : World ℚ where
  pss := fun _ => PreviewSystem.default
  cons := cons
  costs := costs
  extCons := fun _ => 1
  extCosts := fun _ => 1
  ctl := LMPC.construct false solver

theorem v0_init : World.Init v0 := by
  refine ⟨fun _ => rfl, ?_, ?_, false, solver, rfl⟩
  · intro i
    show World.FreshConstr (cons i)
    unfold World.FreshConstr cons
    split
    · exact .inl ⟨_, _, _, rfl⟩
    · exact .inr (.inr (.inr (.inr ⟨_, _, rfl⟩)))
    · exact .inl ⟨_, _, _, rfl⟩
  · intro i
    show World.FreshCost (costs i)
    unfold World.FreshCost costs
    split
    · exact .inl ⟨_, _, rfl⟩
    · exact .inr (.inr (.inl ⟨_, _, rfl⟩))
    · exact .inl ⟨_, _, rfl⟩

/-- Position and speed: `x+ = [[1,1],[0,1]] x + [0;1] u`, `x0 = (3, 0)`. -/
def a1 := after 1000 v0 (.system 0 (mat 2 2 [[1, 1], [0, 1]]) (mat 2 1 [[0], [1]]) (vec [0, 0]) (vec [3, 0]) 2)
def a2 := after 1000 a1 (.constructPs false solver 0 jk)
def a3 := after 1000 a2 (.addConstraint 0 jk)
def a4 := after 1000 a3 (.addConstraint 1 jk)
def a5 := after 1000 a4 (.addCost 0 jk)
def a6 := after 1000 a5 (.addCost 1 jk)

/-- Speed in half units, the objects registered in another order: `v+ = v + 2 u`, `v0 = 0`. -/
def b1 := after 1000 v0 (.system 0 (mat 1 1 [[1]]) (mat 1 1 [[2]]) (vec [0]) (vec [0]) 2)
def b2 := after 1000 b1 (.constructPs false solver 0 jk)
def b3 := after 1000 b2 (.addConstraint 1 jk)
def b4 := after 1000 b3 (.addConstraint 2 jk)
def b5 := after 1000 b4 (.addCost 1 jk)
def b6 := after 1000 b5 (.addCost 2 jk)

theorem ha : ∃ g : Ghost, Hist ⟨2, 1, 2⟩ 1000 Careful a6 g ∧ g.fresh 0 := by
  have h1 := hist_after (d := ⟨2, 1, 2⟩) (dmax := 1000) (E := Careful)
    (op := .system 0 (mat 2 2 [[1, 1], [0, 1]]) (mat 2 1 [[0], [1]]) (vec [0, 0]) (vec [3, 0]) 2) (.start v0_init)
    ⟨rfl, rfl, rfl⟩ ⟨trivial, trivial, trivial⟩ (by decide +kernel)
  have h2 := hist_after (op := .constructPs false solver 0 jk) h1 (show HasSystem a1 0 by unfold HasSystem; decide +kernel)
    ⟨trivial, trivial, trivial⟩ (by decide +kernel : okB 1000 a1 _ = true)
  have h3 := hist_after (op := .addConstraint 0 jk) h2 (fun _ => (by decide +kernel : a2.ctl.spBoundConstr = [])) ⟨trivial, trivial, trivial⟩
    (by decide +kernel : okB 1000 a2 _ = true)
  have h4 := hist_after (op := .addConstraint 1 jk) h3 (fun _ => (by decide +kernel : a3.ctl.spBoundConstr = []))
    ⟨trivial, trivial, trivial⟩ (by decide +kernel : okB 1000 a3 _ = true)
  have h5 := hist_after (op := .addCost 0 jk) h4 trivial ⟨trivial, trivial, trivial⟩ (by decide +kernel : okB 1000 a4 _ = true)
  exact ⟨_, hist_after (op := .addCost 1 jk) h5 trivial ⟨trivial, trivial, trivial⟩ (by decide +kernel : okB 1000 a5 _ = true),
    Or.inl (Or.inr ⟨trivial, rfl⟩)⟩

theorem hb : ∃ g : Ghost, Hist ⟨1, 1, 2⟩ 1000 Careful b6 g ∧ g.fresh 2 := by
  have h1 := hist_after (d := ⟨1, 1, 2⟩) (dmax := 1000) (E := Careful)
    (op := .system 0 (mat 1 1 [[1]]) (mat 1 1 [[2]]) (vec [0]) (vec [0]) 2) (.start v0_init)
    ⟨rfl, rfl, rfl⟩ ⟨trivial, trivial, trivial⟩ (by decide +kernel)
  have h2 := hist_after (op := .constructPs false solver 0 jk) h1 (show HasSystem b1 0 by unfold HasSystem; decide +kernel)
    ⟨trivial, trivial, trivial⟩ (by decide +kernel : okB 1000 b1 _ = true)
  have h3 := hist_after (op := .addConstraint 1 jk) h2 (fun _ => (by decide +kernel : b2.ctl.spBoundConstr = [])) ⟨trivial, trivial, trivial⟩
    (by decide +kernel : okB 1000 b2 _ = true)
  have h4 := hist_after (op := .addConstraint 2 jk) h3 (fun h => absurd h (by decide +kernel : (b3.cons 2).kind ≠ .ctrlBound))
    ⟨trivial, trivial, trivial⟩ (by decide +kernel : okB 1000 b3 _ = true)
  have h5 := hist_after (op := .addCost 1 jk) h4 trivial ⟨trivial, trivial, trivial⟩ (by decide +kernel : okB 1000 b4 _ = true)
  exact ⟨_, hist_after (op := .addCost 2 jk) h5 trivial ⟨trivial, trivial, trivial⟩ (by decide +kernel : okB 1000 b5 _ = true),
    Or.inr ⟨trivial, rfl⟩⟩

def y : Vec ℚ := vec [1000001000000/5000005000001, 2000001000000/5000005000001]

def rA : World ℚ × Bool × QP ℚ := (a6.solve (env y true)).getD (a6, false, q13)
def rB : World ℚ × Bool × QP ℚ := (b6.solve (env y true)).getD (b6, false, q13)

theorem sA : a6.solve (env y true) = some (rA.1, true, rA.2.2) := by
  obtain ⟨r, hr⟩ := Option.isSome_iff_exists.1 (by decide +kernel : (a6.solve (env y true)).isSome = true)
  have h1 : rA = r := by unfold rA; rw [hr]; rfl
  have h2 : rA.2.1 = true := by decide +kernel
  rw [hr, ← h2, h1]
theorem sB : b6.solve (env y true) = some (rB.1, true, rB.2.2) := by
  obtain ⟨r, hr⟩ := Option.isSome_iff_exists.1 (by decide +kernel : (b6.solve (env y true)).isSome = true)
  have h1 : rB = r := by unfold rB; rw [hr]; rfl
  have h2 : rB.2.1 = true := by decide +kernel
  rw [hr, ← h2, h1]

/-- The speed in half units is twice the speed; the position is left out. -/
def T : Mat ℚ := mat 1 2 [[0, 2]]

theorem same : SameThrough 2 1 1 2 T a6 0 b6 0 where
  A := by decide +kernel
  B := by decide +kernel
  bias := by decide +kernel
  x0 := by decide +kernel
  cons := by
    rw [(by decide +kernel : a6.ctl.spConstr = [0, 1]), (by decide +kernel : b6.ctl.spConstr = [1, 2])]
    refine ⟨[2, 1], .swap _ _ _, .cons ?_ (.cons ?_ .nil)⟩
    · refine ⟨rfl, ⟨rfl, by decide, ?_⟩, ?_⟩
      · decide +kernel
      · unfold SameUpTo; decide +kernel
    · refine ⟨rfl, ?_, ?_⟩ <;> unfold SameUpTo blocks <;> decide +kernel
  costs := by
    rw [(by decide +kernel : a6.ctl.spCost = [0, 1]), (by decide +kernel : b6.ctl.spCost = [1, 2])]
    refine ⟨[2, 1], .swap _ _ _, .cons ?_ (.cons ?_ .nil)⟩
    · refine ⟨⟨rfl, by decide, ?_⟩, ?_, ?_⟩
      · decide +kernel
      · unfold SameUpTo; decide +kernel
      · unfold SameUpTo; decide +kernel
    · refine ⟨⟨rfl, rfl, ?_⟩, ?_, ?_⟩
      · decide +kernel
      · unfold SameUpTo; decide +kernel
      · unfold SameUpTo; decide +kernel

theorem oA (g : Ghost) : OpOk ⟨2, 1, 2⟩ a6 g (.solve (env y true)) :=
  ⟨(by decide +kernel : a6.ctl.ps ≠ none), fun h => absurd (congrArg Option.isSome h) (by decide +kernel : a6.ctl.sol.isSome ≠ false),
    fun q _ _ => env_answer rfl q, fun h => absurd h (by decide +kernel)⟩
theorem oB (g : Ghost) : OpOk ⟨1, 1, 2⟩ b6 g (.solve (env y true)) :=
  ⟨(by decide +kernel : b6.ctl.ps ≠ none), fun h => absurd (congrArg Option.isSome h) (by decide +kernel : b6.ctl.sol.isSome ≠ false),
    fun q _ _ => env_answer rfl q, fun h => absurd h (by decide +kernel)⟩

theorem fA {g : Ghost} (f : g.fresh 0) : CostsFresh ⟨2, 1, 2⟩ a6 g := by
  intro i hi hps
  rw [(by decide +kernel : a6.ctl.spCost = [0, 1])] at hi ⊢
  simp only [List.mem_cons, List.not_mem_nil, or_false] at hi
  rcases hi with rfl | rfl
  · exact ⟨f, rfl⟩
  · unfold Cost.userData at hps
    rw [(by decide +kernel : (a6.costs 1).kind = .control)] at hps
    exact hps.elim
theorem fB {g : Ghost} (f : g.fresh 2) : CostsFresh ⟨1, 1, 2⟩ b6 g := by
  intro i hi hps
  rw [(by decide +kernel : b6.ctl.spCost = [1, 2])] at hi ⊢
  simp only [List.mem_cons, List.not_mem_nil, or_false] at hi
  rcases hi with rfl | rfl
  · unfold Cost.userData at hps
    rw [(by decide +kernel : (b6.costs 1).kind = .control)] at hps
    exact hps.elim
  · exact ⟨f, rfl⟩

/-- C93 applies; the two programs have different numbers of states and their trajectories are not zero. -/
example : (∀ U, IsOptimal rA.2.2 U ↔ IsOptimal rB.2.2 U) ∧ VecEq rA.1.ctl.control rB.1.ctl.control ∧
    (∀ k ≤ 2, ∀ i < 1, rB.1.ctl.trajectory.e (k * 1 + i) = ∑ j ∈ Finset.range 2, T.e i j * rA.1.ctl.trajectory.e (k * 2 + j)) ∧
    rB.1.ctl.trajectory.e 2 ≠ 0 := by
  obtain ⟨g1, h1, f1⟩ := ha
  obtain ⟨g2, h2, f2⟩ := hb
  have c1 : a6.ctl.spBoundConstr = [] → g1.clean := fun h => absurd h (by decide +kernel)
  have c2 : b6.ctl.spBoundConstr = [] → g2.clean := fun h => absurd h (by decide +kernel)
  have i1 : a6.ctl.isInit = false := by decide +kernel
  have i2 : b6.ctl.isInit = false := by decide +kernel
  have PA := psd_of_pd (c29_hessian h1 (fun _ _ h => h.2.1) (oA g1) i1 sA)
  have PB := psd_of_pd (c29_hessian h2 (fun _ _ h => h.2.1) (oB g2) i2 sB)
  rw [(by decide +kernel : rA.2.2.nrVar = rA.2.2.c.rows)] at PA
  rw [(by decide +kernel : rB.2.2.nrVar = rB.2.2.c.rows)] at PB
  have P := c93_same_problem h1 h2 (fun _ _ h => h.1) (fun _ _ h => h.1) (oA g1) (oB g2) (by decide +kernel) (by decide +kernel) i1 i2
    same (fA f1) (fB f2) c1 c2 sA sB
  obtain ⟨a, b⟩ := c93_same_answer h1 h2 (fun _ _ h => ⟨h.1, h.2.1⟩) (fun _ _ h => h.1) (oA g1) (oB g2) (by decide +kernel) (by decide +kernel) i1 i2
    same (fA f1) (fB f2) c1 c2 sA sB (optimal_of_stationary PA (by decide +kernel) (by decide +kernel))
    (optimal_of_stationary PB (by decide +kernel) (by decide +kernel))
  exact ⟨P.2.2.2, a, b, by decide +kernel⟩

end Ex.Rep
end Copra
