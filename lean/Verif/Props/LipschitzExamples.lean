import Verif.Props.Lipschitz
import Verif.Props.ConvexExamples

/-! # C89 on a concrete program -/

namespace Copra
open Spec

set_option linter.unusedSectionVars false
set_option maxRecDepth 100000

namespace Ex
open World

/-- The double integrator with a bounded control, `u0 + u1 ≤ 3`, a terminal cost and a control cost. -/
def lz3 := after 1000 rf2 (.addConstraint 2 jk)
def lz4 := after 1000 lz3 (.addConstraint 1 jk)
def lz5 := after 1000 lz4 (.addCost 1 jk)
def lz6 := after 1000 lz5 (.addCost 2 jk)

def lza := after 1000 lz6 (.xInit 0 (vec [1, 0]))
def lzb := after 1000 lz6 (.xInit 0 (vec [1/2, 0]))

def yLA : Vec ℚ := vec [2000003000000/6000007000001, 4000002000000/6000007000001]
def yLB : Vec ℚ := vec [428572000000/857143857143, 642857500000/857143857143]

def rLA : World ℚ × Bool × QP ℚ := (lza.solve (env yLA true)).getD (lza, false, q13)
def rLB : World ℚ × Bool × QP ℚ := (lzb.solve (env yLB true)).getD (lzb, false, q13)

theorem sLA : lza.solve (env yLA true) = some (rLA.1, true, rLA.2.2) := by
  obtain ⟨r, hr⟩ := Option.isSome_iff_exists.1 (by decide +kernel : (lza.solve (env yLA true)).isSome = true)
  have h1 : rLA = r := by unfold rLA; rw [hr]; rfl
  have h2 : rLA.2.1 = true := by decide +kernel
  rw [hr, ← h2, h1]
theorem sLB : lzb.solve (env yLB true) = some (rLB.1, true, rLB.2.2) := by
  obtain ⟨r, hr⟩ := Option.isSome_iff_exists.1 (by decide +kernel : (lzb.solve (env yLB true)).isSome = true)
  have h1 : rLB = r := by unfold rLB; rw [hr]; rfl
  have h2 : rLB.2.1 = true := by decide +kernel
  rw [hr, ← h2, h1]

theorem hlz : ∃ g : Ghost, Hist d 1000 (fun w op => NoBoundSpan w op ∧ NonnegWeights w op) lz6 g := by
  have a1 := hist_after (d := d) (dmax := 1000) (E := fun w op => NoBoundSpan w op ∧ NonnegWeights w op) (op := opSys) (.start rf0_init)
    ⟨rfl, rfl, rfl⟩ ⟨trivial, trivial⟩ (by decide +kernel)
  have a2 := hist_after (op := opCtl) a1 (show HasSystem rf1 0 by unfold HasSystem; decide +kernel)
    ⟨trivial, trivial⟩ (by decide +kernel : okB 1000 rf1 _ = true)
  have b3 := hist_after (op := .addConstraint 2 jk) a2 (fun _ => (by decide +kernel : rf2.ctl.spBoundConstr = [])) ⟨trivial, trivial⟩
    (by decide +kernel : okB 1000 rf2 _ = true)
  have b4 := hist_after (op := .addConstraint 1 jk) b3 (fun h => absurd h (by decide +kernel : (lz3.cons 1).kind ≠ .ctrlBound))
    ⟨trivial, trivial⟩ (by decide +kernel : okB 1000 lz3 _ = true)
  have b5 := hist_after (op := .addCost 1 jk) b4 trivial ⟨trivial, trivial⟩ (by decide +kernel : okB 1000 lz4 _ = true)
  exact ⟨_, hist_after (op := .addCost 2 jk) b5 trivial ⟨trivial, trivial⟩ (by decide +kernel : okB 1000 lz5 _ = true)⟩

theorem all_lz6 {P : ConstrData ℚ → Prop} (h1 : P (.control true (mat 1 2 [[1, 1]]) (evec [.fin 3])))
    (h2 : P (.ctrlBound (evec [.fin (-1)]) (evec [.fin 1]))) : ∀ i ∈ lz6.ctl.spConstr, P (lz6.cons i).userData := by
  intro i hi
  rw [(by decide +kernel : lz6.ctl.spConstr = [2, 1])] at hi
  simp only [List.mem_cons, List.not_mem_nil, or_false] at hi
  rcases hi with rfl | rfl
  · exact h2
  · exact h1

theorem plainLz {g : Ghost} (h : Hist d 1000 (fun w op => NoBoundSpan w op ∧ NonnegWeights w op) lz6 g) {x y : Vec ℚ}
    (hx : x.rows = 2) (hy : y.rows = 2) {w' : World ℚ} {q : QP ℚ}
    (hs : (after 1000 lz6 (.xInit 0 x)).solve (env y true) = some (w', true, q)) :
    PlainSolve d 1000 (after 1000 lz6 (.xInit 0 x)) g 0 (env y true) w' true q where
  hist := hist_after (op := .xInit 0 x) h hx ⟨trivial, trivial⟩ rfl
  allowed := ⟨(by decide +kernel : lz6.ctl.ps ≠ none), contract hy
    (fun h => absurd (congrArg Option.isSome h) (by decide +kernel : lz6.ctl.sol.isSome ≠ false)) (by decide +kernel : lz6.ctl.isInit = false)⟩
  ps := (by decide +kernel : lz6.ctl.ps = some 0)
  plain := (by decide +kernel : lz6.ctl.isInit = false)
  clean := fun hb => absurd hb (by decide +kernel : lz6.ctl.spBoundConstr ≠ [])
  honest := all_lz6 (P := fun D => D.Honest) trivial trivial
  solve := hs

/-- None of its costs is a per-step cost of the state. -/
theorem freshLz (x : Vec ℚ) (g : Ghost) : CostsFresh d (after 1000 lz6 (.xInit 0 x)) g := by
  intro i hi
  have hi : i ∈ lz6.ctl.spCost := hi
  rw [(by decide +kernel : lz6.ctl.spCost = [1, 2])] at hi
  simp only [List.mem_cons, List.not_mem_nil, or_false] at hi
  rcases hi with rfl | rfl <;> exact fun h => h.elim

/-- C89 applies, and the two controls differ. -/
example : (∃ L : ℚ, normSq d (fun j => rLA.1.ctl.control.e j - rLB.1.ctl.control.e j) ≤ L * stateDistSq d (lza.pss 0).x0.e (lzb.pss 0).x0.e) ∧
    rLA.1.ctl.control.e 0 ≠ rLB.1.ctl.control.e 0 := by
  refine ⟨?_, by decide +kernel⟩
  obtain ⟨g, h⟩ := hlz
  obtain ⟨L, hL⟩ := c89_lipschitz d 1000 lz6 0
  have S1 := plainLz h rfl rfl sLA
  have S2 := plainLz h rfl rfl sLB
  refine ⟨L, hL S1 S2 ⟨rfl, rfl, rfl, .refl _, .refl _⟩ ⟨rfl, rfl, rfl, .refl _, .refl _⟩
    (all_lz6 (P := fun D => D.OnControls) trivial trivial) (freshLz _ _) (freshLz _ _) ?_ ?_⟩
  · exact optimal_of_stationary (by
      have P := c29_hessian S1.hist (fun _ _ h => h.2) S1.allowed S1.plain S1.solve
      rw [(by decide +kernel : rLA.2.2.nrVar = rLA.2.2.c.rows)] at P
      exact psd_of_pd P) (by decide +kernel) (by decide +kernel)
  · exact optimal_of_stationary (by
      have P := c29_hessian S2.hist (fun _ _ h => h.2) S2.allowed S2.plain S2.solve
      rw [(by decide +kernel : rLB.2.2.nrVar = rLB.2.2.c.rows)] at P
      exact psd_of_pd P) (by decide +kernel) (by decide +kernel)

end Ex
end Copra
