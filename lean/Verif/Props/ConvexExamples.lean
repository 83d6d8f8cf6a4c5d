import Verif.Props.Convex
import Verif.Props.RecursiveExamples

/-! # C84 on a concrete program -/

namespace Copra
open Spec

set_option linter.unusedSectionVars false
set_option maxRecDepth 100000

namespace Ex
open World

def rfa := after 1000 rf5 (.xInit 0 (vec [1, 0]))
def rfb := after 1000 rf5 (.xInit 0 (vec [3, -1]))
def rfc := after 1000 rf5 (.xInit 0 (vec [2, -1/2]))

/-- The minimiser of the third problem. -/
def yC : Vec ℚ := vec [1000000/1000001, 1000000/1000001]

def rRA : World ℚ × Bool × QP ℚ := (rfa.solve (env (vec [0, 0]) true)).getD (rfa, false, q13)
def rRB : World ℚ × Bool × QP ℚ := (rfb.solve (env (vec [0, 0]) true)).getD (rfb, false, q13)
def rRC : World ℚ × Bool × QP ℚ := (rfc.solve (env yC true)).getD (rfc, false, q13)

theorem sRA : rfa.solve (env (vec [0, 0]) true) = some (rRA.1, true, rRA.2.2) := by
  obtain ⟨r, hr⟩ := Option.isSome_iff_exists.1 (by decide +kernel : (rfa.solve (env (vec [0, 0]) true)).isSome = true)
  have h1 : rRA = r := by unfold rRA; rw [hr]; rfl
  have h2 : rRA.2.1 = true := by decide +kernel
  rw [hr, ← h2, h1]
theorem sRB : rfb.solve (env (vec [0, 0]) true) = some (rRB.1, true, rRB.2.2) := by
  obtain ⟨r, hr⟩ := Option.isSome_iff_exists.1 (by decide +kernel : (rfb.solve (env (vec [0, 0]) true)).isSome = true)
  have h1 : rRB = r := by unfold rRB; rw [hr]; rfl
  have h2 : rRB.2.1 = true := by decide +kernel
  rw [hr, ← h2, h1]
theorem sRC : rfc.solve (env yC true) = some (rRC.1, true, rRC.2.2) := by
  obtain ⟨r, hr⟩ := Option.isSome_iff_exists.1 (by decide +kernel : (rfc.solve (env yC true)).isSome = true)
  have h1 : rRC = r := by unfold rRC; rw [hr]; rfl
  have h2 : rRC.2.1 = true := by decide +kernel
  rw [hr, ← h2, h1]

theorem hrf : ∃ g : Ghost, Hist d 1000 (fun w op => NoBoundSpan w op ∧ NonnegWeights w op) rf5 g ∧ g.fresh 1 := by
  have a1 := hist_after (d := d) (dmax := 1000) (E := fun w op => NoBoundSpan w op ∧ NonnegWeights w op) (op := opSys) (.start rf0_init)
    ⟨rfl, rfl, rfl⟩ ⟨trivial, trivial⟩ (by decide +kernel)
  have a2 := hist_after (op := opCtl) a1 (show HasSystem rf1 0 by unfold HasSystem; decide +kernel)
    ⟨trivial, trivial⟩ (by decide +kernel : okB 1000 rf1 _ = true)
  have b3 := hist_after (op := .addConstraint 2 jk) a2 (fun _ => (by decide +kernel : rf2.ctl.spBoundConstr = [])) ⟨trivial, trivial⟩
    (by decide +kernel : okB 1000 rf2 _ = true)
  have b4 := hist_after (op := .addConstraint 0 jk) b3 (fun h => absurd h (by decide +kernel : (rf3.cons 0).kind ≠ .ctrlBound))
    ⟨trivial, trivial⟩ (by decide +kernel : okB 1000 rf3 _ = true)
  exact ⟨_, hist_after (op := .addCost 1 jk) b4 trivial ⟨trivial, trivial⟩ (by decide +kernel : okB 1000 rf4 _ = true),
    Or.inr ⟨trivial, rfl⟩⟩

theorem plainSolve {g : Ghost} (h : Hist d 1000 (fun w op => NoBoundSpan w op ∧ NonnegWeights w op) rf5 g) {x y : Vec ℚ}
    (hx : x.rows = 2) (hy : y.rows = 2) {w' : World ℚ} {q : QP ℚ}
    (hs : (after 1000 rf5 (.xInit 0 x)).solve (env y true) = some (w', true, q)) :
    PlainSolve d 1000 (after 1000 rf5 (.xInit 0 x)) g 0 (env y true) w' true q where
  hist := hist_after (op := .xInit 0 x) h hx ⟨trivial, trivial⟩ rfl
  allowed := ⟨(by decide +kernel : rf5.ctl.ps ≠ none), contract hy
    (fun h => absurd (congrArg Option.isSome h) (by decide +kernel : rf5.ctl.sol.isSome ≠ false)) (by decide +kernel : rf5.ctl.isInit = false)⟩
  ps := (by decide +kernel : rf5.ctl.ps = some 0)
  plain := (by decide +kernel : rf5.ctl.isInit = false)
  clean := fun hb => absurd hb (by decide +kernel : rf5.ctl.spBoundConstr ≠ [])
  honest := all_rf5 (P := fun D => D.Honest) trivial trivial
  solve := hs

theorem alikeRF (x y : Vec ℚ) : AlikeButStart (after 1000 rf5 (.xInit 0 x)) 0 (after 1000 rf5 (.xInit 0 y)) 0 :=
  ⟨rfl, rfl, rfl, .refl _, .refl _⟩

/-- C84 applies: half way between `(1, 0)` and `(3, -1)`. -/
example : totalCost d rfc 0 rRC.1.ctl.control.e ≤
    1 / 2 * totalCost d rfa 0 rRA.1.ctl.control.e + (1 - 1 / 2) * totalCost d rfb 0 rRB.1.ctl.control.e := by
  obtain ⟨g, h, f⟩ := hrf
  have S3 := plainSolve h rfl rfl sRC
  refine c84_cost_between (by norm_num) (by norm_num) (plainSolve h rfl rfl sRA) (plainSolve h rfl rfl sRB) S3
    (alikeRF _ _) (alikeRF _ _) (by decide +kernel) (by decide +kernel) (by decide +kernel) ?_ ?_
  · exact optimal_of_stationary (by
      have P := c29_hessian S3.hist (fun _ _ h => h.2) S3.allowed S3.plain S3.solve
      rw [(by decide +kernel : rRC.2.2.nrVar = rRC.2.2.c.rows)] at P
      exact psd_of_pd P) (by decide +kernel) (by decide +kernel)
  · intro i hi
    rw [(by decide +kernel : rfc.ctl.spCost = [1])] at hi
    obtain rfl := List.mem_singleton.1 hi
    exact fun _ => ⟨f, by decide +kernel⟩

example : true = true := by
  obtain ⟨g, h, f⟩ := hrf
  exact c84_feasible_between (by norm_num) (by norm_num) (plainSolve h rfl rfl sRA) (plainSolve h rfl rfl sRB) (plainSolve h rfl rfl sRC)
    (alikeRF _ _) (alikeRF _ _) (by decide +kernel : ∀ r < d.n, (rfc.pss 0).x0.e r = mix (1 / 2) (rfa.pss 0).x0.e (rfb.pss 0).x0.e r)
    (by decide +kernel) (by decide +kernel) (fun _ => rfl)

end Ex
end Copra
