import Verif.Props.Retarget
import Verif.Props.ScaleExamples

/-! # C111 on two concrete programs: `m7`, and the same with the control reference 1/2 instead of 1 -/

namespace Copra
open Spec

set_option linter.unusedSectionVars false
set_option maxRecDepth 100000

namespace Ex
open World

def costsRt (i : Nat) : Cost ℚ := if i = 1 then Cost.mkControl (mat 1 1 [[1]]) (vec [1/2]) else theCosts i

def rt0 : World ℚ := { w0 with costs := costsRt }

theorem rt0_init : World.Init rt0 := by
  obtain ⟨a, b, c, e⟩ := w0_init
  refine ⟨a, b, fun i => ?_, e⟩
  show World.FreshCost (costsRt i)
  unfold costsRt
  split
  · exact .inr (.inr (.inl ⟨_, _, rfl⟩))
  · exact c i

def rt1 := after 1000 rt0 opSys
def rt2 := after 1000 rt1 opCtl
def rt3 := after 1000 rt2 (.addConstraint 2 jk)
def rt4 := after 1000 rt3 (.addConstraint 0 jk)
def rt5 := after 1000 rt4 (.addCost 1 jk)
def rt6 := after 1000 rt5 (.addCost 0 jk)

theorem hrt6 : ∃ g : Ghost, Hist d 1000 Careful rt6 g ∧ g.fresh 0 ∧ g.clean := by
  have a1 := hist_after (d := d) (dmax := 1000) (E := Careful) (op := opSys) (.start rt0_init) ⟨rfl, rfl, rfl⟩
    ⟨trivial, trivial, trivial⟩ (by decide +kernel : okB 1000 rt0 _ = true)
  have a2 := hist_after (op := opCtl) a1 (show HasSystem rt1 0 by unfold HasSystem; decide +kernel)
    ⟨trivial, trivial, trivial⟩ (by decide +kernel : okB 1000 rt1 _ = true)
  have b3 := hist_after (op := .addConstraint 2 jk) a2 (fun _ => (by decide +kernel : rt2.ctl.spBoundConstr = []))
    ⟨trivial, trivial, trivial⟩ (by decide +kernel : okB 1000 rt2 _ = true)
  have b4 := hist_after (op := .addConstraint 0 jk) b3 (fun h => absurd h (by decide +kernel : (rt3.cons 0).kind ≠ .ctrlBound))
    ⟨trivial, trivial, trivial⟩ (by decide +kernel : okB 1000 rt3 _ = true)
  have b5 := hist_after (op := .addCost 1 jk) b4 trivial ⟨trivial, trivial, trivial⟩ (by decide +kernel : okB 1000 rt4 _ = true)
  exact ⟨_, hist_after (op := .addCost 0 jk) b5 trivial ⟨trivial, trivial, trivial⟩ (by decide +kernel : okB 1000 rt5 _ = true),
    Or.inr ⟨trivial, rfl⟩, trivial⟩

/-- The minimiser for the reference 1/2. -/
def yRt : Vec ℚ :=
  let e : ℚ := 1 / 1000000
  let D := (4 + e) * (2 + e) - 1
  vec [(-1/2 * (2 + e) - 1/2) / D, ((4 + e) / 2 + 1/2) / D]

def rRt : World ℚ × Bool × QP ℚ := (rt6.solve (env yRt true)).getD (rt6, false, q13)

theorem sRt : rt6.solve (env yRt true) = some (rRt.1, true, rRt.2.2) := by
  obtain ⟨r, hr⟩ := Option.isSome_iff_exists.1 (by decide +kernel : (rt6.solve (env yRt true)).isSome = true)
  have h1 : rRt = r := by unfold rRt; rw [hr]; rfl
  have h2 : rRt.2.1 = true := by decide +kernel
  rw [hr, ← h2, h1]

theorem solveRt {g : Ghost} (h : Hist d 1000 Careful rt6 g) (c : g.clean) :
    PlainSolve d 1000 rt6 g 0 (env yRt true) rRt.1 true rRt.2.2 where
  hist := h.mono fun _ _ h => ⟨h.1, h.2.1⟩
  allowed := ⟨by decide +kernel, contract rfl
    (fun h => absurd (congrArg Option.isSome h) (by decide +kernel : rt6.ctl.sol.isSome ≠ false)) (by decide +kernel)⟩
  ps := by decide +kernel
  plain := by decide +kernel
  clean := fun _ => c
  honest := honestOf (by decide +kernel)
  solve := sRt

/-- The costs of the two programs. -/
def pairsRt : List (CostData ℚ × CostData ℚ) :=
  [((m7.costs 0).userData, (rt6.costs 0).userData), ((m7.costs 1).userData, (rt6.costs 1).userData)]

theorem retargetedRt : Retargeted m7 0 rt6 0 pairsRt where
  A := rfl
  B := rfl
  bias := rfl
  x0 := rfl
  cons := by
    rw [(by decide +kernel : m7.ctl.spConstr = [0, 2]), (by decide +kernel : rt6.ctl.spConstr = [2, 0])]
    have e0 : (m7.cons 0).userData = (rt6.cons 0).userData := by
      unfold Constr.userData
      rw [(by decide +kernel : (m7.cons 0).kind = .trajectory), (by decide +kernel : (rt6.cons 0).kind = .trajectory)]
      rfl
    have e2 : (m7.cons 2).userData = (rt6.cons 2).userData := by
      unfold Constr.userData
      rw [(by decide +kernel : (m7.cons 2).kind = .ctrlBound), (by decide +kernel : (rt6.cons 2).kind = .ctrlBound),
        (by decide +kernel : (m7.cons 2).fullSizeEntry = false), (by decide +kernel : (rt6.cons 2).fullSizeEntry = false)]
      rfl
    simp only [List.map_cons, List.map_nil, e0, e2]
    exact .swap _ _ _
  costs1 := by
    rw [(by decide +kernel : m7.ctl.spCost = [0, 1])]
    exact .refl _
  costs2 := by
    rw [(by decide +kernel : rt6.ctl.spCost = [1, 0])]
    exact .swap _ _ _
  pairs := by
    intro c hc
    simp only [pairsRt, List.mem_cons, List.not_mem_nil, or_false] at hc
    rcases hc with rfl | rfl
    · unfold Cost.userData
      rw [(by decide +kernel : (m7.costs 0).kind = .trajectory), (by decide +kernel : (rt6.costs 0).kind = .trajectory)]
      exact ⟨rfl, rfl⟩
    · unfold Cost.userData
      rw [(by decide +kernel : (m7.costs 1).kind = .control), (by decide +kernel : (rt6.costs 1).kind = .control)]
      exact ⟨rfl, rfl⟩

/-- C111 applies; the references moved by 1/2 at both steps. -/
example : allOutputsMoved d m7 0 pairsRt rA.1.ctl.control.e rRt.1.ctl.control.e +
      2 * (1 / 1000000 * controlsMoved d rA.1.ctl.control.e rRt.1.ctl.control.e) ≤ 1 / 2 ∧
    0 < controlsMoved d rA.1.ctl.control.e rRt.1.ctl.control.e := by
  obtain ⟨g1, h1, f1, c1⟩ := hm7
  obtain ⟨g2, h2, f2, c2⟩ := hrt6
  have S1 := solveM7 h1 c1
  have S2 := solveRt h2 c2
  have PA := psd_of_pd (c29_hessian S1.hist (fun _ _ h => h.2) S1.allowed S1.plain S1.solve)
  have PB := psd_of_pd (c29_hessian S2.hist (fun _ _ h => h.2) S2.allowed S2.plain S2.solve)
  rw [(by decide +kernel : rA.2.2.nrVar = rA.2.2.c.rows)] at PA
  rw [(by decide +kernel : rRt.2.2.nrVar = rRt.2.2.c.rows)] at PB
  have fr1 : CostsFresh d m7 g1 := by
    intro i hi hps
    rw [(by decide +kernel : m7.ctl.spCost = [0, 1])] at hi ⊢
    simp only [List.mem_cons, List.not_mem_nil, or_false] at hi
    rcases hi with rfl | rfl
    · exact ⟨f1, rfl⟩
    · exact hps.elim
  have fr2 : CostsFresh d rt6 g2 := by
    intro i hi hps
    rw [(by decide +kernel : rt6.ctl.spCost = [1, 0])] at hi ⊢
    simp only [List.mem_cons, List.not_mem_nil, or_false] at hi
    rcases hi with rfl | rfl
    · exact hps.elim
    · exact ⟨f2, rfl⟩
  have r := (c111_retargeted S1 S2 retargetedRt fr1 fr2 (optimal_of_stationary PA (by decide +kernel) (by decide +kernel))
    (optimal_of_stationary PB (by decide +kernel) (by decide +kernel))).1
  rw [(by decide +kernel : allRefsMoved d pairsRt = 1 / 2)] at r
  exact ⟨r, by decide +kernel⟩

end Ex
end Copra
