import Verif.Props.Replan
import Verif.Props.AnswerExamples

/-! # C70 on concrete programs: the hypotheses are met -/

namespace Copra
open Spec

set_option linter.unusedSectionVars false
set_option maxRecDepth 100000

namespace Ex
open World

/-- One step less than `d`. -/
def dR : Dims := ⟨2, 1, 1⟩

/-- The same system, one step, from the state reached with the first control of `yA`. -/
def opSysR : Op ℚ := .system 0 (mat 2 2 [[1, 1], [0, 1]]) (mat 2 1 [[0], [1]]) (vec [0, 0])
  (vec [1, -1000000000000 / 7000006000001]) 1

def rp1 := after 1000 w0 opSysR
def rp2 := after 1000 rp1 opCtl
def rp3 := after 1000 rp2 (.addConstraint 2 jk')
def rp4 := after 1000 rp3 (.addConstraint 0 jk')
def rp5 := after 1000 rp4 (.addCost 1 jk')
def rp6 := after 1000 rp5 (.addCost 0 jk')

/-- The rest of `yA`. -/
def yR : Vec ℚ := vec [4000001000000 / 7000006000001]

def envR : SolveEnv ℚ := { env yR true with answer := fun q => (true, if q.nrVar = 1 then yR else Vec.zero q.nrVar) }

theorem hrp6 : ∃ g : Ghost, Hist dR 1000 Careful rp6 g ∧ g.fresh 0 ∧ g.clean := by
  have a1 := hist_after (d := dR) (dmax := 1000) (E := Careful) (op := opSysR) (.start w0_init) ⟨rfl, rfl, rfl⟩
    ⟨trivial, trivial, trivial⟩ (by decide +kernel)
  have b2 := hist_after (op := opCtl) a1 (show HasSystem rp1 0 by unfold HasSystem; decide +kernel)
    ⟨trivial, trivial, trivial⟩ (by decide +kernel)
  have b3 := hist_after (op := .addConstraint 2 jk') b2 (fun _ => (by decide +kernel : rp2.ctl.spBoundConstr = [])) ⟨trivial, trivial, trivial⟩
    (by decide +kernel : okB 1000 rp2 _ = true)
  have b4 := hist_after (op := .addConstraint 0 jk') b3 (fun h => absurd h (by decide +kernel : (rp3.cons 0).kind ≠ .ctrlBound))
    ⟨trivial, trivial, trivial⟩ (by decide +kernel : okB 1000 rp3 _ = true)
  have b5 := hist_after (op := .addCost 1 jk') b4 trivial ⟨trivial, trivial, trivial⟩ (by decide +kernel : okB 1000 rp4 _ = true)
  have b6 := hist_after (op := .addCost 0 jk') b5 trivial ⟨trivial, trivial, trivial⟩ (by decide +kernel : okB 1000 rp5 _ = true)
  exact ⟨_, b6, Or.inr ⟨trivial, rfl⟩, trivial⟩

def rR : World ℚ × Bool × QP ℚ := (rp6.solve envR).getD (rp6, false, q13)

theorem sR : rp6.solve envR = some (rR.1, true, rR.2.2) := by
  have e : (rp6.solve envR).isSome = true := by decide +kernel
  obtain ⟨r, hr⟩ := Option.isSome_iff_exists.1 e
  have h1 : rR = r := by unfold rR; rw [hr]; rfl
  have h2 : rR.2.1 = true := by decide +kernel
  rw [hr, ← h2, h1]

theorem consA (i : Nat) (h : i = 0 ∨ i = 2) : (m7.cons i).userData = (rp6.cons i).userData := by
  rcases h with rfl | rfl <;> rfl

theorem costsA (i : Nat) (h : i = 0 ∨ i = 1) : (m7.costs i).userData = (rp6.costs i).userData := by
  rcases h with rfl | rfl <;> rfl

theorem remainingA : Remaining d dR m7 0 rp6 0 := by
  have l1 : m7.ctl.spConstr = [0, 2] := by decide +kernel
  have l2 : rp6.ctl.spConstr = [2, 0] := by decide +kernel
  have l3 : m7.ctl.spCost = [0, 1] := by decide +kernel
  have l4 : rp6.ctl.spCost = [1, 0] := by decide +kernel
  refine ⟨rfl, rfl, rfl, rfl, rfl, rfl, ?_, ?_, ?_, ?_⟩
  · rw [l1, l2]
    simp only [List.map_cons, List.map_nil, consA 0 (.inl rfl), consA 2 (.inr rfl)]
    exact .swap _ _ _
  · rw [l3, l4]
    simp only [List.map_cons, List.map_nil, costsA 0 (.inl rfl), costsA 1 (.inr rfl)]
    exact .swap _ _ _
  · rw [l1]
    intro i hi
    simp only [List.mem_cons, List.not_mem_nil, or_false] at hi
    rcases hi with rfl | rfl <;> rfl
  · rw [l3]
    intro i hi
    simp only [List.mem_cons, List.not_mem_nil, or_false] at hi
    rcases hi with rfl | rfl <;> rfl

/-- C70 applies, with any two back ends: the second controller answers the rest of the first plan. -/
example (k1 k2 : SolverKind) (junk1 junk2 : Junk ℚ) :
    (∀ j < 1, rR.1.ctl.control.e j = rA.1.ctl.control.e (1 + j)) ∧
    ∀ k ≤ 1, ∀ r < 2, rR.1.ctl.trajectory.e (k * 2 + r) = rA.1.ctl.trajectory.e ((k + 1) * 2 + r) := by
  obtain ⟨g1, h1, f1, c1⟩ := hm7
  obtain ⟨g2, h2, f2, c2⟩ := hrp6
  have o1 : OpOk d m7 g1 (.solve (env yA true)) :=
    ⟨(by decide +kernel : m7.ctl.ps ≠ none), contract rfl
      (fun h => absurd (congrArg Option.isSome h) (by decide +kernel : m7.ctl.sol.isSome ≠ false)) (by decide +kernel)⟩
  have i2 : rp6.ctl.isInit = false := by decide +kernel
  have o2 : OpOk dR rp6 g2 (.solve envR) :=
    ⟨(by decide +kernel : rp6.ctl.ps ≠ none),
      (fun h => absurd (congrArg Option.isSome h) (by decide +kernel : rp6.ctl.sol.isSome ≠ false)),
      (fun q _ _ => by
        show (if q.nrVar = 1 then yR else Vec.zero q.nrVar).rows = q.nrVar
        split
        · next h => rw [h]; rfl
        · rfl), fun h => by rw [i2] at h; cases h⟩
  have PA := psd_of_pd (c29_hessian h1 (fun _ _ h => h.2.1) o1 (by decide +kernel) sA)
  have PB := psd_of_pd (c29_hessian h2 (fun _ _ h => h.2.1) o2 (by decide +kernel) sR)
  rw [(by decide +kernel : rA.2.2.nrVar = rA.2.2.c.rows)] at PA
  rw [(by decide +kernel : rR.2.2.nrVar = rR.2.2.c.rows)] at PB
  refine c70_replanning h1 h2 (fun _ _ h => h.1) (fun _ _ h => ⟨h.1, h.2.1⟩) o1 o2 (p1 := 0) (p2 := 0) (by decide +kernel)
    (by decide +kernel) (by decide +kernel) i2 remainingA ?_ ?_ (fun _ => c1) (fun _ => c2) ?_ ?_ sA sR (by decide +kernel)
    (by decide +kernel) (backEndOptimal_of (k := k1) (junk := junk1) (by decide +kernel) (by decide +kernel) (by decide +kernel)
      (optimal_of_stationary PA (by decide +kernel) (by decide +kernel)))
    (backEndOptimal_of (k := k2) (junk := junk2) (by decide +kernel) (by decide +kernel) (by decide +kernel)
      (optimal_of_stationary PB (by decide +kernel) (by decide +kernel)))
    (by decide +kernel) (fun _ => by decide +kernel) (fun _ => by decide +kernel)
  · intro i hi hps
    rw [(by decide +kernel : m7.ctl.spCost = [0, 1])] at hi ⊢
    simp only [List.mem_cons, List.not_mem_nil, or_false] at hi
    rcases hi with rfl | rfl
    · exact ⟨f1, rfl⟩
    · unfold Cost.userData at hps
      rw [(by decide +kernel : (m7.costs 1).kind = .control)] at hps
      exact hps.elim
  · intro i hi hps
    rw [(by decide +kernel : rp6.ctl.spCost = [1, 0])] at hi ⊢
    simp only [List.mem_cons, List.not_mem_nil, or_false] at hi
    rcases hi with rfl | rfl
    · unfold Cost.userData at hps
      rw [(by decide +kernel : (rp6.costs 1).kind = .control)] at hps
      exact hps.elim
    · exact ⟨f2, rfl⟩
  · intro i hi
    rw [(by decide +kernel : m7.ctl.spConstr = [0, 2])] at hi
    simp only [List.mem_cons, List.not_mem_nil, or_false] at hi
    rcases hi with rfl | rfl <;> exact trivial
  · intro i hi
    rw [(by decide +kernel : rp6.ctl.spConstr = [2, 0])] at hi
    simp only [List.mem_cons, List.not_mem_nil, or_false] at hi
    rcases hi with rfl | rfl <;> exact trivial

end Ex
end Copra
