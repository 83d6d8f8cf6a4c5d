import Verif.Props.AssignThen
import Verif.Props.AssignExamples

/-! # The programs of `SuppliedExamples` and `AssignExamples` meet the hypotheses of the theorems in `AssignThen` -/

namespace Copra
open Spec

set_option linter.unusedSectionVars false
set_option maxRecDepth 100000

namespace Ex
open World

/-- Four assignments and a solve. -/
example :
    IsStacked d (simVarying d vA vB vV (w12.pss 0).x0.e spR.1.ctl.control.e) spR.1.ctl.trajectory ∧
    ∀ i ∈ w12.ctl.spConstr, (w12.cons i).userData.Holds d
      (simVarying d vA vB vV (w12.pss 0).x0.e spR.1.ctl.control.e) spR.1.ctl.control.e := by
  have K := c102_supply_then_solve (Spec.Hist.supplying h12) (fun _ _ h => h.1) (hasF w12 (by decide +kernel))
    (by decide +kernel) vVarying ⟨rfl, rfl⟩ ⟨rfl, rfl⟩ rfl (dmax := 1000)
    (show w12.sstep 1000 (.writePhi 0 vPhi) = .ok sp1 from rfl) (show sp1.sstep 1000 (.writePsi 0 vPsi) = .ok sp2 from rfl)
    (show sp2.sstep 1000 (.writeXi 0 vXi) = .ok sp3 from rfl) (show sp3.sstep 1000 (.markUpdated 0) = .ok sp4 from rfl)
    spS spO (by decide +kernel) (fun h => absurd h (by decide +kernel)) honest12 freshF (fun _ => delayF) optimalF
  exact ⟨K.1, K.2.1⟩

theorem as8H : EHist dA 1000 Careful as8 (ag7.copyConstr 0 1) := by
  refine .assignConstr (Spec.SHist.assigning (Spec.Hist.supplying asH7)) ⟨by decide +kernel, fun _ => Or.inr ⟨trivial, rfl⟩,
    fun _ => by decide +kernel, ?_⟩
  show rowsOf as8 .equality ≤ intMax ∧ rowsOf as8 .inequality ≤ intMax
  decide +kernel

theorem as8May : MayAssignConstr as7 ag7 0 1 := by
  refine ⟨by decide +kernel, fun _ => Or.inr ⟨trivial, rfl⟩, fun _ => by decide +kernel, ?_⟩
  show rowsOf as8 .equality ≤ intMax ∧ rowsOf as8 .inequality ≤ intMax
  decide +kernel

def as8R : World ℚ × Bool × QP ℚ := (as8.solve aOpt).getD (as8, false, q13)

theorem as8S : as8.solve aOpt = some (as8R.1, as8R.2.1, as8R.2.2) := by
  obtain ⟨r, hr⟩ := Option.isSome_iff_exists.1 (by decide +kernel : (as8.solve aOpt).isSome = true)
  have h1 : as8R = r := by unfold as8R; rw [hr]; rfl
  rw [hr, ← h1]

theorem as7O {g : Ghost} : OpOk dA as7 g (.solve aOpt) :=
  ⟨(by decide +kernel : as7.ctl.ps ≠ none), contractA rfl
    (fun h => absurd (congrArg Option.isSome h) (by decide +kernel : as7.ctl.sol.isSome ≠ false))
    (by decide +kernel : as7.ctl.isInit = false)⟩

theorem aHonest : (as7.cons 1).userData.Honest := by
  have hk : (as7.cons 1).kind = .trajectory := by decide +kernel
  unfold Constr.userData
  rw [hk]
  trivial

/-- The constraint is replaced: `x ≤ 5` by `0 ≤ x ≤ 10`. -/
example (U : Nat → ℚ) : Feasible as8R.2.2 U ↔
    (∀ k ∈ as7.ctl.spConstr, (k = 0 → (as7.cons 1).userData.Holds dA (trajNow dA as7 0 U) U) ∧
      (k ≠ 0 → (as7.cons k).userData.Holds dA (trajNow dA as7 0 U) U)) ∧
    (as7.ctl.spBoundConstr = [] → ∀ l < dA.m * dA.N, -1000 ≤ U l ∧ U l ≤ 1000) :=
  c103_assign_constraint_then_solve (Spec.SHist.assigning (Spec.Hist.supplying asH7)) (fun _ _ h => h.1) as8May as7O
    (by decide +kernel) (fun _ => ⟨trivial, by decide +kernel⟩) aHonest
    (fun k hk hn => by rw [(by decide +kernel : as7.ctl.spConstr = [0])] at hk; exact absurd (List.mem_singleton.1 hk) hn)
    as8S (by decide +kernel)
    (by rintro ⟨i, hi, h⟩; rw [(by decide +kernel : (as7.copyConstr 0 1).ctl.spConstr = [0])] at hi
        rw [List.mem_singleton.1 hi] at h; exact h.elim) U

/-- The target cost is replaced by one that was just constructed. -/
example : ∃ k : ℚ, ∀ U : Nat → ℚ, objective asR.2.2 U =
      1 / 2 * (as8.ctl.spCost.map fun l =>
        (if l = 0 then (as8.costs 2).userData else (as8.costs l).userData).value dA (trajNow dA as8 0 U) U).sum
      + 1 / 2 * (1 / 1000000) * ∑ l ∈ Finset.range (dA.m * dA.N), U l ^ 2 + k :=
  c103_assign_cost_then_solve as8H
    ⟨by decide +kernel, fun _ => Or.inr ⟨by decide +kernel, by decide +kernel, by decide +kernel⟩⟩ (as7O (g := ag7.copyConstr 0 1))
    (by decide +kernel) asFresh asS (by decide +kernel)

/-- The preview system is replaced by another one. -/
def aSys1 : Op ℚ := .system 1 (mat 1 1 [[2]]) (mat 1 1 [[1]]) (vec [1]) (vec [3]) 2
def as10 := after 1000 as9 aSys1
def as11 : World ℚ := as10.copyPs 0 1
def as11R : World ℚ × Bool × QP ℚ := (as11.solve aOpt).getD (as11, false, q13)

theorem as11S : as11.solve aOpt = some (as11R.1, true, as11R.2.2) := by
  obtain ⟨r, hr⟩ := Option.isSome_iff_exists.1 (by decide +kernel : (as11.solve aOpt).isSome = true)
  have h1 : as11R = r := by unfold as11R; rw [hr]; rfl
  have h2 : as11R.2.1 = true := by decide +kernel
  rw [hr, ← h2, h1]

theorem as10S : as9.step 1000 aSys1 = .ok as10 := okB_step (by decide +kernel : okB 1000 as9 aSys1 = true)

theorem as10H : EHist dA 1000 Careful as10 (ag9.snext as9 True (.other (.call aSys1))) :=
  EHist.ok (op := .other (.call aSys1)) asH9 ⟨rfl, rfl, rfl⟩ ⟨trivial, trivial, trivial⟩
    as10S (fun h => h.elim)

theorem as10O {g : Ghost} : OpOk dA as10 g (.solve aOpt) :=
  ⟨(by decide +kernel : as10.ctl.ps ≠ none), contractA rfl
    (fun h => absurd (congrArg Option.isSome h) (by decide +kernel : as10.ctl.sol.isSome ≠ false))
    (by decide +kernel : as10.ctl.isInit = false)⟩

theorem as10Honest : ∀ i ∈ as10.ctl.spConstr, (as10.cons i).userData.Honest := by
  intro i hi
  rw [(by decide +kernel : as10.ctl.spConstr = [0])] at hi
  rw [List.mem_singleton.1 hi]
  have hk : (as10.cons 0).kind = .trajectory := by decide +kernel
  unfold Constr.userData
  rw [hk]
  trivial

example : IsStacked dA (trajNow dA as10 1 as11R.1.ctl.control.e) as11R.1.ctl.trajectory ∧
    ∀ U, (Feasible as11R.2.2 U ↔
      (∀ i ∈ as10.ctl.spConstr, (as10.cons i).userData.Holds dA (trajNow dA as10 1 U) U) ∧
      (as10.ctl.spBoundConstr = [] → ∀ j < dA.m * dA.N, -1000 ≤ U j ∧ U j ≤ 1000)) := by
  have hr : HasSystem as10 1 := (by decide +kernel : 0 < (as10.pss 1).nrUStep)
  have hm : MixedSuits dA as10 1 := by
    rintro ⟨i, hi, h⟩; rw [(by decide +kernel : as10.ctl.spConstr = [0])] at hi
    rw [List.mem_singleton.1 hi] at h; exact h.elim
  exact ⟨(c103_assign_system_then_solve as10H hr as10O (by decide +kernel) as11S (by decide +kernel)).2.2,
    fun U => c103_assign_system_feasible as10H (fun _ _ h => h.1) hr as10O (by decide +kernel)
      (fun _ => ⟨trivial, by decide +kernel⟩) as10Honest as11S (by decide +kernel) hm U⟩

/-- The trajectory starts at the initial state of the other system. -/
example : as11R.1.ctl.trajectory.e 0 = 3 ∧ as11R.1.ctl.trajectory.e 1 = 2 * 3 + aX.e 0 + 1 := by decide +kernel

end Ex
end Copra
