import Verif.Props.NowMore
import Verif.Props.AssignThenExamples
import Verif.Props.SuppliedInitExamples

/-! # Programs that meet the hypotheses of the theorems in `NowMore` -/

namespace Copra
open Spec

set_option linter.unusedSectionVars false
set_option maxRecDepth 100000

namespace Ex
open World

/-- C102 applies: the problem with the supplied matrices has exactly one minimiser. -/
example : PD spR.2.2.nrVar spR.2.2.Q ∧ ∀ x, IsOptimal spR.2.2 x → ∀ j < spR.2.2.nrVar, x j = xF.e j := by
  have K := c102_unique_minimiser spH (fun _ _ h => ⟨h.1, h.2.1⟩) spO (by decide +kernel)
    (fun h => absurd h (by decide +kernel)) honest12 freshF spS (by decide +kernel) mixedF
  exact ⟨K.1, fun x hx => K.2.1 _ _ hx optimalF⟩

/-- C102 applies with every back end. -/
example (k : SolverKind) (junk : Junk ℚ) :=
  c102_end_to_end (k := k) (junk := junk) spH (fun _ _ h => h.1) spO (by decide +kernel)
    (fun h => absurd h (by decide +kernel)) honest12 freshF spS (by decide +kernel) mixedF (by decide +kernel)
    (backEndOptimal_of (by decide +kernel) (by decide +kernel) (by decide +kernel) optimalF)

example (k : SolverKind) (junk : Junk ℚ) :=
  c102_init_end_to_end (k := k) (junk := junk) siH10 (fun _ _ h => h.1) siO10 (by decide +kernel) (fun _ => trivial)
    honestJ7 freshJ7 siS10 (by decide +kernel : si10.ctl.ps = some 0) (fun _ _ => delayF) (by decide +kernel)
    (backEndOptimal_of (by decide +kernel) (by decide +kernel) (by decide +kernel) siOpt)

/-- A second drift, assigned alone to the system that is up to date. -/
def vXi' : Vec ℚ := vec [0, 0, 1, 1, 2, 2]
def sp5 : World ℚ := match sp4.sstep 1000 (.writeXi 0 vXi') with | .ok w => w | _ => sp4
def sp5R : World ℚ × Bool × QP ℚ := (sp5.solve optF).getD (sp5, false, q13)

theorem sp5S : sp5.solve optF = some (sp5R.1, true, sp5R.2.2) := by
  obtain ⟨r, hr⟩ := Option.isSome_iff_exists.1 (by decide +kernel : (sp5.solve optF).isSome = true)
  have h1 : sp5R = r := by unfold sp5R; rw [hr]; rfl
  have h2 : sp5R.2.1 = true := by decide +kernel
  rw [hr, ← h2, h1]

example : IsStacked d (predicted d vPhi vPsi vXi' (sp4.pss 0).x0.e sp5R.1.ctl.control.e) sp5R.1.ctl.trajectory :=
  (c102_replace_one spH (hasF sp4 (by decide +kernel)) (by decide +kernel) (by decide +kernel) spO (by decide +kernel)).2.2
    vXi' ⟨rfl, by decide +kernel⟩ rfl sp5S

example : sp5R.1.ctl.trajectory.e 4 ≠ spR.1.ctl.trajectory.e 4 := by decide +kernel

/-- A system that is not up to date: the matrix assigned is ignored. -/
def sp1R : World ℚ × Bool × QP ℚ := (sp1.solve optF).getD (sp1, false, q13)

theorem sp1S : sp1.solve optF = some (sp1R.1, true, sp1R.2.2) := by
  obtain ⟨r, hr⟩ := Option.isSome_iff_exists.1 (by decide +kernel : (sp1.solve optF).isSome = true)
  have h1 : sp1R = r := by unfold sp1R; rw [hr]; rfl
  have h2 : sp1R.2.1 = true := by decide +kernel
  rw [hr, ← h2, h1]

example : IsStacked d (Spec.traj d w12 0 sp1R.1.ctl.control.e) sp1R.1.ctl.trajectory :=
  c102_replace_stale (op := .writePhi 0 vPhi) (Spec.Hist.supplying h12) ⟨hasF w12 (by decide +kernel), fitsF.1⟩
    (by decide +kernel) (Or.inl ⟨_, rfl⟩) (by decide +kernel) spO (by decide +kernel) rfl sp1S

theorem asMixed : MixedSuits dA as9 0 := by
  rintro ⟨i, hi, h⟩
  rw [(by decide +kernel : as9.ctl.spConstr = [0])] at hi
  rw [List.mem_singleton.1 hi] at h
  exact h.elim

/-- C103 applies: the problem after the assignments has exactly one minimiser. -/
example : PD asR.2.2.nrVar asR.2.2.Q ∧ ∀ x, IsOptimal asR.2.2 x → ∀ j < asR.2.2.nrVar, x j = aX.e j := by
  have K := c103_unique_minimiser asH9 (fun _ _ h => ⟨h.1, h.2.1⟩) asO (by decide +kernel)
    (fun _ => ⟨trivial, by decide +kernel⟩) asHonest asFresh asS (by decide +kernel) asMixed
  exact ⟨K.1, fun x hx => K.2.1 _ _ hx asOptimal⟩

/-- C103 applies with every back end. -/
example (k : SolverKind) (junk : Junk ℚ) :=
  c103_end_to_end (k := k) (junk := junk) asH9 (fun _ _ h => h.1) asO (by decide +kernel)
    (fun _ => ⟨trivial, by decide +kernel⟩) asHonest asFresh asS (by decide +kernel) asMixed (by decide +kernel)
    (backEndOptimal_of (by decide +kernel) (by decide +kernel) (by decide +kernel) asOptimal)

example (k : SolverKind) (junk : Junk ℚ) :=
  c103_init_end_to_end (k := k) (junk := junk) (Spec.SHist.assigning siH10) (fun _ _ h => h.1) siO10 (by decide +kernel)
    (fun _ => trivial) honestJ7 freshJ7 siS10 (by decide +kernel : si10.ctl.ps = some 0) (fun _ _ => delayF) (by decide +kernel)
    (backEndOptimal_of (by decide +kernel) (by decide +kernel) (by decide +kernel) siOpt)

end Ex
end Copra
