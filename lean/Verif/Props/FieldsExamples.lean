import Verif.Props.Fields
import Verif.Props.EndToEndExamples

/-! # C96 on a concrete program

The program of `ExWorld`, brought up to date with `updateSystem()`; then the client assigns `ps->A` and forgets
`isUpdated = false`. -/

namespace Copra
open Spec

set_option linter.unusedSectionVars false
set_option maxRecDepth 100000

/-- Programs without assignments are a special case. -/
theorem Spec.Hist.assigning {K : Type} [Field K] {d : Dims} {dmax : K} {E : World K → Op K → Prop} {w : World K} {g : Ghost}
    (h : Hist d dmax E w g) : ∃ v, FHist d dmax E w g v := by
  induction h with
  | start hi => exact ⟨fun _ => ⟨Mat.empty, Mat.empty, Vec.zero 0⟩, .start hi⟩
  | @ok w w' g op _ ho he hs ih => obtain ⟨v, hv⟩ := ih; exact ⟨_, FHist.ok (op := .call op) hv ho he hs⟩
  | @thrown w w' g op e _ ho he hs ih => obtain ⟨v, hv⟩ := ih; exact ⟨_, FHist.thrown (op := .call op) hv ho he hs⟩

namespace Ex
open World

theorem blind_careful : BlindToMembers Careful where
  blind := fun w pss op h => by cases op <;> exact h
  assign := fun _ _ _ _ _ => ⟨trivial, trivial, trivial⟩
  start := fun _ _ _ => ⟨trivial, trivial, trivial⟩

/-- The matrix the client assigns. -/
def newA : Mat ℚ := mat 2 2 [[1, 5], [0, 2]]

def e1 := after 1000 w12 (.updatePs 0)
/-- `ps->A = newA`, without `isUpdated = false`. -/
def e2 : World ℚ := { e1 with pss := upd e1.pss 0 { e1.pss 0 with A := newA } }
/-- `ps->isUpdated = false`. -/
def e3 : World ℚ := { e2 with pss := upd e2.pss 0 { e2.pss 0 with isUpdated := false } }

def rE2 : World ℚ × Bool × QP ℚ := (e2.solve opt).getD (e2, false, q13)
def rE3 : World ℚ × Bool × QP ℚ := (e3.solve opt).getD (e3, false, q13)

theorem sE2 : e2.solve opt = some (rE2.1, true, rE2.2.2) := by
  obtain ⟨r, hr⟩ := Option.isSome_iff_exists.1 (by decide +kernel : (e2.solve opt).isSome = true)
  have h1 : rE2 = r := by unfold rE2; rw [hr]; rfl
  have h2 : rE2.2.1 = true := by decide +kernel
  rw [hr, ← h2, h1]

theorem sE3 : e3.solve opt = some (rE3.1, true, rE3.2.2) := by
  obtain ⟨r, hr⟩ := Option.isSome_iff_exists.1 (by decide +kernel : (e3.solve opt).isSome = true)
  have h1 : rE3 = r := by unfold rE3; rw [hr]; rfl
  have h2 : rE3.2.1 = true := by decide +kernel
  rw [hr, ← h2, h1]

theorem hasE (q : World ℚ) (h : 0 < (q.pss 0).nrUStep) : HasSystem q 0 := h

/-- What the program remembers, and that it is one of the programs of C96. -/
theorem hE : ∃ v, FHist d 1000 Careful e2 g12 v ∧ FHist d 1000 Careful e3 g12 v ∧ v 0 = members (w12.pss 0) := by
  obtain ⟨v, hv⟩ := Spec.Hist.assigning h12
  have s1 := FHist.ok (op := .call (.updatePs 0)) hv (hasE w12 (by decide +kernel)) ⟨trivial, trivial, trivial⟩
    (okB_step (by decide +kernel : okB 1000 w12 (.updatePs 0) = true))
  have s2 := FHist.ok (op := .writeA 0 newA) s1 ⟨hasE e1 (by decide +kernel), rfl, rfl⟩ trivial rfl
  have s3 := FHist.ok (op := .markStale 0) s2 (hasE e2 (by decide +kernel)) trivial rfl
  exact ⟨_, s2, s3, rfl⟩

theorem consE2 : e2.cons = w12.cons := by
  have h : w12.step 1000 (.updatePs 0) = .ok e1 := okB_step (by decide +kernel : okB 1000 w12 (.updatePs 0) = true)
  simp only [step, Res.map_ok] at h
  obtain ⟨s, _, e⟩ := h
  show e1.cons = w12.cons
  rw [← e]

theorem ctlE1 : e1.ctl = w12.ctl := by
  have h : w12.step 1000 (.updatePs 0) = .ok e1 := okB_step (by decide +kernel : okB 1000 w12 (.updatePs 0) = true)
  simp only [step, Res.map_ok] at h
  obtain ⟨s, _, e⟩ := h
  rw [← e]

/-- The dynamics in force at `e2` are still those of `system()`, although `ps->A` reads back as `newA`; at `e3` they are
the assigned ones. -/
example : ∃ v, FHist d 1000 Careful e2 g12 v ∧ (e2.pss 0).A = newA ∧ MatEq (inForce e2 v 0).A (mat 2 2 [[1, 1], [0, 1]]) ∧
    (inForce e3 v 0).A = newA := by
  obtain ⟨v, h2, _, hv⟩ := hE
  refine ⟨v, h2, rfl, ?_, rfl⟩
  have : inForce e2 v 0 = members (w12.pss 0) := by
    unfold inForce
    rw [if_pos (by decide +kernel), hv]
  rw [this]
  show MatEq (w12.pss 0).A _
  decide +kernel

/-- So the forgotten flag means that the old problem is solved; with it the problem is another one. -/
example : QPEq rE2.2.2 q13 ∧ ¬ QPEq rE3.2.2 q13 := by decide +kernel

/-- C96 applies at `e2`. -/
theorem oE2 : OpOk d e2 g12 (.solve opt) :=
  ⟨(by decide +kernel : e2.ctl.ps ≠ none), contract rfl
    (fun h => absurd (congrArg Option.isSome h) (by decide +kernel : e2.ctl.sol.isSome ≠ false)) (by decide +kernel : e2.ctl.isInit = false)⟩

theorem optE2 : IsOptimal rE2.2.2 (opt.answer rE2.2.2).2.e := by
  obtain ⟨v, h2, _⟩ := hE
  refine optimal_of_stationary ?_ (by decide +kernel) (by decide +kernel)
  have P := psd_of_pd (c29_hessian (c96_history h2 blind_careful) (fun _ _ h => h.2.1) (opOk_showing v oE2)
    (by decide +kernel : e2.ctl.isInit = false) (showing_solved sE2))
  rw [(by decide +kernel : rE2.2.2.nrVar = rE2.2.2.c.rows)] at P
  exact P

example : ∃ v, FHist d 1000 Careful e2 g12 v ∧
    (∀ i ∈ e2.ctl.spConstr, (e2.cons i).userData.Holds d (trajInForce d e2 v 0 rE2.1.ctl.control.e) rE2.1.ctl.control.e) ∧
    IsStacked d (trajInForce d e2 v 0 rE2.1.ctl.control.e) rE2.1.ctl.trajectory := by
  obtain ⟨v, h2, _⟩ := hE
  have hi : e2.ctl.isInit = false := by decide +kernel
  have hp : e2.ctl.ps = some 0 := by decide +kernel
  have hb : e2.ctl.spBoundConstr = [] → g12.clean := fun h => absurd h (by decide +kernel)
  have hh : ∀ i ∈ e2.ctl.spConstr, (e2.cons i).userData.Honest := by
    have c : e2.ctl = w12.ctl := ctlE1
    rw [consE2, c]
    exact honest12
  have hf : CostsFresh d e2 g12 := by
    intro i hi _
    rw [(by decide +kernel : e2.ctl.spCost = [0, 1, 2, 3])] at hi ⊢
    simp only [List.mem_cons, List.not_mem_nil, or_false] at hi
    refine ⟨?_, ?_⟩
    · show (((False ∨ (True ∧ i = 0)) ∨ (True ∧ i = 1)) ∨ (True ∧ i = 2)) ∨ (True ∧ i = 3)
      tauto
    · rcases hi with rfl | rfl | rfl | rfl <;> rfl
  exact ⟨v, h2, (c96_optimum h2 blind_careful (fun _ _ h => h.1) oE2 hi hb hh hf sE2 hp optE2).1,
    c96_trajectory h2 blind_careful oE2 hi sE2 hp⟩

end Ex
end Copra
