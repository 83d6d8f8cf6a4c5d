import Verif.Props.SuppliedInit
import Verif.Props.SuppliedExamples
import Verif.Props.EndToEndExamples

/-! # C102 for an `InitialStateLMPC`, on a concrete program -/

namespace Copra
open Spec

set_option linter.unusedSectionVars false
set_option maxRecDepth 100000

namespace Ex
open World

/-- The assignments of `SuppliedExamples`, in the program of `InitExamples`. -/
def si1 : World ℚ := { i5 with pss := upd i5.pss 0 { i5.pss 0 with Phi := vPhi } }
def si2 : World ℚ := { si1 with pss := upd si1.pss 0 { si1.pss 0 with Psi := vPsi } }
def si3 : World ℚ := { si2 with pss := upd si2.pss 0 { si2.pss 0 with xi := vXi } }
def si4 : World ℚ := { si3 with pss := upd si3.pss 0 { si3.pss 0 with isUpdated := true } }

theorem siH : SHist d 1000 Careful si4 gI := by
  have s1 := SHist.ok (op := .writePhi 0 vPhi) (Spec.Hist.supplying hi5) ⟨hasF i5 (by decide +kernel), fitsF.1⟩ trivial rfl
  have s2 := SHist.ok (op := .writePsi 0 vPsi) s1 ⟨hasF si1 (by decide +kernel), fitsF.2.1⟩ trivial rfl
  have s3 := SHist.ok (op := .writeXi 0 vXi) s2 ⟨hasF si2 (by decide +kernel), fitsF.2.2⟩ trivial rfl
  exact SHist.ok (op := .markUpdated 0) s3 (hasF si3 (by decide +kernel)) trivial rfl

theorem siO : OpOk d si4 gI (.solve (envI yI true)) :=
  ⟨(by decide +kernel : si4.ctl.ps ≠ none), contractI rfl (by decide +kernel) (by decide +kernel)⟩

def siR : World ℚ × Bool × QP ℚ := (si4.solve (envI yI true)).getD (si4, false, q13)

theorem siS : si4.solve (envI yI true) = some (siR.1, true, siR.2.2) := by
  obtain ⟨r, hr⟩ := Option.isSome_iff_exists.1 (by decide +kernel : (si4.solve (envI yI true)).isSome = true)
  have h1 : siR = r := by unfold siR; rw [hr]; rfl
  have h2 : siR.2.1 = true := by decide +kernel
  rw [hr, ← h2, h1]

theorem siM : MixedSuits d si4 0 := fun _ _ => delayF

/-- The statements on constraints, costs and results apply. -/
example :
    (∀ x U, Feasible siR.2.2 (joined d x U) ↔
      (∀ i ∈ si4.ctl.spConstr, (si4.cons i).userData.Holds d (predNow d (si4.pss 0) x U) U) ∧
      InitBounds d si4.ctl x ∧ (si4.ctl.spBoundConstr = [] → ∀ j < d.m * d.N, -1000 ≤ U j ∧ U j ≤ 1000)) ∧
    (∀ x, ∃ k : ℚ, ∀ U, objective siR.2.2 (joined d x U) = totalCostNowFrom d si4 0 x U + k) ∧
    ∃ x : Vec ℚ, siR.1.ctl.initialState (siR.1.pss 0) = some x ∧
      IsStacked d (predNow d (si4.pss 0) x.e siR.1.ctl.control.e) siR.1.ctl.trajectory := by
  have hi : si4.ctl.isInit = true := by decide +kernel
  have hp : si4.ctl.ps = some 0 := by decide +kernel
  have hb : si4.ctl.spBoundConstr = [] → gI.clean := fun _ => trivial
  have hh : ∀ i ∈ si4.ctl.spConstr, (si4.cons i).userData.Honest := honestI5
  refine ⟨c102_init_feasible siH (fun _ _ h => h.1) siO hi hb hh siS hp siM,
    c102_init_objective siH siO hi freshI5 siS hp, ?_⟩
  obtain ⟨x, h1, _, _, _, _, h6⟩ := c102_init_trajectory siH siO hi siS hp
  exact ⟨x, h1, h6⟩

/-- The predicted last state is that of the time-varying system: `1 + 3 * 0 + 2 * (-1/2) + 1`. -/
example : siR.1.ctl.trajectory.e 4 = 1 ∧ siR.1.ctl.trajectory.e 5 = 0 := by decide +kernel

/-! The same with `R = I`, `r = (9/10, 3)` and initial states between -5 and 5, where the minimiser is unconstrained. -/

def si5 := after 1000 i5 (.resetInitialStateCost (mat 2 2 [[1, 0], [0, 1]]) (vec [9/10, 3]))
def si6 := after 1000 si5 (.resetInitialStateBounds (evec [.fin (-5), .fin (-5)]) (evec [.fin 5, .fin 5]))
def si7 : World ℚ := { si6 with pss := upd si6.pss 0 { si6.pss 0 with Phi := vPhi } }
def si8 : World ℚ := { si7 with pss := upd si7.pss 0 { si7.pss 0 with Psi := vPsi } }
def si9 : World ℚ := { si8 with pss := upd si8.pss 0 { si8.pss 0 with xi := vXi } }
def si10 : World ℚ := { si9 with pss := upd si9.pss 0 { si9.pss 0 with isUpdated := true } }

theorem siH10 : SHist d 1000 Careful si10 gI := by
  have a := hist_after (op := .resetInitialStateCost (mat 2 2 [[1, 0], [0, 1]]) (vec [9/10, 3])) hi5 trivial
    ⟨trivial, trivial, trivial⟩ (by decide +kernel : okB 1000 i5 _ = true)
  have b := hist_after (op := .resetInitialStateBounds (evec [.fin (-5), .fin (-5)]) (evec [.fin 5, .fin 5])) a trivial
    ⟨trivial, trivial, trivial⟩ (by decide +kernel : okB 1000 si5 _ = true)
  have s1 := SHist.ok (op := .writePhi 0 vPhi) (Spec.Hist.supplying b) ⟨hasF si6 (by decide +kernel), fitsF.1⟩ trivial rfl
  have s2 := SHist.ok (op := .writePsi 0 vPsi) s1 ⟨hasF si7 (by decide +kernel), fitsF.2.1⟩ trivial rfl
  have s3 := SHist.ok (op := .writeXi 0 vXi) s2 ⟨hasF si8 (by decide +kernel), fitsF.2.2⟩ trivial rfl
  exact SHist.ok (op := .markUpdated 0) s3 (hasF si9 (by decide +kernel)) trivial rfl

/-- The minimiser. -/
def ySI : Vec ℚ := vec [-5000023000009 / 50000070000010, -1000005000003 / 5000007000001, -1999975399948599976200000 / 25000070000059000014000001, 7000000399999200003000000 / 25000070000059000014000001]

theorem siO10 : OpOk d si10 gI (.solve (envI ySI true)) :=
  ⟨(by decide +kernel : si10.ctl.ps ≠ none), contractI rfl (by decide +kernel) (by decide +kernel)⟩

def siR10 : World ℚ × Bool × QP ℚ := (si10.solve (envI ySI true)).getD (si10, false, q13)

theorem siS10 : si10.solve (envI ySI true) = some (siR10.1, true, siR10.2.2) := by
  obtain ⟨r, hr⟩ := Option.isSome_iff_exists.1 (by decide +kernel : (si10.solve (envI ySI true)).isSome = true)
  have h1 : siR10 = r := by unfold siR10; rw [hr]; rfl
  have h2 : siR10.2.1 = true := by decide +kernel
  rw [hr, ← h2, h1]

theorem siOpt : IsOptimal siR10.2.2 ((envI ySI true).answer siR10.2.2).2.e := by
  refine optimal_of_stationary ?_ (by decide +kernel) (by decide +kernel)
  rw [(by decide +kernel : siR10.2.2.c.rows = 4)]
  refine ⟨by unfold Spec.Symmetric; decide +kernel, fun x => ?_⟩
  have e : ∀ i < 4, ∀ j < 4, siR10.2.2.Q.e i j = (mat 4 4 
    [[9000011000001 / 5000007000001, 14000016000000 / 5000007000001, 2, 0],
     [14000016000000 / 5000007000001, 59000072000001 / 5000007000001, 8, 1], [2, 8, 6000001 / 1000000, 1],
     [0, 1, 1, 1000001 / 1000000]]).e i j := by decide +kernel
  have k : ∀ i < 4, ∀ j < 4, x i * siR10.2.2.Q.e i j * x j = x i * (mat 4 4 
    [[9000011000001 / 5000007000001, 14000016000000 / 5000007000001, 2, 0],
     [14000016000000 / 5000007000001, 59000072000001 / 5000007000001, 8, 1], [2, 8, 6000001 / 1000000, 1],
     [0, 1, 1, 1000001 / 1000000]]).e i j * x j := fun i hi j hj => by rw [e i hi j hj]
  rw [Finset.sum_congr rfl fun i hi => Finset.sum_congr rfl fun j hj => k i (Finset.mem_range.1 hi) j (Finset.mem_range.1 hj)]
  simp only [Finset.sum_range_succ, Finset.sum_range_zero, zero_add]
  show 0 ≤ _
  simp only [mat]
  norm_num
  nlinarith [sq_nonneg (x 0), sq_nonneg (x 1),
    sq_nonneg (x 2 + (1000001000000 * (2 * x 0 + 8 * x 1) - 1000000000000 * x 1) / 5000007000001),
    sq_nonneg (x 3 + (6000001000000 * x 1 - 1000000000000 * (2 * x 0 + 8 * x 1)) / 5000007000001),
    sq_nonneg ((x 2 + (1000001000000 * (2 * x 0 + 8 * x 1) - 1000000000000 * x 1) / 5000007000001) +
      (x 3 + (6000001000000 * x 1 - 1000000000000 * (2 * x 0 + 8 * x 1)) / 5000007000001))]

/-- The statement on optima applies. -/
example := c102_init_optimum siH10 (fun _ _ h => h.1) siO10 (by decide +kernel) (fun _ => trivial) honestJ7 freshJ7 siS10
  (by decide +kernel : si10.ctl.ps = some 0) (fun _ _ => delayF) siOpt

end Ex
end Copra
