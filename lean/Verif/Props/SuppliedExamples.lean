import Verif.Props.Supplied
import Verif.Props.EndToEndExamples

/-! # C102 on concrete programs

The program of `ExWorld`, with the prediction matrices of a time-varying system assigned to `Phi`, `Psi`, `xi` and
`isUpdated = true`; and two programs that show why the rules are there. -/

namespace Copra
open Spec

set_option linter.unusedSectionVars false
set_option maxRecDepth 100000

/-- Programs without assignments are a special case. -/
theorem Spec.Hist.supplying {K : Type} [Field K] {d : Dims} {dmax : K} {E : World K → Op K → Prop} {w : World K} {g : Ghost}
    (h : Hist d dmax E w g) : SHist d dmax E w g := by
  induction h with
  | start hi => exact .start hi
  | @ok w w' g op _ ho he hs ih => exact SHist.ok (op := .other (.call op)) ih ho he hs
  | @thrown w w' g op e _ ho he hs ih => exact SHist.thrown (op := .other (.call op)) ih ho he hs

namespace Ex
open World

/-- `x_1 = A_0 x_0 + B u_0`, `x_2 = A_1 x_1 + B u_1 + (1, 0)`. -/
def vA : Nat → Mat ℚ
  | 0 => mat 2 2 [[1, 1], [0, 1]]
  | _ => mat 2 2 [[1, 2], [0, 1]]
def vB : Nat → Mat ℚ := fun _ => mat 2 1 [[0], [1]]
def vV : Nat → Vec ℚ
  | 0 => vec [0, 0]
  | _ => vec [1, 0]
def vPhi : Mat ℚ := mat 6 2 [[1, 0], [0, 1], [1, 1], [0, 1], [1, 3], [0, 1]]
def vPsi : Mat ℚ := mat 6 2 [[0, 0], [0, 0], [0, 0], [1, 0], [2, 0], [1, 1]]
def vXi : Vec ℚ := vec [0, 0, 0, 0, 1, 0]

theorem vVarying : Varying d vA vB vV vPhi vPsi vXi :=
  ⟨by decide +kernel, by decide +kernel, by decide +kernel, by decide +kernel, by decide +kernel, by decide +kernel⟩

/-- The four assignments. -/
def sp1 : World ℚ := { w12 with pss := upd w12.pss 0 { w12.pss 0 with Phi := vPhi } }
def sp2 : World ℚ := { sp1 with pss := upd sp1.pss 0 { sp1.pss 0 with Psi := vPsi } }
def sp3 : World ℚ := { sp2 with pss := upd sp2.pss 0 { sp2.pss 0 with xi := vXi } }
def sp4 : World ℚ := { sp3 with pss := upd sp3.pss 0 { sp3.pss 0 with isUpdated := true } }

/-- The minimiser of the problem of the time-varying system. -/
def xF : Vec ℚ := vec [-(6000001 / 1000000 + 15) / (20000001 / 1000000 * (6000001 / 1000000) - 25),
  (3 * (20000001 / 1000000) + 5) / (20000001 / 1000000 * (6000001 / 1000000) - 25)]
def optF := env xF true

def spR : World ℚ × Bool × QP ℚ := (sp4.solve optF).getD (sp4, false, q13)

theorem spS : sp4.solve optF = some (spR.1, true, spR.2.2) := by
  obtain ⟨r, hr⟩ := Option.isSome_iff_exists.1 (by decide +kernel : (sp4.solve optF).isSome = true)
  have h1 : spR = r := by unfold spR; rw [hr]; rfl
  have h2 : spR.2.1 = true := by decide +kernel
  rw [hr, ← h2, h1]

theorem fitsF : PhiFits d vPhi ∧ PsiFits d vPsi ∧ XiFits d vXi :=
  c102_varying_fits vVarying ⟨rfl, rfl⟩ ⟨rfl, rfl⟩ rfl

theorem hasF (q : World ℚ) (h : 0 < (q.pss 0).nrUStep) : HasSystem q 0 := h

theorem spH : SHist d 1000 Careful sp4 g12 := by
  have s1 := SHist.ok (op := .writePhi 0 vPhi) (Spec.Hist.supplying h12) ⟨hasF w12 (by decide +kernel), fitsF.1⟩ trivial rfl
  have s2 := SHist.ok (op := .writePsi 0 vPsi) s1 ⟨hasF sp1 (by decide +kernel), fitsF.2.1⟩ trivial rfl
  have s3 := SHist.ok (op := .writeXi 0 vXi) s2 ⟨hasF sp2 (by decide +kernel), fitsF.2.2⟩ trivial rfl
  exact SHist.ok (op := .markUpdated 0) s3 (hasF sp3 (by decide +kernel)) trivial rfl

theorem spO : OpOk d sp4 g12 (.solve optF) :=
  ⟨(by decide +kernel : sp4.ctl.ps ≠ none), contract rfl
    (fun h => absurd (congrArg Option.isSome h) (by decide +kernel : sp4.ctl.sol.isSome ≠ false)) (by decide +kernel : sp4.ctl.isInit = false)⟩

theorem delayF : DelayOnly d vPsi := by
  intro k hk j hj r hr c hc
  have : k = 0 := by have : k + 1 < 2 := hk; omega
  have : j = 0 := by have : j + 1 < 2 := hj; omega
  subst_vars
  have : ∀ r < 2, ∀ c < 1, vPsi.e ((0 + 1) * 2 + r) ((0 + 1) * 1 + c) = vPsi.e (0 * 2 + r) (0 * 1 + c) := by decide +kernel
  exact this r hr c hc

theorem mixedF : MixedSuits d sp4 0 := fun _ _ => delayF

theorem optimalF : IsOptimal spR.2.2 (optF.answer spR.2.2).2.e := by
  refine optimal_of_stationary ?_ (by decide +kernel) (by decide +kernel)
  have e : spR.2.2.c.rows = 2 := by decide +kernel
  rw [e]
  have h00 : spR.2.2.Q.e 0 0 = 20000001 / 1000000 := by decide +kernel
  have h01 : spR.2.2.Q.e 0 1 = 5 := by decide +kernel
  have h10 : spR.2.2.Q.e 1 0 = 5 := by decide +kernel
  have h11 : spR.2.2.Q.e 1 1 = 6000001 / 1000000 := by decide +kernel
  refine ⟨by unfold Spec.Symmetric; decide +kernel, fun x => ?_⟩
  simp only [Finset.sum_range_succ, Finset.sum_range_zero, zero_add, h00, h01, h10, h11]
  nlinarith [sq_nonneg (x 0 + x 1), sq_nonneg (x 0), sq_nonneg (x 1)]

theorem freshF : CostsFresh d sp4 g12 := by
  intro i hi _
  rw [(by decide +kernel : sp4.ctl.spCost = [0, 1, 2, 3])] at hi ⊢
  simp only [List.mem_cons, List.not_mem_nil, or_false] at hi
  refine ⟨?_, ?_⟩
  · show (((False ∨ (True ∧ i = 0)) ∨ (True ∧ i = 1)) ∨ (True ∧ i = 2)) ∨ (True ∧ i = 3)
    tauto
  · rcases hi with rfl | rfl | rfl | rfl <;> rfl

/-- C102 applies: the answer is optimal for the time-varying system, and the trajectory is its simulation. -/
example :
    (∀ i ∈ sp4.ctl.spConstr, (sp4.cons i).userData.Holds d
      (simVarying d vA vB vV (sp4.pss 0).x0.e spR.1.ctl.control.e) spR.1.ctl.control.e) ∧
    IsStacked d (simVarying d vA vB vV (sp4.pss 0).x0.e spR.1.ctl.control.e) spR.1.ctl.trajectory := by
  have hi : sp4.ctl.isInit = false := by decide +kernel
  have hp : sp4.ctl.ps = some 0 := by decide +kernel
  have hb : sp4.ctl.spBoundConstr = [] → g12.clean := fun h => absurd h (by decide +kernel)
  have hh : ∀ i ∈ sp4.ctl.spConstr, (sp4.cons i).userData.Honest := honest12
  exact ⟨(c102_varying_optimum spH (fun _ _ h => h.1) spO hi hb hh freshF spS hp mixedF optimalF rfl vVarying).1,
    c102_varying_trajectory spH spO hi spS hp rfl vVarying⟩

/-- The problem is another one than that of the constant system. -/
example : ¬ QPEq spR.2.2 q13 ∧ spR.1.ctl.trajectory.e 4 = 1 + 1 + 2 * xF.e 0 := by decide +kernel

/-! ## Why per-step mixed constraints need `DelayOnly` -/

def dV : Dims := ⟨1, 1, 3⟩

def tvm0 : World ℚ where
  pss := fun _ => PreviewSystem.default
  cons := fun _ => Constr.mkMixed (mat 1 1 [[1]]) (mat 1 1 [[1]]) (evec [.fin 1]) true
  costs := fun _ => Cost.mkControl (mat 1 1 [[1]]) (vec [0])
  extCons := fun _ => 1
  extCosts := fun _ => 1
  ctl := LMPC.construct false solver

def tvm1 := after 1000 tvm0 (.system 0 (mat 1 1 [[1]]) (mat 1 1 [[1]]) (vec [0]) (vec [2]) 3)
def tvm2 := after 1000 tvm1 (.constructPs false solver 0 jk)
def tvm3 := after 1000 tvm2 (.addConstraint 0 jk)
/-- `x_{k+1} = x_k + B_k u_k` with `B_1 = 2`. -/
def pPsi : Mat ℚ := mat 4 3 [[0, 0, 0], [1, 0, 0], [1, 2, 0], [1, 2, 1]]
def pPhi : Mat ℚ := mat 4 1 [[1], [1], [1], [1]]
def tvm4 : World ℚ := { tvm3 with pss := upd tvm3.pss 0 { tvm3.pss 0 with Phi := pPhi } }
def tvm5 : World ℚ := { tvm4 with pss := upd tvm4.pss 0 { tvm4.pss 0 with Psi := pPsi } }
def tvm6 : World ℚ := { tvm5 with pss := upd tvm5.pss 0 { tvm5.pss 0 with isUpdated := true } }

/-- A solver that answers zeros. -/
def envV : SolveEnv ℚ where
  junk := jk
  inverse := fun M => M
  answer := fun q => (true, Vec.zero q.nrVar)
  t0 := 10
  t1 := 20
  t2 := 25
  t3 := 31

theorem tvm0_init : World.Init tvm0 :=
  ⟨fun _ => rfl, fun _ => .inr (.inr (.inl ⟨_, _, _, _, rfl⟩)), fun _ => .inr (.inr (.inl ⟨_, _, rfl⟩)), false, solver, rfl⟩

def pSys : Op ℚ := .system 0 (mat 1 1 [[1]]) (mat 1 1 [[1]]) (vec [0]) (vec [2]) 3
def pG : Ghost := ((Ghost.start.next tvm0 True pSys).next tvm1 True (.constructPs false solver 0 jk)).next tvm2 True (.addConstraint 0 jk)

theorem tvmH : SHist dV 1000 Careful tvm6 pG := by
  have s1 := hist_after (op := pSys) (d := dV) (E := Careful) (.start tvm0_init) ⟨rfl, rfl, rfl⟩
    ⟨trivial, trivial, trivial⟩ (by decide +kernel : okB 1000 tvm0 _ = true)
  have s2 := hist_after (op := .constructPs false solver 0 jk) s1 (hasF tvm1 (by decide +kernel)) ⟨trivial, trivial, trivial⟩
    (by decide +kernel : okB 1000 tvm1 _ = true)
  have s3 := hist_after (op := .addConstraint 0 jk) s2 (fun h => by cases h) ⟨trivial, trivial, trivial⟩
    (by decide +kernel : okB 1000 tvm2 _ = true)
  have s4 := SHist.ok (op := .writePhi 0 pPhi) (Spec.Hist.supplying s3)
    ⟨hasF tvm3 (by decide +kernel), ⟨rfl, rfl, by decide +kernel⟩⟩ trivial rfl
  have s5 := SHist.ok (op := .writePsi 0 pPsi) s4
    ⟨hasF tvm4 (by decide +kernel), ⟨rfl, rfl, by decide +kernel⟩⟩ trivial rfl
  exact SHist.ok (op := .markUpdated 0) s5 (hasF tvm5 (by decide +kernel)) trivial rfl

def tvmR : World ℚ × Bool × QP ℚ := (tvm6.solve envV).getD (tvm6, false, q13)

theorem tvmS : tvm6.solve envV = some (tvmR.1, true, tvmR.2.2) := by
  obtain ⟨r, hr⟩ := Option.isSome_iff_exists.1 (by decide +kernel : (tvm6.solve envV).isSome = true)
  have h1 : tvmR = r := by unfold tvmR; rw [hr]; rfl
  have h2 : tvmR.2.1 = true := by decide +kernel
  rw [hr, ← h2, h1]

theorem tvmO : OpOk dV tvm6 pG (.solve envV) :=
  ⟨(by decide +kernel : tvm6.ctl.ps ≠ none),
    fun h => absurd (congrArg Option.isSome h) (by decide +kernel : tvm6.ctl.sol.isSome ≠ false), fun _ _ _ => rfl,
    fun h => absurd h (by decide +kernel)⟩

/-- **C102** (the exception is needed): with a per-step mixed constraint and matrices without `DelayOnly`, every other
condition of `c102_feasible` can hold and the problem still admits controls that violate the constraint: here
`x_k + u_k <= 1` for `x_{k+1} = x_k + B_k u_k`, `B = (1, 2, 1)`, `x_0 = 2`, violated at step 2 by `u = (-2, 1, 0)`. -/
theorem c102_per_step_mixed_wrong :
    SHist dV 1000 Careful tvm6 pG ∧ OpOk dV tvm6 pG (.solve envV) ∧ tvm6.ctl.isInit = false ∧
    (tvm6.ctl.spBoundConstr = [] → pG.clean) ∧ (∀ i ∈ tvm6.ctl.spConstr, (tvm6.cons i).userData.Honest) ∧
    tvm6.solve envV = some (tvmR.1, true, tvmR.2.2) ∧ tvm6.ctl.ps = some 0 ∧
    ∃ U : Nat → ℚ, Feasible tvmR.2.2 U ∧ (∀ j < dV.m * dV.N, -1000 ≤ U j ∧ U j ≤ 1000) ∧
      ¬ ∀ i ∈ tvm6.ctl.spConstr, (tvm6.cons i).userData.Holds dV (trajNow dV tvm6 0 U) U := by
  refine ⟨tvmH, tvmO, by decide +kernel, fun _ => ?_, ?_, tvmS, by decide +kernel, (vec [-2, 1, 0]).e, by decide +kernel,
    by decide +kernel, ?_⟩
  · trivial
  · intro i hi
    rw [(by decide +kernel : tvm6.ctl.spConstr = [0])] at hi
    cases List.mem_singleton.1 hi
    unfold Constr.userData
    rw [(by decide +kernel : (tvm6.cons 0).kind = .mixed)]
    trivial
  · intro h
    have h := h 0 (by decide +kernel)
    unfold Constr.userData at h
    rw [(by decide +kernel : (tvm6.cons 0).kind = .mixed)] at h
    dsimp only at h
    unfold ConstrData.Holds at h
    dsimp only at h
    rw [if_pos (by decide +kernel : (tvm6.cons 0).E.cols = dV.n ∧ (tvm6.cons 0).G.cols = dV.m)] at h
    have h := h 2 (by decide) 0 (by decide +kernel)
    rw [(by decide +kernel : (tvm6.cons 0).isIneq = true)] at h
    revert h
    unfold Spec.Rel
    rw [if_pos rfl]
    decide +kernel

/-! ## Why a supplied `Phi` must keep the initial state -/

/-- The first block of `Phi` is assigned 2; the system is stale. -/
def spW : World ℚ := { tvm3 with pss := upd tvm3.pss 0 { tvm3.pss 0 with Phi := mat 4 1 [[2], [1], [1], [1]] } }
def spQ : World ℚ × Bool × QP ℚ := (spW.solve envV).getD (spW, false, q13)

/-- A solve recomputes the other blocks from `A`, `B`, `d`, but not this one: the trajectory starts at `2 x0`. -/
example : (spW.pss 0).isUpdated = false ∧ (spW.pss 0).x0.e 0 = 2 ∧ spQ.1.ctl.trajectory.e 0 = 4 ∧
    spQ.1.ctl.trajectory.e 1 = 2 := by decide +kernel

end Ex
end Copra
