import Verif.Props.Limits
import Verif.Props.AffineLawExamples
import Verif.Props.LoosenExamples

/-! # C112 on a concrete program: two plans with the first control at its lower bound -/

namespace Copra
open Spec

set_option linter.unusedSectionVars false
set_option maxRecDepth 100000

namespace Ex
open World

/-- The program of C89, far from the target. -/
def lmW (x : ℚ) : World ℚ := after 1000 lz6 (.xInit 0 (vec [x, 0]))

/-- Braking as hard as possible in the first step. -/
def yLim (x : ℚ) : Vec ℚ := vec [-1, (5 - x) * (1000000 / 2000001)]

def rLim (x : ℚ) : World ℚ × Bool × QP ℚ := ((lmW x).solve (env (yLim x) true)).getD (lmW x, false, q13)

theorem sLim {x : ℚ} (hs : ((lmW x).solve (env (yLim x) true)).isSome = true) (h2 : (rLim x).2.1 = true) :
    (lmW x).solve (env (yLim x) true) = some ((rLim x).1, true, (rLim x).2.2) := by
  obtain ⟨r, hr⟩ := Option.isSome_iff_exists.1 hs
  have h1 : rLim x = r := by unfold rLim; rw [hr]; rfl
  rw [hr, ← h2, h1]

theorem sLim1 : (lmW (11 / 2)).solve (env (yLim (11 / 2)) true) = some ((rLim (11 / 2)).1, true, (rLim (11 / 2)).2.2) :=
  sLim (by decide +kernel) (by decide +kernel)
theorem sLim2 : (lmW (13 / 2)).solve (env (yLim (13 / 2)) true) = some ((rLim (13 / 2)).1, true, (rLim (13 / 2)).2.2) :=
  sLim (by decide +kernel) (by decide +kernel)
theorem sLim3 : (lmW 6).solve (env (yLim 6) true) = some ((rLim 6).1, true, (rLim 6).2.2) :=
  sLim (by decide +kernel) (by decide +kernel)

theorem optLim {x : ℚ} {g : Ghost} {w' : World ℚ} {q : QP ℚ} (S : PlainSolve d 1000 (lmW x) g 0 (env (yLim x) true) w' true q)
    (hr : q.lb.rows = 2) (hc : q.c.rows = 2) (hv : q.nrVar = 2)
    (hf : Feasible q (yLim x).e)
    (hl : q.lb.e 0 = .fin (-1))
    (hs : 0 ≤ (∑ j ∈ Finset.range 2, q.Q.e 0 j * (yLim x).e j) + q.c.e 0)
    (hz : (∑ j ∈ Finset.range 2, q.Q.e 1 j * (yLim x).e j) + q.c.e 1 = 0) :
    IsOptimal q ((env (yLim x) true).answer q).2.e := by
  have ea : ((env (yLim x) true).answer q).2 = yLim x := if_pos hv
  have P := psd_of_pd (c29_hessian S.hist (fun _ _ h => h.2) S.allowed S.plain S.solve)
  rw [hv, ← hc] at P
  rw [ea]
  refine optimal_of_variational P hf fun y hy => ?_
  rw [hc, Finset.sum_range_succ, Finset.sum_range_one, hz, zero_mul, add_zero]
  have b := hy.2.2.1 0 (by omega)
  rw [hl] at b
  have b : (-1 : ℚ) ≤ y 0 := b
  exact mul_nonneg hs (by show (0:ℚ) ≤ y 0 - -1; linarith)

/-- Two plans that start at the lower bound and end strictly inside touch the same limits. -/
theorem sameLim {X Y : Nat → Nat → ℚ} {U V : Nat → ℚ} (hU : U 0 = -1 ∧ -1 < U 1 ∧ U 1 < 1) (hV : V 0 = -1 ∧ -1 < V 1 ∧ V 1 < 1) :
    (ConstrData.control true (mat 1 2 [[1, 1]]) (evec [.fin 3])).SameTouched d X U Y V ∧
    (ConstrData.ctrlBound (evec [.fin (-1)]) (evec [.fin 1])).SameTouched d X U Y V := by
  have A : ∀ {X : Nat → Nat → ℚ} {U : Nat → ℚ} {k r up}, (U 0 = -1 ∧ -1 < U 1 ∧ U 1 < 1) →
      ¬ (ConstrData.control true (mat 1 2 [[1, 1]]) (evec [.fin 3])).Touches d X U k r up := by
    rintro X U k r up ⟨h0, h1, h2⟩ ⟨hr, h⟩
    obtain rfl : r = 0 := Nat.lt_one_iff.1 hr
    rw [if_neg (by decide : ¬ (mat 1 2 [[1, 1]] : Mat ℚ).cols = d.m)] at h
    have e : (∑ k ∈ Finset.range 2, ∑ c ∈ Finset.range 1, (mat 1 2 [[1, 1]]).e 0 (k * 1 + c) * U (k * 1 + c)) = (3 : ℚ) := by
      injection h
    simp [Finset.sum_range_succ, mat] at e
    linarith
  have B : ∀ {X : Nat → Nat → ℚ} {U : Nat → ℚ} {k r up}, (U 0 = -1 ∧ -1 < U 1 ∧ U 1 < 1) →
      ((ConstrData.ctrlBound (evec [.fin (-1)]) (evec [.fin 1])).Touches d X U k r up ↔ k = 0 ∧ r = 0 ∧ up = false) := by
    rintro X U k r up ⟨h0, h1, h2⟩
    have c : ∀ k, Spec.ctrl d U k 0 = U k := fun k => by
      unfold Spec.ctrl
      show U (k * 1 + 0) = U k
      rw [Nat.mul_one, Nat.add_zero]
    constructor
    · rintro ⟨hk, hr, h⟩
      obtain rfl : r = 0 := Nat.lt_one_iff.1 hr
      rw [c] at h
      have hk : k < 2 := hk
      cases up
      · have e : U k = -1 := by injection h
        refine ⟨?_, rfl, rfl⟩
        by_contra hk0
        obtain rfl : k = 1 := by omega
        linarith
      · have e : U k = 1 := by injection h
        have : k = 0 ∨ k = 1 := by omega
        rcases this with rfl | rfl <;> linarith
    · rintro ⟨rfl, rfl, rfl⟩
      refine ⟨by decide, by decide, ?_⟩
      rw [c, h0]
      rfl
  exact ⟨fun k r up => iff_of_false (A hU) (A hV), fun k r up => (B hU).trans (B hV).symm⟩

/-- C112 applies with a limit touched: from the state in the middle the control is the average, `-1` first. -/
example : (∀ j < 2, (rLim 6).1.ctl.control.e j = 1 / 2 * (rLim (11 / 2)).1.ctl.control.e j + (1 - 1 / 2) * (rLim (13 / 2)).1.ctl.control.e j) ∧
    (∀ k ≤ 2, ∀ r < 2, (rLim 6).1.ctl.trajectory.e (k * 2 + r) =
      1 / 2 * (rLim (11 / 2)).1.ctl.trajectory.e (k * 2 + r) + (1 - 1 / 2) * (rLim (13 / 2)).1.ctl.trajectory.e (k * 2 + r)) ∧
    (rLim 6).1.ctl.control.e 0 = -1 ∧ (rLim (11 / 2)).1.ctl.control.e 1 ≠ (rLim (13 / 2)).1.ctl.control.e 1 := by
  obtain ⟨g, h⟩ := hlz
  have S1 := plainLz h rfl rfl sLim1
  have S2 := plainLz h rfl rfl sLim2
  have S3 := plainLz h rfl rfl sLim3
  have R : ∀ x y : ℚ, AlikeButStart (lmW x) 0 (lmW y) 0 := fun x y => ⟨rfl, rfl, rfl, .refl _, .refl _⟩
  have o1 := optLim S1 (by decide +kernel) (by decide +kernel) (by decide +kernel) (by decide +kernel) (by decide +kernel)
    (by decide +kernel) (by decide +kernel)
  have o2 := optLim S2 (by decide +kernel) (by decide +kernel) (by decide +kernel) (by decide +kernel) (by decide +kernel)
    (by decide +kernel) (by decide +kernel)
  have o3 := optLim S3 (by decide +kernel) (by decide +kernel) (by decide +kernel) (by decide +kernel) (by decide +kernel)
    (by decide +kernel) (by decide +kernel)
  have m := fun {X Y} => sameLim (X := X) (Y := Y) (U := (rLim (11 / 2)).1.ctl.control.e) (V := (rLim (13 / 2)).1.ctl.control.e)
    (by decide +kernel) (by decide +kernel)
  have H := c112_results (a := 1 / 2) (by norm_num) (by norm_num) S1 S2 S3 (R _ _) (R _ _)
    (by unfold mix; exact (by decide +kernel :
      ∀ r < d.n, ((lmW 6).pss 0).x0.e r = 1 / 2 * ((lmW (11 / 2)).pss 0).x0.e r + (1 - 1 / 2) * ((lmW (13 / 2)).pss 0).x0.e r))
    (freshLz _ _) (freshLz _ _) (freshLz _ _) o1 o2 o3
    (fun i hi => all_lz6 (P := fun D => D.SameTouched d _ _ _ _) m.1 m.2 i hi)
    (fun hb => absurd hb (by decide +kernel : lz6.ctl.spBoundConstr ≠ []))
    (fun hb => absurd hb (by decide +kernel : lz6.ctl.spBoundConstr ≠ []))
  exact ⟨H.1, H.2, by decide +kernel, by decide +kernel⟩

end Ex
end Copra
