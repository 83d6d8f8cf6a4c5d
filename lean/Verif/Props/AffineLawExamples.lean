import Verif.Props.AffineLaw
import Verif.Props.LipschitzExamples

/-! # C94 on a concrete program: the two solves of C89 determine the solve from a third state outside the segment -/

namespace Copra
open Spec

set_option linter.unusedSectionVars false
set_option maxRecDepth 100000

namespace Ex
open World

/-- `(0, 0) = -1 (1, 0) + 2 (1/2, 0)`. -/
def lzc := after 1000 lz6 (.xInit 0 (vec [0, 0]))

def yLC : Vec ℚ := vec [-(2000003000000/6000007000001) + 2 * (428572000000/857143857143), -(4000002000000/6000007000001) + 2 * (642857500000/857143857143)]

def rLC : World ℚ × Bool × QP ℚ := (lzc.solve (env yLC true)).getD (lzc, false, q13)

theorem sLC : lzc.solve (env yLC true) = some (rLC.1, true, rLC.2.2) := by
  obtain ⟨r, hr⟩ := Option.isSome_iff_exists.1 (by decide +kernel : (lzc.solve (env yLC true)).isSome = true)
  have h1 : rLC = r := by unfold rLC; rw [hr]; rfl
  have h2 : rLC.2.1 = true := by decide +kernel
  rw [hr, ← h2, h1]

/-- `u0 + u1 ≤ 3` and `-1 ≤ u ≤ 1` hold with a margin of `1/10` when the controls are between `0` and `9/10`. -/
theorem margin_lz {X : Nat → Nat → ℚ} {U : Nat → ℚ} (h : ∀ j < 2, 0 ≤ U j ∧ U j ≤ 9 / 10) :
    (ConstrData.control true (mat 1 2 [[1, 1]]) (evec [.fin 3])).HoldsWithMargin d X U ∧
    (ConstrData.ctrlBound (evec [.fin (-1)]) (evec [.fin 1])).HoldsWithMargin d X U := by
  constructor
  · refine ⟨1 / 10, by norm_num, fun X' U' _ hU r hr => ?_⟩
    have h0 := (abs_le.1 (hU 0 (by decide))).2
    have h1 := (abs_le.1 (hU 1 (by decide))).2
    have b0 := (h 0 (by decide)).2
    have b1 := (h 1 (by decide)).2
    obtain rfl : r = 0 := Nat.lt_one_iff.1 hr
    show (∑ k ∈ Finset.range 2, ∑ c ∈ Finset.range 1, (mat 1 2 [[1, 1]]).e 0 (k * 1 + c) * U' (k * 1 + c)) ≤ (3 : ℚ)
    simp [Finset.sum_range_succ, mat]
    linarith
  · refine ⟨1 / 10, by norm_num, fun X' U' _ hU k hk c hc => ?_⟩
    obtain rfl : c = 0 := Nat.lt_one_iff.1 hc
    have hk : k < 2 := hk
    have e : Spec.ctrl d U' k 0 = U' k := by
      unfold Spec.ctrl
      show U' (k * 1 + 0) = U' k
      rw [Nat.mul_one, Nat.add_zero]
    have hj := abs_le.1 (hU k (by show k < 1 * 2; omega))
    have hb := h k hk
    rw [e]
    exact ⟨(by show (-1 : ℚ) ≤ U' k; linarith), (by show U' k ≤ (1 : ℚ); linarith)⟩

theorem noActive_lz {x : Vec ℚ} {U : Nat → ℚ} (h : ∀ j < 2, 0 ≤ U j ∧ U j ≤ 9 / 10) :
    NoActive d 1000 (after 1000 lz6 (.xInit 0 x)) 0 U :=
  ⟨fun i hi _ => all_lz6 (P := fun D => D.HoldsWithMargin d _ U) (margin_lz h).1 (margin_lz h).2 i hi,
    fun hb => absurd hb (by decide +kernel : lz6.ctl.spBoundConstr ≠ [])⟩

/-- C94 applies, outside the segment between the two initial states. -/
example : (∀ j < 2, rLC.1.ctl.control.e j = -1 * rLA.1.ctl.control.e j + (1 - -1) * rLB.1.ctl.control.e j) ∧
    ∀ k ≤ 2, ∀ r < 2, rLC.1.ctl.trajectory.e (k * 2 + r) =
      -1 * rLA.1.ctl.trajectory.e (k * 2 + r) + (1 - -1) * rLB.1.ctl.trajectory.e (k * 2 + r) := by
  obtain ⟨g, h⟩ := hlz
  have S1 := plainLz h rfl rfl sLA
  have S2 := plainLz h rfl rfl sLB
  have S3 := plainLz h rfl rfl sLC
  have R : ∀ x y : Vec ℚ, AlikeButStart (after 1000 lz6 (.xInit 0 x)) 0 (after 1000 lz6 (.xInit 0 y)) 0 :=
    fun x y => ⟨rfl, rfl, rfl, .refl _, .refl _⟩
  have psd := fun {x y : Vec ℚ} {w' : World ℚ} {q : QP ℚ} (S : PlainSolve d 1000 (after 1000 lz6 (.xInit 0 x)) g 0 (env y true) w' true q) =>
    psd_of_pd (c29_hessian S.hist (fun _ _ h => h.2) S.allowed S.plain S.solve)
  have o1 : IsOptimal rLA.2.2 ((env yLA true).answer rLA.2.2).2.e := optimal_of_stationary (by
    have P := psd S1
    rw [(by decide +kernel : rLA.2.2.nrVar = rLA.2.2.c.rows)] at P
    exact P) (by decide +kernel) (by decide +kernel)
  have o2 : IsOptimal rLB.2.2 ((env yLB true).answer rLB.2.2).2.e := optimal_of_stationary (by
    have P := psd S2
    rw [(by decide +kernel : rLB.2.2.nrVar = rLB.2.2.c.rows)] at P
    exact P) (by decide +kernel) (by decide +kernel)
  have o3 : IsOptimal rLC.2.2 ((env yLC true).answer rLC.2.2).2.e := optimal_of_stationary (by
    have P := psd S3
    rw [(by decide +kernel : rLC.2.2.nrVar = rLC.2.2.c.rows)] at P
    exact P) (by decide +kernel) (by decide +kernel)
  have m3 := margin_lz (X := Spec.traj d lzc 0 (mix (-1) rLA.1.ctl.control.e rLB.1.ctl.control.e))
    (U := mix (-1) rLA.1.ctl.control.e rLB.1.ctl.control.e) (by unfold mix; decide +kernel)
  have at0 : ∀ {D : ConstrData ℚ} {X : Nat → Nat → ℚ} {U : Nat → ℚ}, D.HoldsWithMargin d X U → D.Holds d X U := by
    rintro D X U ⟨ε, h0, H⟩
    exact H X U (fun _ _ _ _ => by rw [sub_self, abs_zero]; exact h0.le) fun _ _ => by rw [sub_self, abs_zero]; exact h0.le
  exact c94_affine_results (a := -1) S1 S2 S3 (R _ _) (R _ _)
    (by unfold mix; exact (by decide +kernel :
      ∀ r < d.n, (lzc.pss 0).x0.e r = -1 * (lza.pss 0).x0.e r + (1 - -1) * (lzb.pss 0).x0.e r))
    (freshLz _ _) (freshLz _ _) (freshLz _ _) o1 o2 o3
    (noActive_lz (by decide +kernel)) (noActive_lz (by decide +kernel))
    (fun i hi _ => all_lz6 (P := fun D => D.Holds d _ _) (at0 m3.1) (at0 m3.2) i hi)
    (fun hb => absurd hb (by decide +kernel : lz6.ctl.spBoundConstr ≠ []))

end Ex
end Copra
