import Verif.Props.Inactive
import Verif.Props.AffineLawExamples

/-! # C95 on a concrete program: dropping `u0 + u1 ≤ 3` when it is not active -/

namespace Copra
open Spec

set_option linter.unusedSectionVars false
set_option maxRecDepth 100000

namespace Ex
open World

def lzd := after 1000 lza (.removeConstraint 1)

def rLD : World ℚ × Bool × QP ℚ := (lzd.solve (env yLA true)).getD (lzd, false, q13)

theorem sLD : lzd.solve (env yLA true) = some (rLD.1, true, rLD.2.2) := by
  obtain ⟨r, hr⟩ := Option.isSome_iff_exists.1 (by decide +kernel : (lzd.solve (env yLA true)).isSome = true)
  have h1 : rLD = r := by unfold rLD; rw [hr]; rfl
  have h2 : rLD.2.1 = true := by decide +kernel
  rw [hr, ← h2, h1]

/-- C95 applies; the problems handed to the solver differ (one inequality row less). -/
example : VecEq rLD.1.ctl.control rLA.1.ctl.control ∧ VecEq rLD.1.ctl.trajectory rLA.1.ctl.trajectory ∧
    rLD.2.2.Aineq.rows ≠ rLA.2.2.Aineq.rows := by
  obtain ⟨g, h⟩ := hlz
  have S2 := plainLz h rfl rfl sLA
  have hd := hist_after (op := .removeConstraint 1) S2.hist trivial ⟨trivial, trivial⟩ (by decide +kernel : okB 1000 lza _ = true)
  have S1 : PlainSolve d 1000 lzd _ 0 (env yLA true) rLD.1 true rLD.2.2 :=
    { hist := hd
      allowed := ⟨(by decide +kernel : lzd.ctl.ps ≠ none), contract rfl
        (fun h => absurd (congrArg Option.isSome h) (by decide +kernel : lzd.ctl.sol.isSome ≠ false)) (by decide +kernel : lzd.ctl.isInit = false)⟩
      ps := by decide +kernel
      plain := by decide +kernel
      clean := fun hb => absurd hb (by decide +kernel : lzd.ctl.spBoundConstr ≠ [])
      honest := by
        intro i hi
        rw [(by decide +kernel : lzd.ctl.spConstr = [2])] at hi
        simp only [List.mem_cons, List.not_mem_nil, or_false] at hi
        subst hi
        exact trivial
      solve := sLD }
  obtain ⟨T, rest⟩ := c95_removeConstraint S2.hist (okB_step (by decide +kernel : okB 1000 lza (.removeConstraint 1) = true)) 0
  have o2 : IsOptimal rLA.2.2 ((env yLA true).answer rLA.2.2).2.e := optimal_of_stationary (by
    have P := psd_of_pd (c29_hessian S2.hist (fun _ _ h => h.2) S2.allowed S2.plain S2.solve)
    rw [(by decide +kernel : rLA.2.2.nrVar = rLA.2.2.c.rows)] at P
    exact P) (by decide +kernel) (by decide +kernel)
  have o1 : IsOptimal rLD.2.2 ((env yLA true).answer rLD.2.2).2.e := optimal_of_stationary (by
    have P := psd_of_pd (c29_hessian S1.hist (fun _ _ h => h.2) S1.allowed S1.plain S1.solve)
    rw [(by decide +kernel : rLD.2.2.nrVar = rLD.2.2.c.rows)] at P
    exact P) (by decide +kernel) (by decide +kernel)
  have f1 : CostsFresh d lzd (g.next lz6 True (.xInit 0 (vec [1, 0])) |>.next lza True (.removeConstraint 1)) := by
    intro i hi
    rw [(by decide +kernel : lzd.ctl.spCost = [1, 2])] at hi
    simp only [List.mem_cons, List.not_mem_nil, or_false] at hi
    rcases hi with rfl | rfl <;> exact fun h => h.elim
  obtain ⟨a, b⟩ := c95_same_results S1 S2 T f1 (freshLz _ _) o1 o2 (fun j hj => by
    by_cases e : j = 1
    · subst e
      exact Or.inr (margin_lz (by decide +kernel)).1
    · exact Or.inl (rest j hj e)) (fun hb => absurd hb (by decide +kernel : lzd.ctl.spBoundConstr ≠ []))
  exact ⟨a, b, by decide +kernel⟩

end Ex
end Copra
