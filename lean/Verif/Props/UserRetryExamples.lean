import Verif.Props.UserRetry
import Verif.Props.UserThrowExamples

/-! # C115, trying again: the program of `UserExamples` with its per-step trajectory cost removed -/

namespace Copra
open Spec

set_option linter.unusedSectionVars false
set_option maxRecDepth 100000

namespace Ex.User
open UWorld

/-- The client removes the costs of the library given per step. -/
def Xp : UWorld ℚ ℚ := uafter 1000 X10 (.api (.removeCost 0))

theorem hxXp : ∃ n, XHist d 1000 Xp gX n := by
  obtain ⟨n, h⟩ := hxX10
  exact ⟨_, xhist_after (op := .api (.removeCost 0)) h ⟨trivial, trivial⟩ (by decide +kernel) trivial⟩

/-- Its solver throws, ... -/
def rp : UWorld ℚ ℚ × QP ℚ := (Xp.solveThrow (env xU true)).getD (Xp, q13)

theorem rp_eq : Xp.solveThrow (env xU true) = some (rp.1, rp.2) := getD_of_isSome (a := (Xp, q13)) (by decide +kernel)

/-- ... and it tries again. -/
def rp2 : UWorld ℚ ℚ × Bool × QP ℚ := (rp.1.solve (env xU true)).getD (rp.1, false, q13)

theorem sp2 : rp.1.solve (env xU true) = some (rp2.1, true, rp2.2.2) := by
  have e : (rp.1.solve (env xU true)).isSome = true := by decide +kernel
  obtain ⟨r, hr⟩ := Option.isSome_iff_exists.1 e
  have h1 : rp2 = r := by unfold rp2; rw [hr]; rfl
  have h2 : rp2.2.1 = true := by decide +kernel
  rw [hr, ← h2, h1]

theorem okp : UOk d Xp gX (.api (.solve (env xU true))) :=
  ⟨⟨(by decide +kernel : Xp.world.ctl.ps ≠ none), contract rfl
    (fun h => absurd (congrArg Option.isSome h) (by decide +kernel : Xp.world.ctl.sol.isSome ≠ false)) (by decide +kernel)⟩, trivial⟩

theorem okp2 : UOk d rp.1 (unext gX Xp True (.api (.solve (env xU true)))) (.api (.solve (env xU true))) :=
  ⟨⟨(by decide +kernel : rp.1.world.ctl.ps ≠ none), contract rfl
    (fun h => absurd (congrArg Option.isSome h) (by decide +kernel : rp.1.world.ctl.sol.isSome ≠ false)) (by decide +kernel)⟩, trivial⟩

theorem settled_of {X : UWorld ℚ ℚ} (h1 : X.consClass = X0.consClass) (h2 : X.costClass = X0.costClass) : Settled X := by
  have b : ∀ fl, ConstrClass.Settles (budget fl) := fun fl ps o o' e => by
    simp only [budget, Option.some.injEq] at e ⊢
    subst e; rfl
  refine ⟨fun i _ C hC => ?_, fun i _ C hC => ?_⟩
  · rw [h1] at hC
    rcases consClass_cases i with ⟨rfl, e⟩ | ⟨rfl, e⟩ | e <;> rw [e] at hC <;> cases hC <;> exact b _
  · rw [h2] at hC
    rcases costClass_cases i with ⟨rfl, e⟩ | e <;> rw [e] at hC <;> cases hC
    intro ps o o' e
    simp only [smooth, Option.some.injEq] at e ⊢
    subst e; rfl

/-- C115, trying again, applies. -/
example : (∀ U, Feasible rp2.2.2 U ↔ Feasible rp.2 U) ∧ ∃ k : ℚ, ∀ U, objective rp2.2.2 U = objective rp.2 U + k := by
  obtain ⟨n, h⟩ := hxXp
  have hc : Xp.world.ctl.spConstr = [0, 2, 10] := by decide +kernel
  have hk : Xp.world.ctl.spCost = [1, 10] := by decide +kernel
  refine c115_retry h (conforming_of rfl rfl (by decide +kernel) (by decide +kernel)) okp okp2 (by decide +kernel)
    (fun h => absurd h (by decide +kernel)) ?_ ?_ (settled_of rfl rfl) rp_eq (.inl ⟨true, sp2⟩) (by decide +kernel : Xp.world.ctl.ps = some 0)
  · intro i hi _
    rw [hc] at hi
    simp only [List.mem_cons, List.not_mem_nil, or_false] at hi
    have : (Xp.world.cons i).kind ≠ .trajBound := by rcases hi with rfl | rfl | rfl <;> decide +kernel
    unfold Constr.userData
    cases h : (Xp.world.cons i).kind <;> simp only <;> first | trivial | exact absurd h this | (split <;> trivial)
  · intro i hi hn
    rw [hk] at hi
    simp only [List.mem_cons, List.not_mem_nil, or_false] at hi
    rcases hi with rfl | rfl
    · intro h
      have e : (Xp.world.costs 1).kind = .control := by decide +kernel
      unfold Cost.userData at h
      rw [e] at h
      exact h
    · exact absurd (congrArg Option.isSome hn) (by decide +kernel)

/-- The second attempt solves a proper problem. -/
example : Feasible rp2.2.2 (fun _ => 1 / 2) ∧ ¬ Feasible rp2.2.2 (fun _ => 1) := ⟨by decide +kernel, by decide +kernel⟩

end Ex.User
end Copra
