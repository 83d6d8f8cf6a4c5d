import Verif.Model.Notices
import Mathlib.Algebra.Field.Rat

/-! # Settings that are ignored are announced (C80); what `inform()` says (C81) -/

set_option maxRecDepth 100000
set_option linter.unusedSectionVars false

namespace Copra
variable {K : Type} [Field K]

theorem baseNotice_ne (c : SettingCall K) : baseNotice c ≠ [] := by
  cases c <;> exact List.cons_ne_nil _ _

theorem silent {k : SolverKind} {c : SettingCall K} (h : overrides k c = true) : settingOut k c = [] := by
  unfold settingOut; rw [if_pos h]

theorem announced {k : SolverKind} {c : SettingCall K} (h : overrides k c = false) : settingOut k c ≠ [] := by
  unfold settingOut; rw [if_neg (by simp [h])]; exact baseNotice_ne c

/-- **C80** (setters): for every wrapper and every setting, either the call prints nothing and the value is stored where
the next solve (or print) of the back end reads it, or it prints a notice and changes nothing. -/
theorem c80_setters (k : SolverKind) (hk : k ≠ .gurobi) (s : Settings K) (v : Verbosity) :
    (∀ n, (settingOut k (.setMaxIter n : SettingCall K) = [] ∧ (setMaxIter k s n).optMaxIter = n ∧
        (k = .lssol → (setMaxIter k s n).feasMaxIter = n)) ∨
      (settingOut k (.setMaxIter n : SettingCall K) ≠ [] ∧ setMaxIter k s n = s)) ∧
    (∀ t, (settingOut k (.setFeasTol t) = [] ∧ (match k with
        | .lssol => (setFeasTol k s t).feasTol
        | .qld => (setFeasTol k s t).eps
        | _ => (setFeasTol k s t).absConvTol) = t) ∨
      (settingOut k (.setFeasTol t) ≠ [] ∧ setFeasTol k s t = s)) ∧
    (∀ b, (settingOut k (.setWarm b : SettingCall K) = [] ∧ (setWarm k s b).warm = b) ∨
      (settingOut k (.setWarm b : SettingCall K) ≠ [] ∧ setWarm k s b = s)) ∧
    (∀ pl, (settingOut k (.setPrintLevel pl : SettingCall K) = [] ∧
        (if k = .lssol then (setPrintLevel k v pl).level = pl else ((setPrintLevel k v pl).verbose = true ↔ pl ≠ 0))) ∨
      (settingOut k (.setPrintLevel pl : SettingCall K) ≠ [] ∧ setPrintLevel k v pl = v)) := by
  cases k
  case gurobi => exact absurd rfl hk
  all_goals
    refine ⟨fun n => ?_, fun t => ?_, fun b => ?_, fun pl => ?_⟩ <;>
      first
        | exact Or.inr ⟨announced rfl, rfl⟩
        | exact Or.inl ⟨silent rfl, rfl⟩
        | exact Or.inl ⟨silent rfl, rfl, fun _ => rfl⟩
        | exact Or.inl ⟨silent rfl, rfl, fun h => by cases h⟩
        | exact Or.inl ⟨silent rfl, by simp [setPrintLevel]⟩

/-- **C80** (getters): a getter that prints nothing returns the value set last; one that prints a notice returns a value
that does not depend on the settings (-1, -1 and `false`). -/
theorem c80_getters (k : SolverKind) (hk : k ≠ .gurobi) (s : Settings K) :
    ((settingOut k (.getMaxIter : SettingCall K) = [] ∧ ∀ n, getMaxIter k (setMaxIter k s n) = n) ∨
      (settingOut k (.getMaxIter : SettingCall K) ≠ [] ∧ getMaxIter k s = -1)) ∧
    ((settingOut k (.getFeasTol : SettingCall K) = [] ∧ ∀ t, getFeasTol k (setFeasTol k s t) = t) ∨
      (settingOut k (.getFeasTol : SettingCall K) ≠ [] ∧ getFeasTol k s = -1)) ∧
    ((settingOut k (.getWarm : SettingCall K) = [] ∧ ∀ b, getWarm k (setWarm k s b) = b) ∨
      (settingOut k (.getWarm : SettingCall K) ≠ [] ∧ getWarm k s = false)) := by
  cases k
  case gurobi => exact absurd rfl hk
  all_goals
    refine ⟨?_, ?_, ?_⟩ <;>
      first
        | exact Or.inr ⟨announced rfl, rfl⟩
        | exact Or.inl ⟨silent rfl, fun _ => rfl⟩

/-- C80 distinguishes: with OSQP the tolerance setter is silent but the getter announces that it has none. -/
example : settingOut .osqp (.setFeasTol 1 : SettingCall ℚ) = [] ∧ settingOut .osqp (.getFeasTol : SettingCall ℚ) ≠ [] := by
  decide
example := c80_setters (K := ℚ) .qld (by decide) ⟨0, 0, 0, 0, false, 0⟩ ⟨0, false⟩
example := c80_getters (K := ℚ) .osqp (by decide) ⟨0, 0, 0, 0, false, 0⟩

/-- **C81** (QuadProg): `inform()` prints the success text exactly for code 0; the three documented codes have three
different texts. -/
theorem c81_quadProg (a b : Int) :
    (quadProgInform a = "No problems\n".toList ↔ a = 0) ∧
    (0 ≤ a → a ≤ 2 → quadProgInform a ≠ []) ∧
    (0 ≤ a → a ≤ 2 → 0 ≤ b → b ≤ 2 → quadProgInform a = quadProgInform b → a = b) := by
  refine ⟨?_, ?_, ?_⟩
  · unfold quadProgInform; split_ifs <;> simp_all
  · unfold quadProgInform; intro h1 h2; split_ifs <;> first | omega | decide
  · unfold quadProgInform
    intro h1 h2 h3 h4 h
    split_ifs at h <;> first | omega | simp_all

/-- **C81** (QLD): `inform()` always prints one of its texts, the success text exactly for code 0, and the documented
codes 0-5 and "> 100" are told apart. -/
theorem c81_qld (a b : Int) :
    qldInform a ≠ [] ∧
    (qldInform a = "The optimality conditions are satisfied.\n".toList ↔ a = 0) ∧
    (qldInform a = qldInform b → a = b ∨ (¬ (0 ≤ a ∧ a ≤ 5) ∧ ¬ (0 ≤ b ∧ b ≤ 5))) := by
  refine ⟨?_, ?_, ?_⟩
  · unfold qldInform; split_ifs <;> simp
  · unfold qldInform; split_ifs <;> simp_all
  · unfold qldInform
    intro h
    split_ifs at h <;> first | omega | simp_all

example : quadProgInform 3 = [] ∧ (qldInform 107).take 15 = "Constraints are".toList := by decide

end Copra
