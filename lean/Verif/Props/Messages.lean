import Verif.Model.Messages
import Verif.Proofs.Costs
import Mathlib.Data.List.Infix
import Mathlib.Algebra.Field.Rat

/-! # Error messages (C53) -/

namespace Copra.Messages
variable {K : Type} [Field K]

set_option linter.unusedSectionVars false
set_option maxRecDepth 100000

/-- The message says `"<name> has <r> rows"`. -/
def States (msg : List Char) (name : List Char) (r : Nat) : Prop :=
  (name ++ " has ".toList ++ num r ++ " rows".toList) <:+: msg

instance (msg name : List Char) (r : Nat) : Decidable (States msg name r) := by unfold States; infer_instance

/-- `throwMsgOnRows` states both names with their row counts. -/
theorem onRows_states (n1 n2 : List Char) (r1 r2 : Nat) :
    States (onRows n1 n2 r1 r2) n1 r1 ∧ States (onRows n1 n2 r1 r2) n2 r2 := by
  constructor
  · refine ⟨n1 ++ " and ".toList ++ n2 ++ " should have same number of rows. ".toList,
      " and ".toList ++ n2 ++ " has ".toList ++ num r2 ++ " rows.".toList, ?_⟩
    unfold onRows
    rw [show " rows and ".toList = " rows".toList ++ " and ".toList from rfl]
    simp only [List.append_assoc]
  · refine ⟨n1 ++ " and ".toList ++ n2 ++ " should have same number of rows. ".toList ++ n1 ++ " has ".toList
      ++ num r1 ++ " rows and ".toList, ".".toList, ?_⟩
    unfold onRows
    rw [show " rows.".toList = " rows".toList ++ ".".toList from rfl]
    simp only [List.append_assoc]

/-- C53 (partial): the exception `PreviewSystem::system` throws when the initial state does not fit the state or
the control matrix names both arguments and states their row counts.  Missing: the bias (`c53_false_bias`) and
all mismatches reported by constraints and costs (`c53_false_autoSpan`). -/
theorem c53_system_partial (state control : Mat K) (bias xInit : Vec K) (N : Int) :
    (xInit.rows ≠ state.rows → ∃ m, systemMessage state control bias xInit N = some m ∧
      States m "xInit".toList xInit.rows ∧ States m "state".toList state.rows) ∧
    (xInit.rows = state.rows → state.rows = state.cols → xInit.rows ≠ control.rows →
      ∃ m, systemMessage state control bias xInit N = some m ∧
        States m "xInit".toList xInit.rows ∧ States m "control".toList control.rows) := by
  constructor
  · intro h
    refine ⟨_, ?_, onRows_states _ _ _ _⟩
    unfold systemMessage; rw [if_pos h]
  · intro h1 h2 h3
    refine ⟨_, ?_, onRows_states _ _ _ _⟩
    unfold systemMessage; rw [if_neg (by simpa using h1), if_neg (by simpa using h2), if_pos h3]

/-- A message exists exactly when `PreviewSystem::system` throws. -/
theorem systemMessage_iff (ps : PreviewSystem K) (state control : Mat K) (bias xInit : Vec K) (N : Int) :
    (systemMessage state control bias xInit N).isSome = true ↔
      ps.system state control bias xInit N = .thrown .domainError ps := by
  unfold systemMessage PreviewSystem.system
  split_ifs <;> simp [Res.ofOption]
  split <;> simp

theorem ne_thrown {α : Type} {o : Option α} {e : Exn} {a : α} : Res.ofOption o = .thrown e a ↔ False := by
  cases o <;> simp [Res.ofOption]

/-- A message exists exactly when `initializeConstraint` throws. -/
theorem constrMessage_iff (junk : Junk K) (ps : PreviewSystem K) (c : Constr K) :
    (constrMessage ps c).isSome = true ↔ ∃ e, c.initializeConstraint junk ps = .thrown e c := by
  unfold constrMessage Constr.initializeConstraint
  cases c.kind <;> simp only
  · unfold Constr.initTrajectory
    split_ifs <;> simp_all [ne_thrown]
  · unfold Constr.initControl
    split_ifs <;> simp_all [ne_thrown]
  · unfold Constr.initMixed
    split_ifs <;> simp_all [ne_thrown]
  · unfold Constr.initTrajBound
    split_ifs <;> simp_all [ne_thrown]
  · unfold Constr.initCtrlBound
    split_ifs <;> simp_all [ne_thrown]

/-- A message exists exactly when `initializeCost` throws. -/
theorem costMessage_iff (junk : Junk K) (ps : PreviewSystem K) (c : Cost K) :
    (costMessage ps c).isSome = true ↔ ∃ e c', c.initializeCost junk ps = .thrown e c' := by
  unfold costMessage Cost.initializeCost
  cases c.kind <;> simp only
  · unfold Cost.initTrajectory Cost.allocBase
    simp only
    split_ifs <;> simp_all [ne_thrown]
  · unfold Cost.initTarget Cost.allocBase
    simp only
    split_ifs <;> simp_all [ne_thrown]
  · unfold Cost.initControl Cost.allocBase
    simp only
    split_ifs <;> simp_all [ne_thrown]
  · unfold Cost.initMixed Cost.allocBase
    simp only
    split_ifs <;> simp_all [ne_thrown]

/-- C53 is false for the bias: its mismatch is reported as one between `xInit` and `state`
(src/PreviewSystem.cpp 29). -/
theorem c53_false_bias : ∃ (state control : Mat ℚ) (bias xInit : Vec ℚ) (m : List Char),
    xInit.rows ≠ bias.rows ∧ systemMessage state control bias xInit 1 = some m ∧ ¬ "bias".toList <:+: m :=
  ⟨.identity 1 1, .identity 1 1, .zero 2, .zero 1, _, by decide, rfl, by decide⟩

/-- C53 is false for constraints (and costs): the hint about `autoSpan` overwrites the message it was meant to
follow, because the string stream is opened without `std::ios::ate` (src/debugUtils.cpp 21-22): neither row
count of the first argument survives. -/
theorem c53_false_autoSpan : ∃ (ps : PreviewSystem ℚ) (c : Constr ℚ) (m : List Char),
    c.E.rows ≠ c.f.rows ∧ constrMessage ps c = some m ∧ ¬ States m "E".toList c.E.rows :=
  ⟨PreviewSystem.default, Constr.mkTrajectory (.identity 2 2) (.const 4 (.fin 0)), _, by decide, rfl, by decide⟩

example : (systemMessage (K := ℚ) (.identity 3 3) (.identity 3 1) (.zero 3) (.zero 2) 5 : Option (List Char)).map String.ofList =
    some "xInit and state should have same number of rows. xInit has 2 rows and state has 3 rows." := by decide

end Copra.Messages
