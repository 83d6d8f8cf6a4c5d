import Verif.Props.Calls
import Verif.Props.UserAbortExamples

/-! # C114: the calls of the program of `UserExamples`, with a `solve` that its own class aborts -/

namespace Copra
open Spec

set_option linter.unusedSectionVars false
set_option maxRecDepth 100000

section
variable {K S : Type} [Field K]

namespace UWorld

theorem logged_after {d : Dims} {dmax : K} {X : UWorld K S} {g : Ghost} {n : Nat × Nat} {log : List (Call K)} {op : UOp K S}
    (h : Logged d dmax X g n log) (ho : UOk d X g op) (hn : ∀ env, op ≠ .api (.solve env)) (hk : uokB dmax X op = true)
    (hr : RowsFit (countRows n X (uafter dmax X op) op) op) :
    Logged d dmax (uafter dmax X op) (unext g X True op) (countRows n X (uafter dmax X op) op) log :=
  .ok h ho hn (uokB_step hk) hr

end UWorld
end

namespace Ex.User
open UWorld

/-- Up to `X10` no `solve` was called. -/
theorem lgX10 : ∃ n, Logged d 1000 X10 gX n [] := by
  have a1 := logged_after (d := d) (dmax := 1000) (op := .api opSys) (.start X0_init) ⟨⟨rfl, rfl, rfl⟩, trivial⟩ (by intro e h; cases h) (by decide +kernel) trivial
  have a2 := logged_after (op := .api opCtl) a1 ⟨show HasSystem X1.world 0 by unfold HasSystem; decide +kernel, trivial⟩
    (by intro e h; cases h) (by decide +kernel : uokB 1000 X1 _ = true) trivial
  have a3 := logged_after (op := .api (.addConstraint 0 jk)) a2 ⟨fun _ => (by decide +kernel : X2.world.ctl.spBoundConstr = []), trivial⟩
    (by intro e h; cases h) (by decide +kernel : uokB 1000 X2 _ = true) (show _ ≤ intMax ∧ _ ≤ intMax by decide +kernel)
  have a4 := logged_after (op := .api (.addConstraint 2 jk)) a3 ⟨fun _ => (by decide +kernel : X3.world.ctl.spBoundConstr = []), trivial⟩
    (by intro e h; cases h) (by decide +kernel : uokB 1000 X3 _ = true) (show _ ≤ intMax ∧ _ ≤ intMax by decide +kernel)
  have a5 := logged_after (op := .api (.addConstraint 10 jk)) a4
    ⟨fun h => absurd h (by decide +kernel : (X4.world.cons 10).kind ≠ .ctrlBound), trivial⟩ (by intro e h; cases h) (by decide +kernel : uokB 1000 X4 _ = true)
    (show _ ≤ intMax ∧ _ ≤ intMax by decide +kernel)
  have a6 := logged_after (op := .api (.addConstraint 11 jk)) a5
    ⟨fun h => absurd h (by decide +kernel : (X5.world.cons 11).kind ≠ .ctrlBound), trivial⟩ (by intro e h; cases h) (by decide +kernel : uokB 1000 X5 _ = true)
    (show _ ≤ intMax ∧ _ ≤ intMax by decide +kernel)
  have a7 := logged_after (op := .api (.addCost 0 jk)) a6 ⟨trivial, trivial⟩ (by intro e h; cases h) (by decide +kernel : uokB 1000 X6 _ = true) trivial
  have a8 := logged_after (op := .api (.addCost 1 jk)) a7 ⟨trivial, trivial⟩ (by intro e h; cases h) (by decide +kernel : uokB 1000 X7 _ = true) trivial
  have a9 := logged_after (op := .api (.addCost 10 jk)) a8 ⟨trivial, trivial⟩ (by intro e h; cases h) (by decide +kernel : uokB 1000 X8 _ = true) trivial
  exact ⟨_, logged_after (op := .callConstr 10 fun o => (o.1, 3/2)) a9 trivial (by intro e h; cases h) (by decide +kernel : uokB 1000 X9 _ = true) trivial⟩

/-- What a call is, without its preview system or matrices. -/
def tag : Call ℚ → String
  | .updateConstr i _ => s!"constraint {i}"
  | .updateCost i _ => s!"cost {i}"
  | .problem n e i => s!"problem {n} {e} {i}"
  | .solve _ none => "solve threw"
  | .solve _ (some true) => "solve: true"
  | .solve _ (some false) => "solve: false"
  | .result => "result"

/-- The `solve` that the budget aborts, with its calls. -/
def ta := (X10.solveUserThrowCalls jk (.constr 2 spoiled)).getD ([], X10)

theorem ta_eq : X10.solveUserThrowCalls jk (.constr 2 spoiled) = some (ta.1, Xa) := by
  have h : X10.solveUserThrowCalls jk (.constr 2 spoiled) = some ta := getD_of_isSome (by decide +kernel)
  have e := (c114_same (env := env xU true) (X := X10) (junk := jk)).2 (.constr 2 spoiled)
  rw [h, Xa_eq] at e
  rw [h]
  exact congrArg some (Prod.ext rfl (Option.some.inj e))

/-- The `solve` after that, with its calls. -/
def tb := (Xa.solveCalls (env xU true)).getD ([], Xa, false, q13)

theorem tb_eq : Xa.solveCalls (env xU true) = some (tb.1, ra.1, true, ra.2.2) := by
  have h : Xa.solveCalls (env xU true) = some tb := getD_of_isSome (by decide +kernel)
  have e := (c114_same (env := env xU true) (X := Xa) (junk := jk)).1
  rw [h, sa] at e
  rw [h]
  exact congrArg some (Prod.ext rfl (Option.some.inj e))

/-- The record of the program: a `solve` aborted, and one that was not. -/
theorem lgEnd : ∃ g n, Logged d 1000 ra.1 g n ([] ++ ta.1 ++ tb.1) :=
  lgX10.elim fun _ h => ⟨_, _, .solved (.aborted h ta_eq) oa confa tb_eq⟩

/-- ... is this one. -/
example : ([] ++ ta.1 ++ tb.1).map tag =
    ["constraint 0", "constraint 2", "constraint 10",
     "constraint 0", "constraint 2", "constraint 10", "cost 0", "cost 1", "cost 10",
     "problem 2 0 4", "solve: true", "result"] := by decide +kernel

/-- C114, the protocol, applies. -/
example : Protocol ([] ++ ta.1 ++ tb.1) := lgEnd.elim fun _ h => h.elim fun _ h => c114_protocol h

/-- C114, the calls of a `solve` and of an aborted one, apply. -/
example := haXa.elim fun _ h => c114_pattern h confa oa tb_eq (by decide +kernel : Xa.world.ctl.ps = some 0)
example := haX10.elim fun _ h => c114_aborted h ta_eq (by decide +kernel : X10.world.ctl.ps = some 0)

/-- The solver throws instead. -/
def tc (inProblem : Bool) := (Xa.solveThrowCalls (env xU true) inProblem).getD ([], Xa, q13)

theorem tc_eq (inProblem : Bool) : Xa.solveThrowCalls (env xU true) inProblem = some (tc inProblem) :=
  getD_of_isSome (by cases inProblem <;> decide +kernel)

/-- C114, a `solve` aborted by the solver, applies. -/
example (inProblem : Bool) := c114_thrown tb_eq (tc_eq inProblem)

example : ((tc false).1.map tag).drop 6 = ["problem 2 0 4", "solve threw"] ∧ ((tc true).1.map tag).drop 6 = ["problem 2 0 4"] := by
  decide +kernel

/-- A record that breaks the protocol: the result is read after a `solve` that failed. -/
example (a : SolveArgs ℚ) : ¬ Protocol [.problem 2 0 0, .solve a (some false), .result] := by
  rintro ⟨-, h⟩
  obtain ⟨pre, a', rest, e, hr⟩ := h [.problem 2 0 0, .solve a (some false)] [] rfl
  match pre, e with
  | [], e => cases e
  | [x], e => cases e
  | x :: y :: pre, e => simp at e

end Ex.User
end Copra
