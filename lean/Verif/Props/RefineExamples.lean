import Verif.Props.Refine
import Verif.Props.EndToEndExamples

/-! # C90 on a concrete program -/

namespace Copra.Ex
open Spec World

set_option maxRecDepth 100000

theorem exec_after {d : Dims} {dmax : ℚ} {E : World ℚ → Op ℚ → Prop} {w0 w : World ℚ} {l : List (Op ℚ × Option Exn)} {g : Ghost} {op : Op ℚ}
    (h : Executes d dmax E w0 l w g) (ho : OpOk d w g op) (he : E w op) (hk : okB dmax w op = true) :
    Executes d dmax E w0 (l ++ [(op, none)]) (after dmax w op) (g.next w True op) := .ok h ho he (okB_step hk)

/-- The program of `ExWorld`, all of whose calls return. -/
def calls12 : List (Op ℚ × Option Exn) :=
  [(opSys, none), (opCtl, none), (.addConstraint 0 jk, none), (.addConstraint 1 jk, none), (.addConstraint 2 jk, none),
   (.addConstraint 3 jk, none), (.addConstraint 4 jk, none), (.addCost 0 jk, none), (.addCost 1 jk, none), (.addCost 2 jk, none),
   (.addCost 3 jk, none), (.weight 1 3, none)]

theorem x12 : Executes d 1000 NoBoundSpan w0 calls12 w12 g12 := by
  have a1 := exec_after (d := d) (dmax := 1000) (E := NoBoundSpan) (op := opSys) (.start w0_init) ⟨rfl, rfl, rfl⟩ trivial
    (by decide +kernel)
  have a2 := exec_after (op := opCtl) a1 (show HasSystem w1 0 by unfold HasSystem; decide +kernel) trivial (by decide +kernel)
  have a3 := exec_after (op := .addConstraint 0 jk) a2 (fun _ => (by decide +kernel)) trivial (by decide +kernel)
  have a4 := exec_after (op := .addConstraint 1 jk) a3 (fun _ => (by decide +kernel : w3.ctl.spBoundConstr = [])) trivial
    (by decide +kernel : okB 1000 w3 _ = true)
  have a5 := exec_after (op := .addConstraint 2 jk) a4 (fun _ => (by decide +kernel : w4.ctl.spBoundConstr = [])) trivial
    (by decide +kernel : okB 1000 w4 _ = true)
  have a6 := exec_after (op := .addConstraint 3 jk) a5 (fun h => absurd h (by decide +kernel : (w5.cons 3).kind ≠ .ctrlBound))
    trivial (by decide +kernel : okB 1000 w5 _ = true)
  have a7 := exec_after (op := .addConstraint 4 jk) a6 (fun h => absurd h (by decide +kernel : (w6.cons 4).kind ≠ .ctrlBound))
    trivial (by decide +kernel : okB 1000 w6 _ = true)
  have a8 := exec_after (op := .addCost 0 jk) a7 trivial trivial (by decide +kernel : okB 1000 w7 _ = true)
  have a9 := exec_after (op := .addCost 1 jk) a8 trivial trivial (by decide +kernel : okB 1000 w8 _ = true)
  have a10 := exec_after (op := .addCost 2 jk) a9 trivial trivial (by decide +kernel : okB 1000 w9 _ = true)
  have a11 := exec_after (op := .addCost 3 jk) a10 trivial trivial (by decide +kernel : okB 1000 w10 _ = true)
  exact exec_after (op := .weight 1 3) a11 trivial trivial (by decide +kernel : okB 1000 w11 _ = true)

/-- A second `addConstraint` of the control constraint throws `runtime_error`, in the library and in the machine. -/
theorem w12_again : w12.step 1000 (.addConstraint 1 jk) = .thrown .runtimeError (after 1000 w12 (.addConstraint 1 jk)) := by
  have e : (match w12.step 1000 (.addConstraint 1 jk) with | .thrown .runtimeError _ => true | _ => false) = true := by decide +kernel
  unfold after
  cases hs : w12.step 1000 (.addConstraint 1 jk) <;> rw [hs] at e
  · cases e
  · rename_i ex _; cases ex
    · cases e
    · rfl
  · cases e

/-- The execution, with the refused call, is one of the machine. -/
example : ∃ w, Declares (declared w0) (calls12 ++ [(.addConstraint 1 jk, some .runtimeError)]) (declared w) ∧
    (declared w).regC = [0, 1, 2, 3, 4] ∧ (declared w).regK = [0, 1, 2, 3] ∧ ((declared w).sys 0).x0.e 0 = 1 ∧
    ((declared w).costs 1).weightsOf.e 0 = 3 :=
  ⟨_, c90_refines (.thrown x12 (fun h => absurd h (by decide +kernel : (w12.cons 1).kind ≠ .ctrlBound)) trivial w12_again),
    by decide +kernel, by decide +kernel, by decide +kernel, by decide +kernel⟩

/-- What the solve after it returns is optimal for the machine's problem, with any back end. -/
example (k : SolverKind) (junk : Junk ℚ) : ∃ D, Declares (declared w0) calls12 D ∧ D.ps = some 0 ∧ D.isInit = false ∧
    D.Admits d 0 w13.ctl.control.e ∧ IsStacked d (D.traj d 0 w13.ctl.control.e) w13.ctl.trajectory ∧
    ∀ V : Nat → ℚ, D.Admits d 0 V → (∀ j < d.m * d.N, -1000 ≤ V j ∧ V j ≤ 1000) →
      (k = .osqp → ∀ i < q13.Aineq.rows, -1000 ≤ rowValue q13.Aineq V i) →
      D.cost d 0 w13.ctl.control.e ≤ D.cost d 0 V :=
  c90_answer (k := k) (junk := junk) x12 o13 plain12 (fun h => by rw [bound12] at h; cases h) honest12 fresh12 s13 ps12
    (by decide +kernel) (backEndOptimal_of (by decide +kernel) (by decide +kernel) (by decide +kernel) opt13)

end Copra.Ex
