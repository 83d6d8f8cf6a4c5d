import Verif.Props.Frame
import Verif.Props.InitState2
import Verif.Props.InitExamples

/-! # What changes the configuration of a controller: C64, and C46 for freshly constructed controllers -/

namespace Copra

namespace Spec
variable {K : Type}

/-- The call makes a new controller. -/
def Makes : Op K → Prop
  | .construct _ _ | .constructPs _ _ _ _ => True
  | _ => False

/-- The calls after which an `InitialStateLMPC` constructed for system `p` is still tied to the initial state of `p`:
all but making a new controller, giving it another system, resetting its initial-state bounds and changing the system's
initial state. -/
def KeepsPin (p : Nat) (_ : World K) (op : Op K) : Prop :=
  ¬ Makes op ∧ (∀ q jk, op ≠ .initializeController q jk) ∧ (∀ l u, op ≠ .resetInitialStateBounds l u) ∧
  (∀ A B v x N, op ≠ .system p A B v x N) ∧ ∀ x, op ≠ .xInit p x

end Spec
open Spec

set_option linter.unusedSectionVars false
set_option maxRecDepth 100000

section
variable {K : Type} [Field K] [LinearOrder K] [IsStrictOrderedRing K]
namespace World
variable {d : Dims} {dmax : K} {E : World K → Op K → Prop} {w w' : World K} {g : Ghost} {op : Op K}

/-- **C64** (controllers): the class of a controller changes only by constructing it; its system only by constructing
it or `initializeController`; its initial-state cost and its initial-state bounds only by constructing it or by
`resetInitialStateCost` and `resetInitialStateBounds` respectively.  No other call does, whether it returns or throws. -/
theorem c64_controller (hs : w.step dmax op = .ok w' ∨ ∃ e, w.step dmax op = .thrown e w') (hm : ¬ Makes op) :
    w'.ctl.isInit = w.ctl.isInit ∧
    ((∀ q jk, op ≠ .initializeController q jk) → w'.ctl.ps = w.ctl.ps) ∧
    ((∀ R r, op ≠ .resetInitialStateCost R r) → w'.ctl.R = w.ctl.R ∧ w'.ctl.r = w.ctl.r) ∧
    ((∀ l u, op ≠ .resetInitialStateBounds l u) → w'.ctl.x0lb = w.ctl.x0lb ∧ w'.ctl.x0ub = w.ctl.x0ub) := by
  have same : w'.ctl = w.ctl → w'.ctl.isInit = w.ctl.isInit ∧
      ((∀ q jk, op ≠ .initializeController q jk) → w'.ctl.ps = w.ctl.ps) ∧
      ((∀ R r, op ≠ .resetInitialStateCost R r) → w'.ctl.R = w.ctl.R ∧ w'.ctl.r = w.ctl.r) ∧
      ((∀ l u, op ≠ .resetInitialStateBounds l u) → w'.ctl.x0lb = w.ctl.x0lb ∧ w'.ctl.x0ub = w.ctl.x0ub) := by
    intro e
    rw [e]
    exact ⟨rfl, fun _ => rfl, fun _ => ⟨rfl, rfl⟩, fun _ => ⟨rfl, rfl⟩⟩
  rcases hs with hs | ⟨e, hs⟩
  swap
  · exact same (thrown_inv hs).1
  cases op with
  | construct => exact absurd trivial hm
  | constructPs => exact absurd trivial hm
  | solve env =>
    obtain ⟨b, q, h⟩ := step_solve_ok hs
    have F := (solve_frame h).1
    exact ⟨F.isInit, fun _ => F.ps, fun _ => ⟨F.R, F.r⟩, fun _ => ⟨F.x0lb, F.x0ub⟩⟩
  | clearConstraints =>
    simp only [step, Res.ofOption_ok] at hs
    obtain ⟨p, n, _, _, rfl⟩ := clearConstraints_inv hs
    exact ⟨rfl, fun _ => rfl, fun _ => ⟨rfl, rfl⟩, fun _ => ⟨rfl, rfl⟩⟩
  | initializeController p jk =>
    simp only [step, Res.map_ok, Res.ofOption_ok] at hs
    obtain ⟨l, hl, rfl⟩ := hs
    obtain ⟨n, _, rfl⟩ := initializeController_inv hl
    exact ⟨rfl, fun h => absurd rfl (h p jk), fun _ => ⟨rfl, rfl⟩, fun _ => ⟨rfl, rfl⟩⟩
  | resetInitialStateCost R r =>
    simp only [step, Res.ok.injEq] at hs
    subst hs
    exact ⟨rfl, fun _ => rfl, fun h => absurd rfl (h R r), fun _ => ⟨rfl, rfl⟩⟩
  | resetInitialStateBounds l u =>
    simp only [step, Res.ok.injEq] at hs
    subst hs
    exact ⟨rfl, fun _ => rfl, fun _ => ⟨rfl, rfl⟩, fun h => absurd rfl (h l u)⟩
  | useSolver s =>
    simp only [step, Res.ok.injEq] at hs
    subst hs
    exact ⟨rfl, fun _ => rfl, fun _ => ⟨rfl, rfl⟩, fun _ => ⟨rfl, rfl⟩⟩
  | removeCost i =>
    simp only [step, Res.ok.injEq] at hs
    subst hs
    exact ⟨rfl, fun _ => rfl, fun _ => ⟨rfl, rfl⟩, fun _ => ⟨rfl, rfl⟩⟩
  | clearCosts =>
    simp only [step, Res.ok.injEq] at hs
    subst hs
    exact ⟨rfl, fun _ => rfl, fun _ => ⟨rfl, rfl⟩, fun _ => ⟨rfl, rfl⟩⟩
  | addCost i junk =>
    simp only [step] at hs
    unfold addCost at hs
    split at hs
    · cases hs
    · split at hs
      · injection hs with hs; subst hs
        exact ⟨rfl, fun _ => rfl, fun _ => ⟨rfl, rfl⟩, fun _ => ⟨rfl, rfl⟩⟩
      · cases hs
      · cases hs
  | addConstraint i junk =>
    simp only [step] at hs
    unfold addConstraint at hs
    split at hs
    · cases hs
    · split at hs
      · split at hs
        · rename_i l hl
          injection hs with hs; subst hs
          unfold LMPC.addConstraintByType at hl
          split at hl
          all_goals
            simp only [Option.bind_eq_bind, Option.bind_eq_some_iff, Option.pure_def, Option.some.injEq] at hl
            obtain ⟨_, _, rfl⟩ := hl
            exact ⟨rfl, fun _ => rfl, fun _ => ⟨rfl, rfl⟩, fun _ => ⟨rfl, rfl⟩⟩
        · cases hs
      · cases hs
      · cases hs
  | removeConstraint i =>
    simp only [step, Res.map_ok, Res.ofOption_ok] at hs
    obtain ⟨l, hl, rfl⟩ := hs
    unfold LMPC.removeConstraint at hl
    split at hl
    · simp only at hl
      split at hl
      all_goals
        simp only [Option.bind_eq_bind, Option.bind_eq_some_iff, Option.pure_def, Option.some.injEq] at hl
        obtain ⟨_, _, rfl⟩ := hl
        exact ⟨rfl, fun _ => rfl, fun _ => ⟨rfl, rfl⟩, fun _ => ⟨rfl, rfl⟩⟩
    · injection hl with hl; subst hl
      exact ⟨rfl, fun _ => rfl, fun _ => ⟨rfl, rfl⟩, fun _ => ⟨rfl, rfl⟩⟩
  | _ =>
    apply same
    simp only [step, Res.map_ok, Res.ok.injEq] at hs
    first
      | (subst hs; rfl)
      | (obtain ⟨_, _, rfl⟩ := hs; rfl)

theorem later_pinned {p : Nat} {w1 : World K} {g1 : Ghost} (i1 : w1.ctl.isInit = true) (hp : w1.ctl.ps = some p)
    (pin : w1.ctl.x0lb = (w1.pss p).x0.toExt ∧ w1.ctl.x0ub = (w1.pss p).x0.toExt)
    (h : Later d dmax (KeepsPin p) w1 g1 w' g) :
    w'.ctl.isInit = true ∧ w'.ctl.ps = some p ∧ w'.ctl.x0lb = (w'.pss p).x0.toExt ∧ w'.ctl.x0ub = (w'.pss p).x0.toExt := by
  have key : ∀ {v v' : World K} {op : Op K}, KeepsPin p v op → (v.step dmax op = .ok v' ∨ ∃ e, v.step dmax op = .thrown e v') →
      (v.ctl.isInit = true ∧ v.ctl.ps = some p ∧ v.ctl.x0lb = (v.pss p).x0.toExt ∧ v.ctl.x0ub = (v.pss p).x0.toExt) →
      (v'.ctl.isInit = true ∧ v'.ctl.ps = some p ∧ v'.ctl.x0lb = (v'.pss p).x0.toExt ∧ v'.ctl.x0ub = (v'.pss p).x0.toExt) := by
    intro v v' op hk hs ⟨a1, a2, a3, a4⟩
    obtain ⟨k1, k2, k3, k4, k5⟩ := hk
    obtain ⟨b1, b2, _, b4⟩ := c64_controller hs k1
    have hx : (v'.pss p).x0 = (v.pss p).x0 := by
      refine (Steps.pssChange hs p).2 ?_
      intro hr
      clear b1 b2 b4 hs
      match op, hr, k4, k5 with
      | .system q A B v x N, hr, k4, _ => cases hr; exact k4 A B v x N rfl
      | .xInit q x, hr, _, k5 => cases hr; exact k5 x rfl
    rw [b1, b2 k2, (b4 k3).1, (b4 k3).2, hx]
    exact ⟨a1, a2, a3, a4⟩
  induction h with
  | refl => exact ⟨i1, hp, pin.1, pin.2⟩
  | ok _ _ he hs ih => exact key he (Or.inl hs) ih
  | thrown _ _ he hs ih => exact key he (Or.inr ⟨_, hs⟩) ih

/-- **C46** (as constructed): an `InitialStateLMPC` constructed for a preview system is tied to the system's initial
state, whatever is called afterwards but for `resetInitialStateBounds`, changes of the system's initial state, and new
controllers or systems: every feasible point of every problem it hands to its solver starts at the system's initial
state, so that `c46_pinned` applies to it. -/
theorem c46_constructed {p : Nat} {s : Solver K} {jk : Junk K} {w1 w2 w3 : World K} {g2 : Ghost} {env : SolveEnv K} {b : Bool}
    {q : QP K} (h : Hist d dmax E w g) (hp : HasSystem w p) (h1 : w.step dmax (.constructPs true s p jk) = .ok w1)
    (hl : Later d dmax (KeepsPin p) w1 (g.next w True (.constructPs true s p jk)) w2 g2) :
    (w2.ctl.isInit = true ∧ w2.ctl.ps = some p ∧
      ∀ j < d.n, w2.ctl.x0lb.e j = Ext.fin ((w2.pss p).x0.e j) ∧ w2.ctl.x0ub.e j = Ext.fin ((w2.pss p).x0.e j)) ∧
    (OpOk d w2 g2 (.solve env) → w2.solve env = some (w3, b, q) → ∀ y, Feasible q y → ∀ j < d.n, y j = (w2.pss p).x0.e j) := by
  have k1 := Hist.ok (op := .constructPs true s p jk) (hist_any h) hp trivial h1
  have hh : w1.ctl.isInit = true ∧ w1.ctl.ps = some p ∧ w1.ctl.x0lb = (w1.pss p).x0.toExt ∧ w1.ctl.x0ub = (w1.pss p).x0.toExt := by
    simp only [step, Res.map_ok, Res.ofOption_ok] at h1
    obtain ⟨l, hl', rfl⟩ := h1
    obtain ⟨n, _, rfl⟩ := initializeController_inv hl'
    exact ⟨rfl, rfl, rfl, rfl⟩
  obtain ⟨a1, a2, a3, a4⟩ := later_pinned hh.1 hh.2.1 hh.2.2 hl
  have k2 : Hist d dmax AnyOp w2 g2 := by
    clear a1 a2 a3 a4
    induction hl with
    | refl => exact k1
    | ok _ o _ hs ih => exact .ok ih o trivial hs
    | thrown _ o _ hs ih => exact .thrown ih o trivial hs
  refine ⟨⟨a1, a2, fun j _ => ?_⟩, fun ho hs y hy j hj => ?_⟩
  · rw [a3, a4]; exact ⟨rfl, rfl⟩
  · have B := feasible_initBounds k2 ho a1 hs hy j hj
    exact Ext.pinned (by rw [a3]; rfl) (by rw [a4]; rfl) B.1 B.2

end World
end

namespace Ex
open World

/-- C46 (as constructed) applies to the controller of `InitExamples` after adding two constraints, adding a cost and
setting an initial-state cost. -/
example : ∃ w3 b q, i6.solve (envI yI true) = some (w3, b, q) ∧ ∀ y, Feasible q y → ∀ j < 2, y j = (i6.pss 0).x0.e j := by
  have a1 := hist_after (d := d) (dmax := 1000) (E := Careful) (op := opSys) (.start w0_init) ⟨rfl, rfl, rfl⟩
    ⟨trivial, trivial, trivial⟩ (by decide +kernel)
  have l3 := Later.ok (d := d) (dmax := 1000) (E := KeepsPin 0) (op := .addConstraint 0 jk) (.refl (w := i2)
    (g := (Ghost.start.next w0 True opSys).next w1 True (.constructPs true solver 0 jk)))
    (fun _ => (by decide +kernel : i2.ctl.spBoundConstr = [])) (by simp [KeepsPin, Makes])
    (okB_step (by decide +kernel : okB 1000 i2 _ = true))
  have l4 := l3.ok (op := .addConstraint 2 jk) (fun _ => (by decide +kernel : i3.ctl.spBoundConstr = [])) (by simp [KeepsPin, Makes])
    (okB_step (by decide +kernel : okB 1000 i3 _ = true))
  have l5 := l4.ok (op := .addCost 0 jk) trivial (by simp [KeepsPin, Makes]) (okB_step (by decide +kernel : okB 1000 i4 _ = true))
  have l6 := l5.ok (op := .resetInitialStateCost (mat 2 2 [[1, 0], [0, 1]]) (vec [1, 2])) trivial (by simp [KeepsPin, Makes])
    (okB_step (by decide +kernel : okB 1000 i5 _ = true))
  obtain ⟨w3, b, q, hs, _⟩ := c50_solve_defined hi6 (oI6 (y := yI) rfl true)
  exact ⟨w3, b, q, hs, (c46_constructed a1 (show HasSystem w1 0 by unfold HasSystem; decide +kernel)
    (okB_step (by decide +kernel : okB 1000 w1 (.constructPs true solver 0 jk) = true)) l6).2 (oI6 rfl true) hs⟩

/-- C64 (controllers) applies to that solve. -/
example : ∃ w3, i6.step 1000 (.solve (envI yI true)) = .ok w3 ∧ w3.ctl.x0lb = i6.ctl.x0lb := by
  obtain ⟨w3, b, q, _, hs, _⟩ := c50_solve_defined hi6 (oI6 (y := yI) rfl true)
  exact ⟨w3, hs, ((c64_controller (Or.inl hs) id).2.2.2 (by simp)).1⟩

end Ex
end Copra
