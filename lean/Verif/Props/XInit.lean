import Verif.Props.EndToEndExamples
import Verif.Proofs.Multi

/-! # C06 at the level of a controller: after `xInit` the next problem is that of the new initial state -/

namespace Copra
open Spec

set_option linter.unusedSectionVars false
set_option maxRecDepth 100000

section
variable {K : Type} [Field K] [LinearOrder K] [IsStrictOrderedRing K]

namespace World

/-- A solve does not recompute the matrices of a system that is up to date. -/
theorem solve_keeps_updated {w w' : World K} {env : SolveEnv K} {b : Bool} {q : QP K} {p : Nat} (hp : w.ctl.ps = some p)
    (hu : (w.pss p).isUpdated = true) (hs : w.solve env = some (w', b, q)) : w'.pss = w.pss := by
  obtain ⟨p', ps, hp', hps, e, _⟩ := solve_withHeap hs
  rw [hp] at hp'; cases hp'
  rw [if_pos hu, Option.some.injEq] at hps
  rw [e, ← hps]
  exact upd_self _ _

/-- **C06** (problem): after `xInit(x)` on the controller's system, the next `solve` — with no system update when the
system was up to date — hands over the problem of the new initial state: its feasible set is given by the registered
constraints on the simulations from `x`, its objective is the total cost of those simulations. -/
theorem c06_next_problem {d : Dims} {dmax : K} {E : World K → Op K → Prop} {w w1 w' : World K} {g : Ghost}
    {env : SolveEnv K} {b : Bool} {q : QP K} {p : Nat} {x : Vec K} (h : Hist d dmax E w g)
    (hE : ∀ w op, E w op → NoBoundSpan w op) (hx : x.rows = d.n) (he : E w (.xInit p x))
    (h1 : w.step dmax (.xInit p x) = .ok w1)
    (ho : OpOk d w g (.solve env)) (hi : w.ctl.isInit = false) (hb : w.ctl.spBoundConstr = [] → g.clean)
    (hh : ∀ i ∈ w.ctl.spConstr, (w.cons i).userData.Honest) (hf : CostsFresh d w g)
    (hs : w1.solve env = some (w', b, q)) (hp : w.ctl.ps = some p) :
    ((w.pss p).isUpdated = true →
      (w'.pss p).Phi = (w.pss p).Phi ∧ (w'.pss p).Psi = (w.pss p).Psi ∧ (w'.pss p).xi = (w.pss p).xi) ∧
    (∀ U, Feasible q U ↔
      (∀ i ∈ w.ctl.spConstr, (w.cons i).userData.Holds d (trajFrom d w p x.e U) U) ∧
      (w.ctl.spBoundConstr = [] → ∀ j < d.m * d.N, -dmax ≤ U j ∧ U j ≤ dmax)) ∧
    ∃ k : K, ∀ U, objective q U = totalCostFrom d w p x.e U + k := by
  have H1 : Hist d dmax E w1 g := .ok (op := .xInit p x) h hx he h1
  simp only [step, Res.ok.injEq] at h1
  subst h1
  have ht : ∀ U, Spec.traj d { w with pss := upd w.pss p ((w.pss p).setXInit x) } p U = trajFrom d w p x.e U := by
    intro U
    unfold Spec.traj trajFrom
    simp only [upd, if_true]
    rfl
  refine ⟨fun hu => ?_, fun U => ?_, ?_⟩
  · have := solve_keeps_updated (w := { w with pss := upd w.pss p ((w.pss p).setXInit x) }) (p := p) hp (by show (upd w.pss p _ p).isUpdated = true; rw [upd, if_pos rfl]; exact hu) hs
    rw [this]
    show (upd w.pss p _ p).Phi = _ ∧ (upd w.pss p _ p).Psi = _ ∧ (upd w.pss p _ p).xi = _
    rw [upd, if_pos rfl]
    exact ⟨rfl, rfl, rfl⟩
  · have := c30_feasible_set H1 hE ho hi hb hh hs hp U
    rw [ht U] at this
    exact this
  · obtain ⟨k, hk⟩ := c32_objective H1 ho hi hf hs hp
    refine ⟨k, fun U => ?_⟩
    rw [hk U]
    unfold totalCost totalCostFrom
    rw [ht U]

end World
end

namespace Ex
open World

/-- C06 applies: after a solve of the program of `ExWorld` with two costs, a new initial state. -/
def x06 : Vec ℚ := vec [3, -1]
def y12 := after 1000 w12 (.updatePs 0)
def y13 := after 1000 y12 (.xInit 0 x06)
def ry : World ℚ × Bool × QP ℚ := (y13.solve opt).getD (y13, false, q13)

theorem hy12 : Hist d 1000 Careful y12 g12 :=
  hist_after (op := .updatePs 0) h12 (show HasSystem w12 0 by unfold HasSystem; decide +kernel) ⟨trivial, trivial, trivial⟩
    (by decide +kernel)

theorem sy : y13.solve opt = some (ry.1, true, ry.2.2) := by
  have e : (y13.solve opt).isSome = true := by decide +kernel
  obtain ⟨r, hr⟩ := Option.isSome_iff_exists.1 e
  have h1 : ry = r := by unfold ry; rw [hr]; rfl
  have h2 : ry.2.1 = true := by decide +kernel
  rw [hr, ← h2, h1]

theorem fresh_y12 : CostsFresh d y12 g12 := fresh12
theorem honest_y12 : ∀ i ∈ y12.ctl.spConstr, (y12.cons i).userData.Honest := honest12

example := c06_next_problem hy12 (fun _ _ h => h.1) rfl ⟨trivial, trivial, trivial⟩ (okB_step (by decide +kernel)) (solvable
  (by decide +kernel) (by decide +kernel) (by decide +kernel) g12) (by decide +kernel)
  (fun h => absurd h (by decide +kernel)) honest_y12 fresh_y12 sy (by decide +kernel : y12.ctl.ps = some 0)
example : (y12.pss 0).isUpdated = true := by decide +kernel

end Ex
end Copra
