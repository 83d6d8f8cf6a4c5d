import Verif.Props.Supplied
import Verif.Props.Assign

/-! # C102, C103: the assignment and the solve after it, in terms of what was assigned -/

namespace Copra
open Spec

set_option linter.unusedSectionVars false
variable {K : Type} [Field K] [LinearOrder K] [IsStrictOrderedRing K]

namespace World
variable {d : Dims} {dmax : K} {E : World K → Op K → Prop} {w w' w1 w2 w3 w4 : World K} {g : Ghost}
  {env : SolveEnv K} {b : Bool} {q : QP K} {p : Nat}

/-- The four assignments leave everything else alone. -/
theorem supply_world {Phi Psi : Mat K} {xi : Vec K}
    (h1 : w.sstep dmax (.writePhi p Phi) = .ok w1) (h2 : w1.sstep dmax (.writePsi p Psi) = .ok w2)
    (h3 : w2.sstep dmax (.writeXi p xi) = .ok w3) (h4 : w3.sstep dmax (.markUpdated p) = .ok w4) :
    w4.ctl = w.ctl ∧ w4.cons = w.cons ∧ w4.costs = w.costs ∧
    w4.pss p = { w.pss p with Phi := Phi, Psi := Psi, xi := xi, isUpdated := true } ∧ ∀ j, j ≠ p → w4.pss j = w.pss j := by
  injection h1 with h1; subst h1
  injection h2 with h2; subst h2
  injection h3 with h3; subst h3
  injection h4 with h4; subst h4
  refine ⟨rfl, rfl, rfl, ?_, fun j hj => ?_⟩
  · simp only [upd, if_pos]
  · simp only [upd, if_neg hj]

theorem supply_hist {Phi Psi : Mat K} {xi : Vec K} (h : SHist d dmax E w g) (hp : HasSystem w p)
    (hf : PhiFits d Phi ∧ PsiFits d Psi ∧ XiFits d xi)
    (h1 : w.sstep dmax (.writePhi p Phi) = .ok w1) (h2 : w1.sstep dmax (.writePsi p Psi) = .ok w2)
    (h3 : w2.sstep dmax (.writeXi p xi) = .ok w3) (h4 : w3.sstep dmax (.markUpdated p) = .ok w4) :
    SHist d dmax E w4 g := by
  have H1 : SHist d dmax E w1 g := SHist.ok (op := .writePhi p Phi) h ⟨hp, hf.1⟩ trivial h1
  injection h1 with h1; subst h1
  have H2 : SHist d dmax E w2 g := SHist.ok (op := .writePsi p Psi) H1
    ⟨by simpa [HasSystem, upd] using hp, hf.2.1⟩ trivial h2
  injection h2 with h2; subst h2
  have H3 : SHist d dmax E w3 g := SHist.ok (op := .writeXi p xi) H2
    ⟨by simpa [HasSystem, upd] using hp, hf.2.2⟩ trivial h3
  injection h3 with h3; subst h3
  exact SHist.ok (op := .markUpdated p) H3 (show HasSystem _ p by simpa [HasSystem, upd] using hp) trivial h4

/-- **C102** (program): assign the prediction matrices of a time-varying system, set `isUpdated`, solve.  `control()` then
steers that system from the initial state through every registered constraint at the least total cost, and `trajectory()`
is its simulation. -/
theorem c102_supply_then_solve (h : SHist d dmax E w g) (hE : ∀ w op, E w op → NoBoundSpan w op)
    (hsys : HasSystem w p) (hp : w.ctl.ps = some p)
    {A B : Nat → Mat K} {v : Nat → Vec K} {Phi Psi : Mat K} {xi : Vec K} (V : Varying d A B v Phi Psi xi)
    (hPhi : Phi.rows = d.n * (d.N + 1) ∧ Phi.cols = d.n) (hPsi : Psi.rows = d.n * (d.N + 1) ∧ Psi.cols = d.m * d.N)
    (hxi : xi.rows = d.n * (d.N + 1))
    (h1 : w.sstep dmax (.writePhi p Phi) = .ok w1) (h2 : w1.sstep dmax (.writePsi p Psi) = .ok w2)
    (h3 : w2.sstep dmax (.writeXi p xi) = .ok w3) (h4 : w3.sstep dmax (.markUpdated p) = .ok w4)
    (hs : w4.solve env = some (w', true, q))
    (ho : OpOk d w g (.solve env)) (hi : w.ctl.isInit = false) (hb : w.ctl.spBoundConstr = [] → g.clean)
    (hh : ∀ i ∈ w.ctl.spConstr, (w.cons i).userData.Honest) (hf : CostsFresh d w g)
    (hm : (∃ i ∈ w.ctl.spConstr, (w.cons i).userData.PerStepMixed d) → DelayOnly d Psi)
    (hopt : IsOptimal q (env.answer q).2.e) :
    IsStacked d (simVarying d A B v (w.pss p).x0.e w'.ctl.control.e) w'.ctl.trajectory ∧
    (∀ i ∈ w.ctl.spConstr, (w.cons i).userData.Holds d
      (simVarying d A B v (w.pss p).x0.e w'.ctl.control.e) w'.ctl.control.e) ∧
    ∀ U : Nat → K, (∀ i ∈ w.ctl.spConstr, (w.cons i).userData.Holds d (simVarying d A B v (w.pss p).x0.e U) U) →
      (∀ j < d.m * d.N, -dmax ≤ U j ∧ U j ≤ dmax) →
      totalCostVarying d A B v w p w'.ctl.control.e ≤ totalCostVarying d A B v w p U := by
  have H := supply_hist h hsys (c102_varying_fits V hPhi hPsi hxi) h1 h2 h3 h4
  obtain ⟨ec, en, es, ep, _⟩ := supply_world h1 h2 h3 h4
  have hx : (w4.pss p).x0 = (w.pss p).x0 := by rw [ep]
  have hu : (w4.pss p).isUpdated = true := by rw [ep]
  have V4 : Varying d A B v (w4.pss p).Phi (w4.pss p).Psi (w4.pss p).xi := by rw [ep]; exact V
  have ho4 : OpOk d w4 g (.solve env) := by
    refine ⟨?_, ?_⟩
    · rw [ec]; exact ho.1
    · rw [ec]; exact ho.2
  have hi4 : w4.ctl.isInit = false := by rw [ec]; exact hi
  have hp4 : w4.ctl.ps = some p := by rw [ec]; exact hp
  have hm4 : MixedSuits d w4 p := by
    intro a _
    rw [ec, en] at a
    rw [ep]; exact hm a
  have hf4 : CostsFresh d w4 g := by
    unfold CostsFresh; rw [ec, es]; exact hf
  have T := c102_varying_trajectory H ho4 hi4 hs hp4 hu V4
  have O := c102_varying_optimum H hE ho4 hi4 (by rw [ec]; exact hb) (by rw [ec, en]; exact hh) hf4 hs hp4 hm4 hopt hu V4
  simp only [totalCostVarying, ec, en, es, hx] at T O ⊢
  exact ⟨T, O⟩

/-! ## Assignment of whole objects -/

/-- **C103** (program, constraints): `*j = *i`, then solve.  The problem admits exactly the controls under which the
prediction in force satisfies every registered constraint, with the data of `i` in the place of that of `j`. -/
theorem c103_assign_constraint_then_solve (h : EHist d dmax E w g) (hE : ∀ w op, E w op → NoBoundSpan w op)
    {j i : Nat} (ha : MayAssignConstr w g j i)
    (ho : OpOk d w g (.solve env)) (hi : w.ctl.isInit = false) (hb : w.ctl.spBoundConstr = [] → g.clean)
    (hj : (w.cons i).userData.Honest) (hh : ∀ k ∈ w.ctl.spConstr, k ≠ j → (w.cons k).userData.Honest)
    (hs : (w.copyConstr j i).solve env = some (w', b, q)) (hp : w.ctl.ps = some p)
    (hm : MixedSuits d (w.copyConstr j i) p) (U : Nat → K) :
    Feasible q U ↔
      (∀ k ∈ w.ctl.spConstr, (k = j → (w.cons i).userData.Holds d (trajNow d w p U) U) ∧
        (k ≠ j → (w.cons k).userData.Holds d (trajNow d w p U) U)) ∧
      (w.ctl.spBoundConstr = [] → ∀ l < d.m * d.N, -dmax ≤ U l ∧ U l ≤ dmax) := by
  have hc : ∀ k, (w.copyConstr j i).cons k = if k = j then w.cons i else w.cons k := fun k => rfl
  have key := c103_feasible (EHist.assignConstr h ha) hE (env := env) (p := p) ho hi hb
    (fun k hk => by
      rw [hc]; by_cases e : k = j
      · rw [if_pos e]; exact hj
      · rw [if_neg e]; exact hh k hk e) hs hp hm U
  rw [key]
  refine and_congr (forall₂_congr fun k hk => ?_) Iff.rfl
  rw [hc]
  by_cases e : k = j
  · rw [if_pos e]
    exact ⟨fun a => ⟨fun _ => a, fun n => absurd e n⟩, fun a => a.1 e⟩
  · rw [if_neg e]
    exact ⟨fun a => ⟨fun n => absurd n e, fun _ => a⟩, fun a => a.2 e⟩

/-- **C103** (program, costs): `*j = *i`, then solve.  The objective is, up to a constant, the total cost of the predicted
trajectory with the data and weights of `i` in the place of those of `j`. -/
theorem c103_assign_cost_then_solve (h : EHist d dmax E w g) {j i : Nat} (ha : MayAssignCost d w g j i)
    (ho : OpOk d w g (.solve env)) (hi : w.ctl.isInit = false)
    (hf : CostsFresh d (w.copyCost j i) (g.assignCost d w j i))
    (hs : (w.copyCost j i).solve env = some (w', b, q)) (hp : w.ctl.ps = some p) :
    ∃ k : K, ∀ U : Nat → K, objective q U =
      1 / 2 * (w.ctl.spCost.map fun l =>
        (if l = j then (w.costs i).userData else (w.costs l).userData).value d (trajNow d w p U) U).sum
      + 1 / 2 * (1 / 1000000) * ∑ l ∈ Finset.range (d.m * d.N), U l ^ 2 + k := by
  have hc : ∀ l, (w.copyCost j i).costs l = if l = j then w.costs i else w.costs l := fun l => rfl
  obtain ⟨k, hk⟩ := c103_objective (EHist.assignCost h ha) (env := env) (p := p) ho hi hf hs hp
  refine ⟨k, fun U => ?_⟩
  rw [hk U]
  unfold totalCostNow
  simp only [hc, apply_ite Cost.userData]
  rfl

/-- **C103** (program, preview systems): `*p = *r`, then solve.  `trajectory()` is the prediction in force of `r` from the
initial state of `r` under `control()`, which is the answer of the solver. -/
theorem c103_assign_system_then_solve (h : EHist d dmax E w g) {r : Nat} (hr : HasSystem w r)
    (ho : OpOk d w g (.solve env)) (hi : w.ctl.isInit = false)
    (hs : (w.copyPs p r).solve env = some (w', true, q)) (hp : w.ctl.ps = some p) :
    w'.ctl.control.rows = d.m * d.N ∧ (∀ j < d.m * d.N, w'.ctl.control.e j = (env.answer q).2.e j) ∧
    IsStacked d (trajNow d w r w'.ctl.control.e) w'.ctl.trajectory := by
  have key := c103_trajectory (EHist.assignPs h hr) (env := env) (p := p) ho hi hs hp
  have e : trajNow d (w.copyPs p r) p = trajNow d w r := by
    funext U
    unfold trajNow copyPs
    simp only [upd, if_pos]
  rw [e] at key
  exact key

/-- **C103** (program, preview systems): the problem of that solve admits exactly the controls under which the prediction
in force of `r` satisfies every registered constraint. -/
theorem c103_assign_system_feasible (h : EHist d dmax E w g) (hE : ∀ w op, E w op → NoBoundSpan w op)
    {r : Nat} (hr : HasSystem w r)
    (ho : OpOk d w g (.solve env)) (hi : w.ctl.isInit = false) (hb : w.ctl.spBoundConstr = [] → g.clean)
    (hh : ∀ i ∈ w.ctl.spConstr, (w.cons i).userData.Honest)
    (hs : (w.copyPs p r).solve env = some (w', b, q)) (hp : w.ctl.ps = some p) (hm : MixedSuits d w r) (U : Nat → K) :
    Feasible q U ↔
      (∀ i ∈ w.ctl.spConstr, (w.cons i).userData.Holds d (trajNow d w r U) U) ∧
      (w.ctl.spBoundConstr = [] → ∀ j < d.m * d.N, -dmax ≤ U j ∧ U j ≤ dmax) := by
  have e0 : (w.copyPs p r).pss p = w.pss r := by simp only [copyPs, upd, if_pos]
  have e : trajNow d (w.copyPs p r) p = trajNow d w r := by
    funext U
    unfold trajNow
    rw [e0]
  have key := c103_feasible (EHist.assignPs h hr) hE (env := env) (p := p) ho hi hb hh hs hp
    (fun a u => by rw [e0] at u ⊢; exact hm a u) U
  rw [e] at key
  exact key

end World
end Copra
