import Verif.Proofs.Now2
import Verif.Props.Supplied

/-! # C102, C103: unique minimiser, solvability, back ends; one prediction matrix replaced -/

namespace Copra
open Spec

set_option linter.unusedSectionVars false
variable {K : Type} [Field K] [LinearOrder K] [IsStrictOrderedRing K]

namespace World
variable {d : Dims} {dmax : K} {E : World K → Op K → Prop} {w w' w1 : World K} {g : Ghost}
  {env : SolveEnv K} {b : Bool} {q : QP K} {p : Nat}

/-- **C102** (one matrix replaced): on a system that is up to date, `ps->Phi = M`, `ps->Psi = M` or `ps->xi = v` alone
takes effect at the next solve: `trajectory()` is the prediction with the new member and the two others as they were. -/
theorem c102_replace_one (h : SHist d dmax E w g) (hsys : HasSystem w p) (hp : w.ctl.ps = some p)
    (hu : (w.pss p).isUpdated = true) (ho : OpOk d w g (.solve env)) (hi : w.ctl.isInit = false) :
    (∀ M, PhiFits d M → w.sstep dmax (.writePhi p M) = .ok w1 → w1.solve env = some (w', true, q) →
      IsStacked d (predicted d M (w.pss p).Psi (w.pss p).xi (w.pss p).x0.e w'.ctl.control.e) w'.ctl.trajectory) ∧
    (∀ M, PsiFits d M → w.sstep dmax (.writePsi p M) = .ok w1 → w1.solve env = some (w', true, q) →
      IsStacked d (predicted d (w.pss p).Phi M (w.pss p).xi (w.pss p).x0.e w'.ctl.control.e) w'.ctl.trajectory) ∧
    (∀ v, XiFits d v → w.sstep dmax (.writeXi p v) = .ok w1 → w1.solve env = some (w', true, q) →
      IsStacked d (predicted d (w.pss p).Phi (w.pss p).Psi v (w.pss p).x0.e w'.ctl.control.e) w'.ctl.trajectory) := by
  refine ⟨fun M hM h1 hs => ?_, fun M hM h1 hs => ?_, fun v hv h1 hs => ?_⟩
  · have H : SHist d dmax E w1 g := SHist.ok (op := .writePhi p M) h ⟨hsys, hM⟩ trivial h1
    injection h1 with h1; subst h1
    have T := (c102_trajectory H ho hi hs hp).2.2
    simp only [trajNow, predNow, upd_same, hu, if_true] at T
    exact T
  · have H : SHist d dmax E w1 g := SHist.ok (op := .writePsi p M) h ⟨hsys, hM⟩ trivial h1
    injection h1 with h1; subst h1
    have T := (c102_trajectory H ho hi hs hp).2.2
    simp only [trajNow, predNow, upd_same, hu, if_true] at T
    exact T
  · have H : SHist d dmax E w1 g := SHist.ok (op := .writeXi p v) h ⟨hsys, hv⟩ trivial h1
    injection h1 with h1; subst h1
    have T := (c102_trajectory H ho hi hs hp).2.2
    simp only [trajNow, predNow, upd_same, hu, if_true] at T
    exact T

/-- **C102** (stale system): on a system that is not up to date an assignment to `Phi`, `Psi` or `xi` alone has no effect: the
next solve computes them from `A`, `B`, `d`, and `trajectory()` is the simulation. -/
theorem c102_replace_stale {op : SOp K} (h : SHist d dmax E w g) (hok : SOpOk d w g op) (hp : w.ctl.ps = some p)
    (hop : (∃ M, op = .writePhi p M) ∨ (∃ M, op = .writePsi p M) ∨ ∃ v, op = .writeXi p v)
    (hu : (w.pss p).isUpdated = false) (ho : OpOk d w g (.solve env)) (hi : w.ctl.isInit = false)
    (h1 : w.sstep dmax op = .ok w1) (hs : w1.solve env = some (w', true, q)) :
    IsStacked d (Spec.traj d w p w'.ctl.control.e) w'.ctl.trajectory := by
  rcases hop with ⟨M, rfl⟩ | ⟨M, rfl⟩ | ⟨M, rfl⟩
  all_goals
    have H := SHist.ok h hok trivial h1
    injection h1 with h1; subst h1
    have T := (c102_trajectory H ho hi hs hp).2.2
    simp only [trajNow, predNow, upd_same, hu, Bool.false_eq_true, if_false] at T
    exact T

/-- **C102** (unique minimiser): with nonnegative weights the Hessian handed to the solver is positive definite, whatever
matrices were supplied, so the problem has at most one minimiser, and one exactly if some controls within `dmax` (if there
is no control bound) satisfy every registered constraint under the prediction in force. -/
theorem c102_unique_minimiser (h : SHist d dmax E w g) (hE : ∀ w op, E w op → NoBoundSpan w op ∧ NonnegWeights w op)
    (ho : OpOk d w g (.solve env)) (hi : w.ctl.isInit = false) (hb : w.ctl.spBoundConstr = [] → g.clean)
    (hh : ∀ i ∈ w.ctl.spConstr, (w.cons i).userData.Honest) (hf : CostsFresh d w g)
    (hs : w.solve env = some (w', b, q)) (hp : w.ctl.ps = some p) (hm : MixedSuits d w p) :
    PD q.nrVar q.Q ∧ (∀ x y, IsOptimal q x → IsOptimal q y → ∀ j < q.nrVar, x j = y j) ∧
    ((∃ x, IsOptimal q x) ↔ ∃ U : Nat → K,
      (∀ i ∈ w.ctl.spConstr, (w.cons i).userData.Holds d (trajNow d w p U) U) ∧
      (w.ctl.spBoundConstr = [] → ∀ j < d.m * d.N, -dmax ≤ U j ∧ U j ≤ dmax)) := by
  have P := now_hessian h.raw (h.nonneg fun w op a => (hE w op a).2) hf ho hi hs hp
  have W := now_sized h.raw ho hs hp
  have F := c102_feasible h (fun w op a => (hE w op a).1) ho hi hb hh hs hp hm
  refine ⟨P, fun x y => unique_of_pd W P, ⟨fun ⟨x, hx⟩ => ⟨x, (F x).1 hx.1⟩, fun ⟨U, hU⟩ => ?_⟩⟩
  exact exists_optimal W P ⟨U, (F U).2 hU⟩

/-- **C102** (end to end): C59 for programs that supply prediction matrices. -/
theorem c102_end_to_end {k : SolverKind} {junk : Junk K} (h : SHist d dmax E w g)
    (hE : ∀ w op, E w op → NoBoundSpan w op)
    (ho : OpOk d w g (.solve env)) (hi : w.ctl.isInit = false) (hb : w.ctl.spBoundConstr = [] → g.clean)
    (hh : ∀ i ∈ w.ctl.spConstr, (w.cons i).userData.Honest) (hf : CostsFresh d w g)
    (hs : w.solve env = some (w', true, q)) (hp : w.ctl.ps = some p) (hm : MixedSuits d w p)
    (hn : q.nrEq + q.nrIneq + 2 * q.nrVar ≤ intMax)
    (hopt : BackEndOptimal dmax junk k q (env.answer q).2.e) :
    (∀ i ∈ w.ctl.spConstr, (w.cons i).userData.Holds d (trajNow d w p w'.ctl.control.e) w'.ctl.control.e) ∧
    IsStacked d (trajNow d w p w'.ctl.control.e) w'.ctl.trajectory ∧
    ∀ V : Nat → K, (∀ i ∈ w.ctl.spConstr, (w.cons i).userData.Holds d (trajNow d w p V) V) →
      (∀ j < d.m * d.N, -dmax ≤ V j ∧ V j ≤ dmax) →
      (k = .osqp → ∀ i < q.Aineq.rows, -dmax ≤ rowValue q.Aineq V i) →
      totalCostNow d w p w'.ctl.control.e ≤ totalCostNow d w p V :=
  now_end_to_end h.raw (h.lines hE) ho hi hb hh hf hs hp hm hn hopt

/-- **C102** (end to end, `InitialStateLMPC`): C60 for programs that supply prediction matrices. -/
theorem c102_init_end_to_end {k : SolverKind} {junk : Junk K} (h : SHist d dmax E w g)
    (hE : ∀ w op, E w op → NoBoundSpan w op)
    (ho : OpOk d w g (.solve env)) (hi : w.ctl.isInit = true) (hb : w.ctl.spBoundConstr = [] → g.clean)
    (hh : ∀ i ∈ w.ctl.spConstr, (w.cons i).userData.Honest) (hf : CostsFresh d w g)
    (hs : w.solve env = some (w', true, q)) (hp : w.ctl.ps = some p) (hm : MixedSuits d w p)
    (hn : q.nrEq + q.nrIneq + 2 * q.nrVar ≤ intMax)
    (hopt : BackEndOptimal dmax junk k q (env.answer q).2.e) :
    ∃ x : Vec K, w'.ctl.initialState (w'.pss p) = some x ∧ InitBounds d w.ctl x.e ∧
      IsStacked d (predNow d (w.pss p) x.e w'.ctl.control.e) w'.ctl.trajectory ∧
      (∀ i ∈ w.ctl.spConstr, (w.cons i).userData.Holds d (predNow d (w.pss p) x.e w'.ctl.control.e) w'.ctl.control.e) ∧
      ∀ V : Nat → K, (∀ i ∈ w.ctl.spConstr, (w.cons i).userData.Holds d (predNow d (w.pss p) x.e V) V) →
        (∀ j < d.m * d.N, -dmax ≤ V j ∧ V j ≤ dmax) →
        (k = .osqp → ∀ i < q.Aineq.rows, -dmax ≤ rowValue q.Aineq (joined d x.e V) i) →
        totalCostNowFrom d w p x.e w'.ctl.control.e ≤ totalCostNowFrom d w p x.e V :=
  now_init_end_to_end h.raw (h.lines hE) ho hi hb hh hf hs hp hm hn hopt

/-- **C103** (unique minimiser): with nonnegative weights the Hessian handed to the solver is positive definite, whatever
objects were assigned, so the problem has at most one minimiser, and one exactly if some controls within `dmax` (if there
is no control bound) satisfy every registered constraint, as last assigned, under the prediction in force. -/
theorem c103_unique_minimiser (h : EHist d dmax E w g) (hE : ∀ w op, E w op → NoBoundSpan w op ∧ NonnegWeights w op)
    (ho : OpOk d w g (.solve env)) (hi : w.ctl.isInit = false) (hb : w.ctl.spBoundConstr = [] → g.clean)
    (hh : ∀ i ∈ w.ctl.spConstr, (w.cons i).userData.Honest) (hf : CostsFresh d w g)
    (hs : w.solve env = some (w', b, q)) (hp : w.ctl.ps = some p) (hm : MixedSuits d w p) :
    PD q.nrVar q.Q ∧ (∀ x y, IsOptimal q x → IsOptimal q y → ∀ j < q.nrVar, x j = y j) ∧
    ((∃ x, IsOptimal q x) ↔ ∃ U : Nat → K,
      (∀ i ∈ w.ctl.spConstr, (w.cons i).userData.Holds d (trajNow d w p U) U) ∧
      (w.ctl.spBoundConstr = [] → ∀ j < d.m * d.N, -dmax ≤ U j ∧ U j ≤ dmax)) := by
  have P := now_hessian (w := w.recount) h.raw (h.nonneg fun w op a => (hE w op a).2) hf (opOk_setNr ho) hi hs hp
  have W := now_sized (w := w.recount) h.raw (opOk_setNr ho) hs hp
  have F := now_feasible (w := w.recount) h.raw (h.lines fun w op a => (hE w op a).1) (opOk_setNr ho) hi hb hh hs hp hm
  refine ⟨P, fun x y => unique_of_pd W P, ⟨fun ⟨x, hx⟩ => ⟨x, (F x).1 hx.1⟩, fun ⟨U, hU⟩ => ?_⟩⟩
  exact exists_optimal W P ⟨U, (F U).2 hU⟩

/-- **C103** (end to end): C59 for programs that assign over objects in use. -/
theorem c103_end_to_end {k : SolverKind} {junk : Junk K} (h : EHist d dmax E w g)
    (hE : ∀ w op, E w op → NoBoundSpan w op)
    (ho : OpOk d w g (.solve env)) (hi : w.ctl.isInit = false) (hb : w.ctl.spBoundConstr = [] → g.clean)
    (hh : ∀ i ∈ w.ctl.spConstr, (w.cons i).userData.Honest) (hf : CostsFresh d w g)
    (hs : w.solve env = some (w', true, q)) (hp : w.ctl.ps = some p) (hm : MixedSuits d w p)
    (hn : q.nrEq + q.nrIneq + 2 * q.nrVar ≤ intMax)
    (hopt : BackEndOptimal dmax junk k q (env.answer q).2.e) :
    (∀ i ∈ w.ctl.spConstr, (w.cons i).userData.Holds d (trajNow d w p w'.ctl.control.e) w'.ctl.control.e) ∧
    IsStacked d (trajNow d w p w'.ctl.control.e) w'.ctl.trajectory ∧
    ∀ V : Nat → K, (∀ i ∈ w.ctl.spConstr, (w.cons i).userData.Holds d (trajNow d w p V) V) →
      (∀ j < d.m * d.N, -dmax ≤ V j ∧ V j ≤ dmax) →
      (k = .osqp → ∀ i < q.Aineq.rows, -dmax ≤ rowValue q.Aineq V i) →
      totalCostNow d w p w'.ctl.control.e ≤ totalCostNow d w p V :=
  now_end_to_end (w := w.recount) h.raw (h.lines hE) (opOk_setNr ho) hi hb hh hf hs hp hm hn hopt

/-- **C103** (end to end, `InitialStateLMPC`): C60 for programs that assign over objects in use. -/
theorem c103_init_end_to_end {k : SolverKind} {junk : Junk K} (h : EHist d dmax E w g)
    (hE : ∀ w op, E w op → NoBoundSpan w op)
    (ho : OpOk d w g (.solve env)) (hi : w.ctl.isInit = true) (hb : w.ctl.spBoundConstr = [] → g.clean)
    (hh : ∀ i ∈ w.ctl.spConstr, (w.cons i).userData.Honest) (hf : CostsFresh d w g)
    (hs : w.solve env = some (w', true, q)) (hp : w.ctl.ps = some p) (hm : MixedSuits d w p)
    (hn : q.nrEq + q.nrIneq + 2 * q.nrVar ≤ intMax)
    (hopt : BackEndOptimal dmax junk k q (env.answer q).2.e) :
    ∃ x : Vec K, w'.ctl.initialState (w'.pss p) = some x ∧ InitBounds d w.ctl x.e ∧
      IsStacked d (predNow d (w.pss p) x.e w'.ctl.control.e) w'.ctl.trajectory ∧
      (∀ i ∈ w.ctl.spConstr, (w.cons i).userData.Holds d (predNow d (w.pss p) x.e w'.ctl.control.e) w'.ctl.control.e) ∧
      ∀ V : Nat → K, (∀ i ∈ w.ctl.spConstr, (w.cons i).userData.Holds d (predNow d (w.pss p) x.e V) V) →
        (∀ j < d.m * d.N, -dmax ≤ V j ∧ V j ≤ dmax) →
        (k = .osqp → ∀ i < q.Aineq.rows, -dmax ≤ rowValue q.Aineq (joined d x.e V) i) →
        totalCostNowFrom d w p x.e w'.ctl.control.e ≤ totalCostNowFrom d w p x.e V :=
  now_init_end_to_end (w := w.recount) h.raw (h.lines hE) (opOk_setNr ho) hi hb hh hf hs hp hm hn hopt

end World
end Copra
