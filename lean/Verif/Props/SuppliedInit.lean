import Verif.Props.Supplied
import Verif.Props.InitState2

/-! # C102: prediction matrices supplied by the user, for an `InitialStateLMPC` -/

namespace Copra
open Spec

set_option linter.unusedSectionVars false
variable {K : Type} [Field K] [LinearOrder K] [IsStrictOrderedRing K]

namespace World
variable {d : Dims} {dmax : K} {E : World K → Op K → Prop} {w w' : World K} {g : Ghost}
  {env : SolveEnv K} {b : Bool} {q : QP K} {p : Nat}

/-- **C102** (constraints, `InitialStateLMPC`): its problem admits exactly the pairs of an initial state within the
initial-state bounds and controls under which the prediction in force from that state satisfies every registered
constraint. -/
theorem c102_init_feasible (h : SHist d dmax E w g) (hE : ∀ w op, E w op → NoBoundSpan w op)
    (ho : OpOk d w g (.solve env)) (hi : w.ctl.isInit = true) (hb : w.ctl.spBoundConstr = [] → g.clean)
    (hh : ∀ i ∈ w.ctl.spConstr, (w.cons i).userData.Honest)
    (hs : w.solve env = some (w', b, q)) (hp : w.ctl.ps = some p) (hm : MixedSuits d w p) (x U : Nat → K) :
    Feasible q (joined d x U) ↔
      (∀ i ∈ w.ctl.spConstr, (w.cons i).userData.Holds d (predNow d (w.pss p) x U) U) ∧
      InitBounds d w.ctl x ∧
      (w.ctl.spBoundConstr = [] → ∀ j < d.m * d.N, -dmax ≤ U j ∧ U j ≤ dmax) :=
  now_init_feasible h.raw (h.lines hE) ho hi hb hh hs hp hm x U

/-- **C102** (costs, `InitialStateLMPC`): for each initial state its objective is the total declared cost of the
predicted trajectory from that state, up to a constant. -/
theorem c102_init_objective (h : SHist d dmax E w g)
    (ho : OpOk d w g (.solve env)) (hi : w.ctl.isInit = true) (hf : CostsFresh d w g)
    (hs : w.solve env = some (w', b, q)) (hp : w.ctl.ps = some p) (x : Nat → K) :
    ∃ k : K, ∀ U : Nat → K, objective q (joined d x U) = totalCostNowFrom d w p x U + k :=
  now_init_objective h.raw ho hi hf hs hp x

/-- **C102** (results, `InitialStateLMPC`): after a successful solve `initialState()` and `control()` are the two parts of
the answer of the solver and `trajectory()` the prediction in force from that state under those controls. -/
theorem c102_init_trajectory (h : SHist d dmax E w g) (ho : OpOk d w g (.solve env)) (hi : w.ctl.isInit = true)
    (hs : w.solve env = some (w', true, q)) (hp : w.ctl.ps = some p) :
    ∃ x : Vec K, w'.ctl.initialState (w'.pss p) = some x ∧ x.rows = d.n ∧ (∀ j < d.n, x.e j = (env.answer q).2.e j) ∧
      w'.ctl.control.rows = d.m * d.N ∧ (∀ j < d.m * d.N, w'.ctl.control.e j = (env.answer q).2.e (d.n + j)) ∧
      IsStacked d (predNow d (w.pss p) x.e w'.ctl.control.e) w'.ctl.trajectory :=
  now_init_trajectory h.raw ho hi hs hp

/-- **C102** (optimum, `InitialStateLMPC`): if the solver returns a minimiser, `initialState()` is within the
initial-state bounds, and `control()` satisfies every registered constraint under the prediction in force from it, at the
least total cost from it. -/
theorem c102_init_optimum (h : SHist d dmax E w g) (hE : ∀ w op, E w op → NoBoundSpan w op)
    (ho : OpOk d w g (.solve env)) (hi : w.ctl.isInit = true) (hb : w.ctl.spBoundConstr = [] → g.clean)
    (hh : ∀ i ∈ w.ctl.spConstr, (w.cons i).userData.Honest) (hf : CostsFresh d w g)
    (hs : w.solve env = some (w', true, q)) (hp : w.ctl.ps = some p) (hm : MixedSuits d w p)
    (hopt : IsOptimal q (env.answer q).2.e) :
    ∃ (x : Vec K) (U : Nat → K), w'.ctl.initialState (w'.pss p) = some x ∧ (∀ j < d.m * d.N, w'.ctl.control.e j = U j) ∧
      InitBounds d w.ctl x.e ∧
      (∀ i ∈ w.ctl.spConstr, (w.cons i).userData.Holds d (predNow d (w.pss p) x.e U) U) ∧
      ∀ V : Nat → K, (∀ i ∈ w.ctl.spConstr, (w.cons i).userData.Holds d (predNow d (w.pss p) x.e V) V) →
        (∀ j < d.m * d.N, -dmax ≤ V j ∧ V j ≤ dmax) →
        totalCostNowFrom d w p x.e U ≤ totalCostNowFrom d w p x.e V :=
  now_init_optimum h.raw (h.lines hE) ho hi hb hh hf hs hp hm hopt

end World
end Copra
