import Verif.Proofs.Copies3
import Verif.Props.Registry
import Verif.Props.EndToEnd
import Verif.Props.Same

/-! # C100: copies of constraints, costs and preview systems are as good as the originals -/

namespace Copra
open Spec

set_option linter.unusedSectionVars false
set_option linter.unusedSimpArgs false

variable {K : Type} [Field K] [LinearOrder K] [IsStrictOrderedRing K]

namespace World

/-! ## The conditions on calls used elsewhere are of the required form -/

theorem objectWise_any : ObjectWise (K := K) AnyOp := by
  constructor <;> intros <;> trivial

theorem objectWise_nonneg : ObjectWise (K := K) NonnegWeights := by
  constructor <;> intros <;> first | trivial | assumption

theorem objectWise_noBoundSpan : ObjectWise (K := K) NoBoundSpan := by
  constructor
  case spanConstr =>
    intro w w' i j junk h e
    show (w'.cons j).kind = .trajBound → _
    rw [e]; exact h
  case otherConstr =>
    intro w op j c h hn
    cases op <;> try exact h
    case spanConstr i junk =>
      have : upd w.cons j c i = w.cons i := upd_ne _ _ (fun e => hn e.symm)
      show (upd w.cons j c i).kind = .trajBound → (upd w.cons j c i).lower.rows = (upd w.cons j c i).upper.rows
      rw [this]; exact h
  case otherCost => intro w op j c h hn; cases op <;> exact h
  all_goals intros; trivial

theorem objectWise_noRemoval : ObjectWise (K := K) NoRemoval := by
  constructor
  case otherConstr => intro w op j c h hn; cases op <;> exact h
  case otherCost => intro w op j c h hn; cases op <;> exact h
  all_goals intros; trivial

theorem objectWise_noReset : ObjectWise (K := K) NoReset := by
  constructor
  case otherConstr => intro w op j c h hn; cases op <;> exact h
  case otherCost => intro w op j c h hn; cases op <;> exact h
  all_goals intros; trivial

theorem _root_.Copra.Spec.ObjectWise.and {E F : World K → Op K → Prop} (h : ObjectWise E) (k : ObjectWise F) :
    ObjectWise fun w op => E w op ∧ F w op where
  system w p A B v x N := ⟨h.system w p A B v x N, k.system w p A B v x N⟩
  xInit w p x := ⟨h.xInit w p x, k.xInit w p x⟩
  setDynamics w p A B v := ⟨h.setDynamics w p A B v, k.setDynamics w p A B v⟩
  updatePs w p := ⟨h.updatePs w p, k.updatePs w p⟩
  initConstr w i p junk := ⟨h.initConstr w i p junk, k.initConstr w i p junk⟩
  updateConstr w i p := ⟨h.updateConstr w i p, k.updateConstr w i p⟩
  initCost w i p junk := ⟨h.initCost w i p junk, k.initCost w i p junk⟩
  updateCost w i p := ⟨h.updateCost w i p, k.updateCost w i p⟩
  spanConstr w w' i j junk a e := ⟨h.spanConstr w w' i j junk a.1 e, k.spanConstr w w' i j junk a.2 e⟩
  spanCost w w' i j junk a e := ⟨h.spanCost w w' i j junk a.1 e, k.spanCost w w' i j junk a.2 e⟩
  weights w w' i j v a e := ⟨h.weights w w' i j v a.1 e, k.weights w w' i j v a.2 e⟩
  weight w w' i j x a e := ⟨h.weight w w' i j x a.1 e, k.weight w w' i j x a.2 e⟩
  otherConstr w op j c a n := ⟨h.otherConstr w op j c a.1 n, k.otherConstr w op j c a.2 n⟩
  otherCost w op j c a n := ⟨h.otherCost w op j c a.1 n, k.otherCost w op j c a.2 n⟩

variable {d : Dims} {dmax : K} {E : World K → Op K → Prop} {C Q : Nat → Prop} {w w' : World K} {g : Ghost} {env : SolveEnv K}

/-! ## The property -/

/-- **C100** (no new states): a program that copies constraints, costs and preview systems, whatever their state, reaches
no state that a program without copies does not reach as well, with the same knowledge about what was accepted and
updated.  So every other property proved for all histories holds for programs with copies. -/
theorem c100_no_new_states (O : ObjectWise E) (h : CHist d dmax E w g C Q) : Hist d dmax E w g :=
  (chist_hist O h).mono fun _ _ h => h.1

/-- **C100** (behaves alike, constraints): every call on a copy has the outcome it would have had on the original, and
leaves the copy as it would have left the original. -/
theorem c100_constr_alike (i j : Nat) :
    (∀ junk, ((w.copyConstr j i).step dmax (.spanConstr j junk)).map (fun v => v.cons j)
      = (w.step dmax (.spanConstr i junk)).map fun v => v.cons i) ∧
    (∀ p junk, ((w.copyConstr j i).step dmax (.initConstr j p junk)).map (fun v => v.cons j)
      = (w.step dmax (.initConstr i p junk)).map fun v => v.cons i) ∧
    (∀ p, ((w.copyConstr j i).step dmax (.updateConstr j p)).map (fun v => v.cons j)
      = (w.step dmax (.updateConstr i p)).map fun v => v.cons i) ∧
    ∀ junk, ((w.copyConstr j i).step dmax (.addConstraint j junk)).map (fun v => v.cons j)
      = (w.step dmax (.addConstraint i junk)).map fun v => v.cons i := by
  refine ⟨fun junk => ?_, fun p junk => ?_, fun p => ?_, fun junk => ?_⟩
  · simp only [step, copyConstr, upd_same, Res.map_map]
    congr 1
    funext c
    simp only [Function.comp, upd_same]
  · simp only [step, copyConstr, upd_same, Res.map_map]
    congr 1
    funext c
    simp only [Function.comp, upd_same]
  · simp only [step, copyConstr, upd_same, Res.map_map]
    congr 1
    funext c
    simp only [Function.comp, upd_same]
  · simp only [step]
    unfold addConstraint copyConstr
    dsimp only
    simp only [upd_same]
    cases w.ctl.ps with
    | none => rfl
    | some p =>
      dsimp only
      cases (w.cons i).initializeConstraint junk (w.pss p) with
      | ok c =>
        dsimp only
        unfold LMPC.addConstraintByType
        cases c.constraintType <;> dsimp only
        · cases chkInt (w.ctl.nrEqConstr + c.nrConstr) <;>
            simp only [Option.bind_eq_bind, Option.bind_none, Option.bind_some, Option.pure_def, Res.map, upd_same]
        · cases chkInt (w.ctl.nrIneqConstr + c.nrConstr) <;>
            simp only [Option.bind_eq_bind, Option.bind_none, Option.bind_some, Option.pure_def, Res.map, upd_same]
        · simp only [Res.map, upd_same]
      | thrown e c => simp only [Res.map, upd_same]
      | ub => rfl

/-- **C100** (behaves alike, costs). -/
theorem c100_cost_alike (i j : Nat) :
    (∀ junk, ((w.copyCost j i).step dmax (.spanCost j junk)).map (fun v => v.costs j)
      = (w.step dmax (.spanCost i junk)).map fun v => v.costs i) ∧
    (∀ v, ((w.copyCost j i).step dmax (.weights j v)).map (fun v => v.costs j)
      = (w.step dmax (.weights i v)).map fun v => v.costs i) ∧
    (∀ x, ((w.copyCost j i).step dmax (.weight j x)).map (fun v => v.costs j)
      = (w.step dmax (.weight i x)).map fun v => v.costs i) ∧
    (∀ p junk, ((w.copyCost j i).step dmax (.initCost j p junk)).map (fun v => v.costs j)
      = (w.step dmax (.initCost i p junk)).map fun v => v.costs i) ∧
    (∀ p, ((w.copyCost j i).step dmax (.updateCost j p)).map (fun v => v.costs j)
      = (w.step dmax (.updateCost i p)).map fun v => v.costs i) ∧
    ∀ junk, ((w.copyCost j i).step dmax (.addCost j junk)).map (fun v => v.costs j)
      = (w.step dmax (.addCost i junk)).map fun v => v.costs i := by
  refine ⟨fun junk => ?_, fun v => ?_, fun x => ?_, fun p junk => ?_, fun p => ?_, fun junk => ?_⟩
  · simp only [step, copyCost, upd_same, Res.map_map]
    congr 1
    funext c
    simp only [Function.comp, upd_same]
  · simp only [step, copyCost, upd_same, Res.map_map]
    congr 1
    funext c
    simp only [Function.comp, upd_same]
  · simp only [step, copyCost, upd_same, Res.map]
  · simp only [step, copyCost, upd_same, Res.map_map]
    congr 1
    funext c
    simp only [Function.comp, upd_same]
  · simp only [step, copyCost, upd_same, Res.map_map]
    congr 1
    funext c
    simp only [Function.comp, upd_same]
  · simp only [step]
    unfold addCost copyCost
    dsimp only
    simp only [upd_same]
    cases w.ctl.ps with
    | none => rfl
    | some p =>
      dsimp only
      cases (w.costs i).initializeCost junk (w.pss p) <;> simp only [Res.map, upd_same]

/-- **C100** (independent): copies share nothing.  A call about one constraint, cost or preview system leaves every
other one as it is, copy or original. -/
theorem c100_independent {op : Op K} (hs : Steps dmax w op w') :
    (∀ j i, namesConstr op j → i ≠ j → w'.cons i = w.cons i) ∧ (∀ j i, namesCost op j → i ≠ j → w'.costs i = w.costs i) := by
  constructor
  · intro j i hj hij
    cases hs.constrChange i with
    | same e => exact e
    | span junk e _ => subst e; exact absurd hj.symm hij
    | init p junk e _ => rcases e with rfl | ⟨rfl, _⟩ <;> exact absurd hj.symm hij
    | update p e _ =>
      rcases e with rfl | ⟨⟨env, rfl⟩, _⟩
      · exact absurd hj.symm hij
      · exact hj.elim
  · intro j i hj hij
    cases hs.costChange i with
    | same e => exact e
    | span junk e _ => subst e; exact absurd hj.symm hij
    | weights v e _ => subst e; exact absurd hj.symm hij
    | weight x e _ => subst e; exact absurd hj.symm hij
    | init p junk e _ => rcases e with rfl | ⟨rfl, _⟩ <;> exact absurd hj.symm hij
    | update p e _ =>
      rcases e with rfl | ⟨⟨env, rfl⟩, _⟩
      · exact absurd hj.symm hij
      · exact hj.elim

/-- **C100** (preview systems): a copy of a preview system predicts the trajectories the original predicted when it was
copied, also after the original has been given other data or has been used by a controller. -/
theorem c100_system_alike {p q : Nat} (hpq : p ≠ q) {op : Op K} (hs : Steps dmax (w.copyPs p q) op w')
    (hop : namesPs op q ∨ ∃ env, op = .solve env ∧ w.ctl.ps = some q) :
    w'.pss p = w.pss q ∧ ∀ U, Spec.traj d w' p U = Spec.traj d w q U := by
  have key : w'.pss p = w.pss q := by
    have e0 : (w.copyPs p q).pss p = w.pss q := upd_same _ _ _
    have e1 : ∀ s : PreviewSystem K, upd (w.copyPs p q).pss q s p = w.pss q := fun s => by rw [upd_ne _ _ hpq]; exact e0
    rcases hop with hop | ⟨env, rfl, hp⟩
    · unfold Steps at hs
      rcases hs with hs | ⟨e, hs⟩ <;> cases op <;> try exact hop.elim
      all_goals
        cases (show q = _ from hop)
        simp only [step, Res.map_ok, Res.map_thrown, Res.ofOption_ok] at hs
        first
          | (cases hs; done)
          | (cases hs; exact e1 _)
          | (obtain ⟨s, _, rfl⟩ := hs; exact e1 s)
    · rcases hs with hs | ⟨e, hs⟩
      · simp only [step, Res.ofOption_ok] at hs
        obtain ⟨⟨w1, b, r⟩, hs', rfl⟩ := Option.map_eq_some_iff.1 hs
        obtain ⟨p1, ps, h1, _, h3, _⟩ := solve_inv' hs'
        have : p1 = q := by
          have : w.ctl.ps = some p1 := h1
          rw [hp] at this; cases this; rfl
        subst this
        show w1.pss p = _
        rw [h3]; exact e1 ps
      · exact absurd hs Res.ofOption_ne_thrown
  exact ⟨key, fun U => by unfold Spec.traj; rw [key]⟩

/-- **C100** (single use): a copy of an accepted control or control-bound constraint is refused like the original; only
a copy made before the acceptance can be added to a controller of its own. -/
theorem c100_single_use (O : ObjectWise E) (h : CHist d dmax E w g C Q) {i j : Nat} (ha : g.constr i)
    (ho : (w.cons i).kind = .control ∨ (w.cons i).kind = .ctrlBound) :
    (∀ junk p, w.ctl.ps = some p → (w.copyConstr j i).step dmax (.addConstraint j junk)
      = .thrown .runtimeError (w.copyConstr j i)) ∧
    ∀ junk p, (w.copyConstr j i).step dmax (.initConstr j p junk) = .thrown .runtimeError (w.copyConstr j i) := by
  have R := (c100_no_new_states O h).good.consReg i ha
  have hf : (w.cons i).hasBeenInitialized = true := by
    unfold Constr.Reg at R
    rcases ho with k | k <;> rw [k] at R <;> exact R.init
  have ho' : Constr.Once (w.cons i) := ho
  have e : upd (upd w.cons j (w.cons i)) j (w.cons i) = upd w.cons j (w.cons i) := upd_upd _ _ _ _
  constructor
  · intro junk p hp
    simp only [World.step]
    unfold addConstraint copyConstr
    dsimp only
    rw [hp]
    simp only [upd_same, Constr.init_used ho' hf, e]
  · intro junk p
    simp only [World.step, copyConstr, upd_same, Constr.init_used ho' hf, Res.map, e]

/-- **C100** (end to end): in a program with copies, if the back end reports success with a minimiser of the problem its
wrapper handed to it, then `control()` satisfies every registered constraint under the simulated dynamics and its total
cost is minimal. -/
theorem c100_end_to_end {q : QP K} {p : Nat} {k : SolverKind} {junk : Junk K} (O : ObjectWise E)
    (h : CHist d dmax E w g C Q) (hE : ∀ w op, E w op → NoBoundSpan w op)
    (ho : OpOk d w g (.solve env)) (hi : w.ctl.isInit = false) (hb : w.ctl.spBoundConstr = [] → g.clean)
    (hh : ∀ i ∈ w.ctl.spConstr, (w.cons i).userData.Honest) (hf : CostsFresh d w g)
    (hs : w.solve env = some (w', true, q)) (hp : w.ctl.ps = some p)
    (hn : q.nrEq + q.nrIneq + 2 * q.nrVar ≤ intMax)
    (hopt : BackEndOptimal dmax junk k q (env.answer q).2.e) :
    (∀ i ∈ w.ctl.spConstr, (w.cons i).userData.Holds d (Spec.traj d w p w'.ctl.control.e) w'.ctl.control.e) ∧
    IsStacked d (Spec.traj d w p w'.ctl.control.e) w'.ctl.trajectory ∧
    ∀ V : Nat → K, (∀ i ∈ w.ctl.spConstr, (w.cons i).userData.Holds d (Spec.traj d w p V) V) →
      (∀ j < d.m * d.N, -dmax ≤ V j ∧ V j ≤ dmax) →
      (k = .osqp → ∀ i < q.Aineq.rows, -dmax ≤ rowValue q.Aineq V i) →
      totalCost d w p w'.ctl.control.e ≤ totalCost d w p V :=
  c59_end_to_end (c100_no_new_states O h) hE ho hi hb hh hf hs hp hn hopt

/-- **C100** (end to end, initial-state controllers). -/
theorem c100_end_to_end_init {q : QP K} {p : Nat} {k : SolverKind} {junk : Junk K} (O : ObjectWise E)
    (h : CHist d dmax E w g C Q) (hE : ∀ w op, E w op → NoBoundSpan w op)
    (ho : OpOk d w g (.solve env)) (hi : w.ctl.isInit = true) (hb : w.ctl.spBoundConstr = [] → g.clean)
    (hh : ∀ i ∈ w.ctl.spConstr, (w.cons i).userData.Honest) (hf : CostsFresh d w g)
    (hs : w.solve env = some (w', true, q)) (hp : w.ctl.ps = some p)
    (hn : q.nrEq + q.nrIneq + 2 * q.nrVar ≤ intMax)
    (hopt : BackEndOptimal dmax junk k q (env.answer q).2.e) :
    ∃ x : Vec K, w'.ctl.initialState (w'.pss p) = some x ∧ InitBounds d w.ctl x.e ∧
      IsStacked d (Spec.trajFrom d w p x.e w'.ctl.control.e) w'.ctl.trajectory ∧
      (∀ i ∈ w.ctl.spConstr, (w.cons i).userData.Holds d (Spec.trajFrom d w p x.e w'.ctl.control.e) w'.ctl.control.e) ∧
      ∀ V : Nat → K, (∀ i ∈ w.ctl.spConstr, (w.cons i).userData.Holds d (Spec.trajFrom d w p x.e V) V) →
        (∀ j < d.m * d.N, -dmax ≤ V j ∧ V j ≤ dmax) →
        (k = .osqp → ∀ i < q.Aineq.rows, -dmax ≤ rowValue q.Aineq (joined d x.e V) i) →
        totalCostFrom d w p x.e w'.ctl.control.e ≤ totalCostFrom d w p x.e V :=
  c60_initial_state_end_to_end (c100_no_new_states O h) hE ho hi hb hh hf hs hp hn hopt

/-- **C100** (the same problem): two programs with copies whose controllers now have the same system, initial state,
constraints and costs, some of them copies and some originals, hand the solver the same problem. -/
theorem c100_same_problem {E1 E2 : World K → Op K → Prop} {C1 Q1 C2 Q2 : Nat → Prop} {w1 w2 w1' w2' : World K} {g1 g2 : Ghost}
    {env1 env2 : SolveEnv K} {b1 b2 : Bool} {q1 q2 : QP K} {p1 p2 : Nat} (O1 : ObjectWise E1) (O2 : ObjectWise E2)
    (h1 : CHist d dmax E1 w1 g1 C1 Q1) (h2 : CHist d dmax E2 w2 g2 C2 Q2)
    (hE1 : ∀ w op, E1 w op → NoBoundSpan w op) (hE2 : ∀ w op, E2 w op → NoBoundSpan w op)
    (o1 : OpOk d w1 g1 (.solve env1)) (o2 : OpOk d w2 g2 (.solve env2))
    (hp1 : w1.ctl.ps = some p1) (hp2 : w2.ctl.ps = some p2)
    (i1 : w1.ctl.isInit = false) (i2 : w2.ctl.isInit = false) (same : SameDeclared w1 p1 w2 p2)
    (f1 : CostsFresh d w1 g1) (f2 : CostsFresh d w2 g2)
    (c1 : w1.ctl.spBoundConstr = [] → g1.clean) (c2 : w2.ctl.spBoundConstr = [] → g2.clean)
    (s1 : w1.solve env1 = some (w1', b1, q1)) (s2 : w2.solve env2 = some (w2', b2, q2)) : QPEq q1 q2 :=
  c57_problem_determined (c100_no_new_states O1 h1) (c100_no_new_states O2 h2) hE1 hE2 o1 o2 hp1 hp2 i1 i2 same f1 f2 c1 c2 s1 s2

end World
end Copra
