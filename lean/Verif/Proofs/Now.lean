import Verif.Proofs.Supplied
import Verif.Props.Convex
import Verif.Props.InitState2

/-! # Solves with the prediction in force, from any state that satisfies the invariant -/

namespace Copra
open Spec

set_option linter.unusedSectionVars false
variable {K : Type} [Field K] [LinearOrder K] [IsStrictOrderedRing K]

namespace World
variable {d : Dims} {dmax : K} {w w' : World K} {g : Ghost}
  {env : SolveEnv K} {b : Bool} {q : QP K} {p : Nat}

theorem now_defined (hg : GoodRaw d dmax w g) (ho : OpOk d w g (.solve env)) :
    ∃ w' b q, w.solve env = some (w', b, q) ∧ q.nrVar = numVars d w.ctl := by
  obtain ⟨p, hp⟩ := Option.ne_none_iff_exists'.1 ho.1
  obtain ⟨w', b, q, e, S⟩ := solve_raw (hg.canRaw hp) ho.2
  exact ⟨w', b, q, e, S.nrVar⟩

theorem now_solved (hg : GoodRaw d dmax w g) (ho : OpOk d w g (.solve env))
    (hs : w.solve env = some (w', b, q)) (hp : w.ctl.ps = some p) : SolvedRaw d p env w w' b q := by
  obtain ⟨p', hp', S⟩ := hg.solvedRaw ho.2 hs
  rw [hp] at hp'
  cases hp'
  exact S

theorem now_matrices (hg : GoodRaw d dmax w g) (ho : OpOk d w g (.solve env))
    (hs : w.solve env = some (w', b, q)) (hp : w.ctl.ps = some p) :
    ((w.pss p).isUpdated = true → w'.pss p = w.pss p) ∧ (w'.pss p).isUpdated = true ∧
    (∀ j, j ≠ p → w'.pss j = w.pss j) ∧
    ∀ x U, ∀ k ≤ d.N, ∀ r < d.n,
      predicted d (w'.pss p).Phi (w'.pss p).Psi (w'.pss p).xi x U k r = predNow d (w.pss p) x U k r := by
  have S := now_solved hg ho hs hp
  exact ⟨S.heap.keep, S.heap.upd, S.heap.others, fun x U => S.predNow x U⟩

theorem now_feasible (hg : GoodRaw d dmax w g) (hl : ∀ i, LinesCurrent (w.cons i))
    (ho : OpOk d w g (.solve env)) (hi : w.ctl.isInit = false) (hb : w.ctl.spBoundConstr = [] → g.clean)
    (hh : ∀ i ∈ w.ctl.spConstr, (w.cons i).userData.Honest)
    (hs : w.solve env = some (w', b, q)) (hp : w.ctl.ps = some p) (hm : MixedSuits d w p) (U : Nat → K) :
    Feasible q U ↔
      (∀ i ∈ w.ctl.spConstr, (w.cons i).userData.Holds d (trajNow d w p U) U) ∧
      (w.ctl.spBoundConstr = [] → ∀ j < d.m * d.N, -dmax ≤ U j ∧ U j ≤ dmax) := by
  have S := now_solved hg ho hs hp
  rw [hg.feasible hp (S.plain hi) hi hb (fun i _ => hl i) (X := trajNow d w p U) (U := U)
    (fun i h1 h2 => S.rows h1 (S.suits hg hp hm h1) h2 U) (fun i h1 h2 => S.bounds h1 h2 _ U)]
  exact and_congr_left fun _ => forall_congr' fun i => forall_congr' fun hm =>
    (hh i hm).iff ((hg.canRaw hp).cons i hm).boundSize

theorem now_objective (hg : GoodRaw d dmax w g)
    (ho : OpOk d w g (.solve env)) (hi : w.ctl.isInit = false) (hf : CostsFresh d w g)
    (hs : w.solve env = some (w', b, q)) (hp : w.ctl.ps = some p) :
    ∃ k : K, ∀ U : Nat → K, objective q U = totalCostNow d w p U + k := by
  have S := now_solved hg ho hs hp
  have V := S.entries hg hf
  refine objective_of (S.plain hi) (X := trajNow d w p) fun i hm U => ?_
  obtain ⟨e, r, u⟩ := V i hm
  rw [e.quad, e.form two_ne_zero r (X := predNow d (w.pss p)) (fun x U k hk r hr => S.predNow x U k hk r hr), u, S.heap.x0]
  rfl

theorem now_trajectory (hg : GoodRaw d dmax w g) (ho : OpOk d w g (.solve env)) (hi : w.ctl.isInit = false)
    (hs : w.solve env = some (w', true, q)) (hp : w.ctl.ps = some p) :
    w'.ctl.control.rows = d.m * d.N ∧ (∀ j < d.m * d.N, w'.ctl.control.e j = (env.answer q).2.e j) ∧
    IsStacked d (trajNow d w p w'.ctl.control.e) w'.ctl.trajectory := by
  have S := now_solved hg ho hs hp
  obtain ⟨a1, a2, a3, a4⟩ := S.success rfl
  rw [hi] at a4
  refine ⟨a1, fun j hj => by rw [a2 j hj, hi]; rfl, a3, fun k r hk hr => ?_⟩
  rw [a4 k r hk hr]
  exact S.predNow _ _ k hk r hr

theorem now_optimum (hg : GoodRaw d dmax w g) (hl : ∀ i, LinesCurrent (w.cons i))
    (ho : OpOk d w g (.solve env)) (hi : w.ctl.isInit = false) (hb : w.ctl.spBoundConstr = [] → g.clean)
    (hh : ∀ i ∈ w.ctl.spConstr, (w.cons i).userData.Honest) (hf : CostsFresh d w g)
    (hs : w.solve env = some (w', true, q)) (hp : w.ctl.ps = some p) (hm : MixedSuits d w p)
    (hopt : IsOptimal q (env.answer q).2.e) :
    (∀ i ∈ w.ctl.spConstr, (w.cons i).userData.Holds d (trajNow d w p w'.ctl.control.e) w'.ctl.control.e) ∧
    ∀ V : Nat → K, (∀ i ∈ w.ctl.spConstr, (w.cons i).userData.Holds d (trajNow d w p V) V) →
      (∀ j < d.m * d.N, -dmax ≤ V j ∧ V j ≤ dmax) →
      totalCostNow d w p w'.ctl.control.e ≤ totalCostNow d w p V := by
  have F := now_feasible hg hl ho hi hb hh hs hp hm
  obtain ⟨k, O⟩ := now_objective hg ho hi hf hs hp
  have hc : w'.ctl.control = (env.answer q).2 := by
    obtain ⟨w1, p1, l, s, l', h1, hp1, hl, hsl, rfl, hbb, hl', rfl⟩ := solve_inv hs
    rw [← hbb] at hl'
    simp only [if_true] at hl'
    unfold LMPC.updateResults at hl'
    simp only [Option.bind_eq_bind, Option.bind_eq_some_iff] at hl'
    obtain ⟨s', hs', hl'⟩ := hl'
    have hinit : l.isInit = false := by
      obtain ⟨_, _, _, _, _, _, _, _, _, _, _, _, rfl, f⟩ := updateSystem_inv h1
      rw [(LMPC.makeQPForm_fixed hl).isInit]
      exact f.isInit.trans hi
    have hinit' : (LMPC.checkDelete w1.extCons w1.extCosts
      { l with sol := some { s with result := (env.answer l.qp).2 }, solveTime := some (env.t2 - env.t1) }).isInit = false := hinit
    rw [hinit'] at hl'
    simp only [Bool.false_eq_true, if_false, Option.bind_eq_some_iff, Option.pure_def, Option.some.injEq] at hl'
    obtain ⟨t, _, rfl⟩ := hl'
    have : some { s with result := (env.answer l.qp).2 } = some s' := hs'
    cases this
    rfl
  rw [hc]
  refine ⟨((F _).1 hopt.1).1, ?_⟩
  intro V h1 h2
  have := hopt.2 V ((F V).2 ⟨h1, fun _ => h2⟩)
  rw [O, O] at this
  exact le_of_add_le_add_right this

theorem SolvedRaw.rowsJoint (S : SolvedRaw d p env w w' b q) {i : Nat} (hi : i ∈ w.ctl.spConstr)
    (hs : Constr.Suits d (w'.pss p) (w'.cons i)) (hk : (w.cons i).kind ≠ .ctrlBound) (x U : Nat → K) :
    (∀ r < (w'.cons i).nrConstr, Spec.Rel (w.cons i).ineq
      (∑ j ∈ Finset.range (d.n + d.m * d.N), (if j < d.n then (w'.cons i).Y.e r j else (w'.cons i).A.e r (j - d.n))
        * joined d x U j) ((w'.cons i).z.e r)) ↔
      (w.cons i).Sem d (Spec.predNow d (w.pss p) x U) U := by
  obtain ⟨r, f, u⟩ := (S.heap.cons i).1 hi
  have hk' : (w'.cons i).kind ≠ .ctrlBound := by rw [f.kind]; exact hk
  have hq : (w'.cons i).ineq = (w.cons i).ineq := by
    unfold Constr.ineq; rw [f.kind, f.isIneq]
  rw [← f.sem, ← Constr.rows_sem hk' r, hq]
  refine forall_congr' fun t => forall_congr' fun ht => ?_
  rw [sum_joined (fun j => (w'.cons i).Y.e t j) (fun j => (w'.cons i).A.e t j)]
  have := ((u hs).rows hk' t ht).rel_z (w.cons i).ineq x U
  unfold Constr.rowXU at this
  rw [this, Row.lhs_congr (S.predNow x U)]

theorem now_init_feasible (hg : GoodRaw d dmax w g) (hl : ∀ i, LinesCurrent (w.cons i))
    (ho : OpOk d w g (.solve env)) (hi : w.ctl.isInit = true) (hb : w.ctl.spBoundConstr = [] → g.clean)
    (hh : ∀ i ∈ w.ctl.spConstr, (w.cons i).userData.Honest)
    (hs : w.solve env = some (w', b, q)) (hp : w.ctl.ps = some p) (hm : MixedSuits d w p) (x U : Nat → K) :
    Feasible q (joined d x U) ↔
      (∀ i ∈ w.ctl.spConstr, (w.cons i).userData.Holds d (predNow d (w.pss p) x U) U) ∧
      InitBounds d w.ctl x ∧
      (w.ctl.spBoundConstr = [] → ∀ j < d.m * d.N, -dmax ≤ U j ∧ U j ≤ dmax) := by
  have S := now_solved hg ho hs hp
  rw [hg.feasibleInit hp (S.init hi) hi hb (fun i _ => hl i) (X := predNow d (w.pss p) x U) (x := x) (U := U)
    (fun i h1 h2 => S.rowsJoint h1 (S.suits hg hp hm h1) h2 x U) (fun i h1 h2 => S.bounds h1 h2 _ U)]
  exact and_congr_left fun _ => forall_congr' fun i => forall_congr' fun hm =>
    (hh i hm).iff ((hg.canRaw hp).cons i hm).boundSize

theorem now_init_objective (hg : GoodRaw d dmax w g)
    (ho : OpOk d w g (.solve env)) (hi : w.ctl.isInit = true) (hf : CostsFresh d w g)
    (hs : w.solve env = some (w', b, q)) (hp : w.ctl.ps = some p) (x : Nat → K) :
    ∃ k : K, ∀ U : Nat → K, objective q (joined d x U) = totalCostNowFrom d w p x U + k := by
  have S := now_solved hg ho hs hp
  have V := S.entries hg hf
  refine objectiveInit_of (S.init hi) (X := predNow d (w.pss p) x) fun i hm U => ?_
  obtain ⟨e, r, u⟩ := V i hm
  rw [e.form two_ne_zero r (X := predNow d (w.pss p)) (fun x U k hk r hr => S.predNow x U k hk r hr), u]

theorem now_init_trajectory (hg : GoodRaw d dmax w g) (ho : OpOk d w g (.solve env)) (hi : w.ctl.isInit = true)
    (hs : w.solve env = some (w', true, q)) (hp : w.ctl.ps = some p) :
    ∃ x : Vec K, w'.ctl.initialState (w'.pss p) = some x ∧ x.rows = d.n ∧ (∀ j < d.n, x.e j = (env.answer q).2.e j) ∧
      w'.ctl.control.rows = d.m * d.N ∧ (∀ j < d.m * d.N, w'.ctl.control.e j = (env.answer q).2.e (d.n + j)) ∧
      IsStacked d (predNow d (w.pss p) x.e w'.ctl.control.e) w'.ctl.trajectory := by
  have S := now_solved hg ho hs hp
  obtain ⟨s, _, hsol⟩ := S.sol
  obtain ⟨a1, a2, a3, a4⟩ := S.success rfl
  rw [hi] at a4
  simp only [if_true] at a4
  have hr := ho.2.answer q S.nrVar S.answer.symm
  rw [S.nrVar, numVars, hi] at hr
  simp only [if_true] at hr
  have hx : (w'.pss p).xDim = d.n := S.heap.sys.dims.toSysShape.xDim
  have e : ((env.answer q).2.segment 0 d.n).e = (env.answer q).2.e := by
    funext j
    show (env.answer q).2.e (0 + j) = _
    rw [Nat.zero_add]
  refine ⟨(env.answer q).2.segment 0 d.n, ?_, rfl, fun j _ => by rw [e], a1, fun j hj => by rw [a2 j hj, hi]; rfl,
    a3, fun k r hk hr => ?_⟩
  · unfold LMPC.initialState
    rw [hsol, hx]
    show (env.answer q).2.segment? 0 d.n = _
    unfold Vec.segment?
    rw [if_pos (by omega)]
  · rw [a4 k r hk hr, e]
    exact S.predNow _ _ k hk r hr

theorem now_init_optimum (hg : GoodRaw d dmax w g) (hl : ∀ i, LinesCurrent (w.cons i))
    (ho : OpOk d w g (.solve env)) (hi : w.ctl.isInit = true) (hb : w.ctl.spBoundConstr = [] → g.clean)
    (hh : ∀ i ∈ w.ctl.spConstr, (w.cons i).userData.Honest) (hf : CostsFresh d w g)
    (hs : w.solve env = some (w', true, q)) (hp : w.ctl.ps = some p) (hm : MixedSuits d w p)
    (hopt : IsOptimal q (env.answer q).2.e) :
    ∃ (x : Vec K) (U : Nat → K), w'.ctl.initialState (w'.pss p) = some x ∧ (∀ j < d.m * d.N, w'.ctl.control.e j = U j) ∧
      InitBounds d w.ctl x.e ∧
      (∀ i ∈ w.ctl.spConstr, (w.cons i).userData.Holds d (predNow d (w.pss p) x.e U) U) ∧
      ∀ V : Nat → K, (∀ i ∈ w.ctl.spConstr, (w.cons i).userData.Holds d (predNow d (w.pss p) x.e V) V) →
        (∀ j < d.m * d.N, -dmax ≤ V j ∧ V j ≤ dmax) →
        totalCostNowFrom d w p x.e U ≤ totalCostNowFrom d w p x.e V := by
  obtain ⟨x, e1, _, e3, _, e5, _⟩ := now_init_trajectory hg ho hi hs hp
  have ey : joined d x.e (fun j => (env.answer q).2.e (d.n + j)) = (env.answer q).2.e := by
    rw [joined_congr (x' := (env.answer q).2.e) e3, joined_self]
  have F := now_init_feasible hg hl ho hi hb hh hs hp hm x.e
  obtain ⟨k, O⟩ := now_init_objective hg ho hi hf hs hp x.e
  have F0 := (F _).1 (by rw [ey]; exact hopt.1)
  refine ⟨x, fun j => (env.answer q).2.e (d.n + j), e1, e5, F0.2.1, F0.1, fun V h1 h2 => ?_⟩
  have := hopt.2 _ ((F V).2 ⟨h1, F0.2.1, fun _ => h2⟩)
  rw [← ey, O, O] at this
  exact le_of_add_le_add_right this

end World
end Copra
