import Verif.Proofs.Slice
import Verif.Props.EndToEnd
import Verif.Props.Multi

/-! # C101: an `InitialStateLMPC` moved into an `LMPC` -/

namespace Copra
open Spec

set_option linter.unusedSectionVars false
set_option linter.unusedSimpArgs false

section
variable {K : Type} [Field K] [LinearOrder K] [IsStrictOrderedRing K]

theorem onlyObjects_any : OnlyObjects (AnyOp (K := K)) := ⟨aboutObjects_any, fun _ _ _ => trivial⟩

theorem onlyObjects_noBoundSpan : OnlyObjects (NoBoundSpan (K := K)) :=
  ⟨aboutObjects_noBoundSpan, fun _ op h => by cases op <;> first | trivial | exact (h trivial).elim⟩

theorem onlyObjects_nonnegWeights : OnlyObjects (NonnegWeights (K := K)) :=
  ⟨aboutObjects_nonnegWeights, fun _ op h => by cases op <;> first | trivial | exact (h trivial).elim⟩

theorem Spec.OnlyObjects.and {E F : World K → Op K → Prop} (hE : OnlyObjects E) (hF : OnlyObjects F) :
    OnlyObjects (fun w op => E w op ∧ F w op) :=
  ⟨hE.toAboutObjects.and hF.toAboutObjects, fun w op h => ⟨hE.others w op h, hF.others w op h⟩⟩

namespace World
variable {d : Dims} {dmax : K} {E : World K → Op K → Prop} {w w' : World K} {g : Ghost} {env : SolveEnv K} {r : Prop}

/-- **C101** (the move): the `LMPC` has the registered constraints and costs, the preview system, the solver, the results and the times of
the controller that was moved, and no object is changed. -/
theorem c101_move_keeps (w : World K) : w.slice.ctl.spConstr = w.ctl.spConstr ∧ w.slice.ctl.spEqConstr = w.ctl.spEqConstr ∧
    w.slice.ctl.spIneqConstr = w.ctl.spIneqConstr ∧ w.slice.ctl.spBoundConstr = w.ctl.spBoundConstr ∧ w.slice.ctl.spCost = w.ctl.spCost ∧
    w.slice.ctl.ps = w.ctl.ps ∧ w.slice.ctl.sol = w.ctl.sol ∧ w.slice.ctl.control = w.ctl.control ∧
    w.slice.ctl.trajectory = w.ctl.trajectory ∧ w.slice.ctl.solveTime = w.ctl.solveTime ∧
    w.slice.ctl.solveAndBuildTime = w.ctl.solveAndBuildTime ∧
    w.slice.pss = w.pss ∧ w.slice.cons = w.cons ∧ w.slice.costs = w.costs :=
  ⟨rfl, rfl, rfl, rfl, rfl, rfl, rfl, rfl, rfl, rfl, rfl, rfl, rfl, rfl⟩

/-! ## Before `initializeController` -/

/-- The calls that keep the sizes of the problem. -/
theorem out_sizes {op : Op K} {ok : Prop} (ns : ¬ IsSolve op) (nc : ¬ IsConstruct op) (ni : ¬ IsInitialize op)
    (h : Out dmax w op ok w') : w'.ctl.ps = w.ctl.ps ∧ w'.ctl.Q = w.ctl.Q ∧ w'.ctl.c = w.ctl.c := by
  by_cases hop : OnObject op
  · rw [(out_object (u := w) hop ⟨rfl, rfl, rfl⟩ h).2]; exact ⟨rfl, rfl, rfl⟩
  cases op <;> (try exact (hop trivial).elim) <;> (try exact (ns trivial).elim) <;> (try exact (nc trivial).elim) <;>
    (try exact (ni trivial).elim)
  case addCost i junk =>
    unfold Out at h
    simp only [World.step, World.addCost] at h
    split at h
    · simp at h
    · split at h <;> simp at h
      · obtain ⟨_, rfl⟩ := h; exact ⟨rfl, rfl, rfl⟩
      · obtain ⟨_, rfl⟩ := h; exact ⟨rfl, rfl, rfl⟩
  case addConstraint i junk =>
    unfold Out at h
    simp only [World.step, World.addConstraint] at h
    split at h
    · simp at h
    · split at h
      · rename_i c _
        split at h <;> simp at h
        rename_i l hl
        obtain ⟨_, rfl⟩ := h
        unfold LMPC.addConstraintByType at hl
        split at hl
        · simp only [Option.bind_eq_bind, Option.bind_eq_some_iff, Option.pure_def, Option.some.injEq] at hl
          obtain ⟨_, _, rfl⟩ := hl
          exact ⟨rfl, rfl, rfl⟩
        · simp only [Option.bind_eq_bind, Option.bind_eq_some_iff, Option.pure_def, Option.some.injEq] at hl
          obtain ⟨_, _, rfl⟩ := hl
          exact ⟨rfl, rfl, rfl⟩
        · cases hl; exact ⟨rfl, rfl, rfl⟩
      · simp at h; obtain ⟨_, rfl⟩ := h; exact ⟨rfl, rfl, rfl⟩
      · simp at h
  case removeConstraint i =>
    rcases h with ⟨ho, h⟩ | ⟨ho, e, h⟩ <;> simp only [World.step, Res.map_ok, Res.map_thrown, Res.ofOption_ok] at h
    · obtain ⟨l, hl, rfl⟩ := h
      unfold LMPC.removeConstraint at hl
      split at hl
      · dsimp only at hl
        split at hl <;> simp only [Option.bind_eq_bind, Option.bind_eq_some_iff, Option.pure_def, Option.some.injEq] at hl <;>
          obtain ⟨_, _, rfl⟩ := hl <;> exact ⟨rfl, rfl, rfl⟩
      · cases hl; exact ⟨rfl, rfl, rfl⟩
    · obtain ⟨_, h, _⟩ := h
      exact absurd h Res.ofOption_ne_thrown
  case clearConstraints =>
    rcases h with ⟨ho, h⟩ | ⟨ho, e, h⟩ <;> simp only [World.step, Res.ofOption_ok] at h
    · unfold World.clearConstraints LMPC.clearConstraintMatrices at h
      simp only [Option.bind_eq_bind, Option.bind_eq_some_iff, Option.pure_def, Option.some.injEq] at h
      obtain ⟨p, hp, l, ⟨n, hn, rfl⟩, rfl⟩ := h
      exact ⟨rfl, rfl, rfl⟩
    · exact absurd h Res.ofOption_ne_thrown
  all_goals
    rcases h with ⟨ho, h⟩ | ⟨ho, e, h⟩ <;> cases h
    exact ⟨rfl, rfl, rfl⟩

/-- Until `initializeController` is called, the problem keeps the size of the joint problem. -/
theorem sliced_sizes (h : SlicedHist d dmax E r w g) (hr : ¬ r) (hp : w.ctl.ps ≠ none) :
    w.ctl.Q.rows = d.n + d.m * d.N ∧ w.ctl.Q.cols = d.n + d.m * d.N ∧ w.ctl.c.rows = d.n + d.m * d.N := by
  induction h with
  | @moved w g h hi =>
    obtain ⟨p, hp⟩ := Option.ne_none_iff_exists'.1 hp
    obtain ⟨_, _, a, b, c, _⟩ := h.good.ctl p hp
    unfold numVars at a b c
    rw [if_pos hi] at a b c
    exact ⟨a, b, c⟩
  | ok _ ho he hc hsol hs ih =>
    obtain ⟨a, b, c⟩ := out_sizes (fun k => hr (Or.inl (hsol k))) hc (fun k => hr (Or.inr k)) (Or.inl ⟨trivial, hs⟩)
    rw [b, c]
    exact ih (fun k => hr (Or.inl k)) (a ▸ hp)
  | thrown _ ho he hc hsol hs ih =>
    obtain ⟨a, b, c⟩ := out_sizes (fun k => hr (Or.inl (hsol k))) hc (fun k => hr (Or.inr k)) (Or.inr ⟨id, _, hs⟩)
    rw [b, c]
    exact ih (fun k => hr (Or.inl k)) (a ▸ hp)

theorem putRows_cols {cons : Nat → Constr K} {ps : PreviewSystem K} : ∀ (L : List Nat) {s s' : Nat × Mat K × Vec (Ext K)},
    L.foldlM (LMPC.putRows cons ps) s = some s' → s'.2.1.cols = s.2.1.cols
  | [], s, s', h => by cases h; rfl
  | i :: L, s, s', h => by
    rw [List.foldlM_cons] at h
    simp only [Option.bind_eq_bind, Option.bind_eq_some_iff] at h
    obtain ⟨t, ht, h⟩ := h
    rw [putRows_cols L h]
    unfold LMPC.putRows at ht
    simp only [Option.bind_eq_bind, Option.bind_eq_some_iff, Option.pure_def, Option.some.injEq] at ht
    obtain ⟨A, hA, b, hb, rfl⟩ := ht
    exact (UWorld.setBlock?_dims hA).2

theorem costTerms_size {costs : Nat → Cost K} {l l' : LMPC K} {i : Nat} {L : List Nat}
    (h : (i :: L).foldlM (LMPC.addCostTerms costs) l = some l') : l.Q.rows = (costs i).Q.rows := by
  rw [List.foldlM_cons] at h
  simp only [Option.bind_eq_bind, Option.bind_eq_some_iff] at h
  obtain ⟨t, ht, _⟩ := h
  unfold LMPC.addCostTerms Mat.add? at ht
  simp only [Option.bind_eq_bind, Option.bind_eq_some_iff, Option.pure_def, Option.some.injEq] at ht
  obtain ⟨Q, hQ, _⟩ := ht
  split at hQ
  · rename_i e; exact e.1
  · cases hQ

/-- What `solve()` of an `LMPC` does to the sizes. -/
theorem solve_sizes {b : Bool} {q : QP K} (hi : w.ctl.isInit = false) (h : w.solve env = some (w', b, q)) :
    q.nrVar = w.ctl.c.rows ∧ (∃ p s, w.ctl.ps = some p ∧ w'.pss p = s ∧ q.Aeq.cols = s.fullUDim) ∧
    (∀ i L, w.ctl.spCost = i :: L → w.ctl.Q.rows = (w'.costs i).Q.rows) := by
  obtain ⟨w1, p, l, s, l', h1, hp, hl, hs, rfl, rfl, hl', rfl⟩ := solve_inv h
  obtain ⟨p1, ps, l1, l2, cons, costs, hp1, hps, e1, e2, hc, hk, rfl, f⟩ := updateSystem_inv h1
  have n1 : l1.Q.rows = w.ctl.Q.rows ∧ l1.c.rows = w.ctl.c.rows := by
    unfold LMPC.updateNr at e1
    simp only [Option.bind_eq_bind, Option.bind_eq_some_iff, Option.pure_def, Option.some.injEq] at e1
    obtain ⟨a, ha, b, hb, rfl⟩ := e1
    exact ⟨rfl, rfl⟩
  obtain ⟨F2, q2, c2, _⟩ := LMPC.updateConstraintMatrixSize_fixed e2
  have hi2 : l2.isInit = false := f.isInit.trans hi
  have hi1 : l1.isInit = false := F2.isInit.symm.trans hi2
  have a2 : l2.Aeq.cols = ps.fullUDim := by
    unfold LMPC.updateConstraintMatrixSize LMPC.optSize at e2
    rw [if_neg (by rw [hi1]; exact Bool.false_ne_true)] at e2
    simp only [Option.bind_eq_bind, Option.bind_some, Option.pure_def, Option.some.injEq] at e2
    rw [← e2]; rfl
  have pp : p1 = p := by
    have := f.ps.symm.trans hp
    rw [hp1] at this
    exact Option.some.inj this
  subst pp
  refine ⟨?_, ⟨p1, ps, hp1, ?_, ?_⟩, ?_⟩
  · show l.c.rows = _
    rw [(UWorld.makeQPForm_bounds hl).2.2.2.1, c2, n1.2]
  · show upd w.pss p1 ps p1 = ps
    unfold upd; rw [if_pos rfl]
  · show l.Aeq.cols = _
    unfold LMPC.makeQPForm at hl
    rw [if_neg (by rw [hi2]; exact Bool.false_ne_true)] at hl
    unfold LMPC.makeQPFormBase at hl
    simp only [Option.bind_eq_bind, Option.bind_eq_some_iff, Option.pure_def, Option.some.injEq] at hl
    obtain ⟨l3, h3, ⟨_, A, _⟩, hA, ⟨_, _, _⟩, _, ⟨_, _, _⟩, _, rfl⟩ := hl
    rw [← a2]
    refine (putRows_cols _ hA).trans ?_
    have : ∀ (L : List Nat) {x y : LMPC K}, L.foldlM (LMPC.addCostTerms costs) x = some y → y.Aeq = x.Aeq := by
      intro L
      induction L with
      | nil => intro x y h; cases h; rfl
      | cons i L ih =>
        intro x y h
        rw [List.foldlM_cons] at h
        simp only [Option.bind_eq_bind, Option.bind_eq_some_iff] at h
        obtain ⟨t, ht, h⟩ := h
        rw [ih h]
        unfold LMPC.addCostTerms at ht
        simp only [Option.bind_eq_bind, Option.bind_eq_some_iff, Option.pure_def, Option.some.injEq] at ht
        obtain ⟨_, _, _, _, rfl⟩ := ht
        rfl
    rw [this _ h3]
  · intro i L e
    unfold LMPC.makeQPForm at hl
    rw [if_neg (by rw [hi2]; exact Bool.false_ne_true)] at hl
    unfold LMPC.makeQPFormBase at hl
    simp only [Option.bind_eq_bind, Option.bind_eq_some_iff, Option.pure_def, Option.some.injEq] at hl
    obtain ⟨l3, h3, _⟩ := hl
    rw [show l2.spCost = i :: L from f.spCost.trans e] at h3
    rw [← n1.1, ← q2]
    exact costTerms_size h3

/-- **C101** (before `initializeController`): if the moved controller had been given its system, a `solve()` before the
next `initializeController` has undefined behaviour when a cost is registered, and when none is, it hands the solver a problem whose
matrices do not fit together. -/
theorem c101_not_ready (hE : OnlyObjects E) (h : SlicedHist d dmax E r w g) (hr : ¬ r) (ho : OpOk d w g (.solve env))
    (hn : 0 < d.n) :
    (w.ctl.spCost ≠ [] → w.solve env = none ∧ w.step dmax (.solve env) = .ub) ∧
    ∀ w' b q, w.solve env = some (w', b, q) → ¬ WellSized q := by
  obtain ⟨hi, v, hv, vi, T, _⟩ := sliced_plain hE h
  obtain ⟨s1, s2, s3⟩ := sliced_sizes h hr ho.1
  have ho' : OpOk d v g (.solve { env with answer := fun q => (false, (env.answer q).2) }) :=
    ⟨(by rw [T.ps]; exact ho.1), ⟨(by rw [T.sol]; exact ho.2.sol), fun _ _ h => (by cases h),
      fun h => (by rw [vi] at h; cases h)⟩⟩
  obtain ⟨v', b', q', hs', hst, ws, nv⟩ := c50_solve_defined hv ho'
  obtain ⟨A1, ⟨p', s', p1, p2, p3⟩, A3⟩ := solve_sizes vi hs'
  have nv' : q'.nrVar = d.m * d.N := by rw [nv]; unfold numVars; rw [if_neg (by rw [vi]; exact Bool.false_ne_true)]
  obtain ⟨p, hp⟩ := Option.ne_none_iff_exists'.1 ho.1
  have hq : v.ctl.Q.rows = d.m * d.N := by
    obtain ⟨_, _, a, _⟩ := hv.good.ctl p (T.ps.trans hp)
    rw [a]; unfold numVars; rw [if_neg (by rw [vi]; exact Bool.false_ne_true)]
  obtain ⟨t, u, e1, e2, e3, e4, e5, e6, e7⟩ := solve_withHeap hs'
  have same : ∀ {w' b q}, w.solve env = some (w', b, q) → w'.pss = v'.pss ∧ w'.costs = v'.costs := by
    intro w' b q hs
    obtain ⟨t', u', f1, f2, f3, f4, f5, f6, f7⟩ := solve_withHeap hs
    rw [← T.ps, e1] at f1
    cases f1
    rw [← T.pss, e2] at f2
    cases f2
    rw [← T.spCost, ← T.costs, e5] at f5
    exact ⟨f3.trans ((by rw [T.pss] : _ = _).trans e3.symm), (Option.some.inj f5).symm⟩
  constructor
  · intro hc
    have : w.solve env = none := by
      cases hs : w.solve env with
      | none => rfl
      | some x =>
        obtain ⟨w', b, q⟩ := x
        exfalso
        obtain ⟨i, L, hL⟩ := List.exists_cons_of_ne_nil hc
        have a := (solve_sizes hi hs).2.2 i L hL
        rw [(same hs).2, ← A3 i L (T.spCost.trans hL), s1, hq] at a
        omega
    exact ⟨this, by simp only [World.step, this]; rfl⟩
  · intro w' b q hs hw
    obtain ⟨a, ⟨p'', s'', b1, b2, b3⟩, _⟩ := solve_sizes hi hs
    have w1 := hw.2.2.2.2.1
    have w2 := ws.2.2.2.2.1
    rw [← T.ps, p1] at b1
    cases b1
    rw [(same hs).1, p2] at b2
    subst b2
    rw [a, s3, b3] at w1
    rw [nv', p3] at w2
    omega

/-! ## After `initializeController` -/

/-- **C101** (like an `LMPC`): once initialised, the moved controller is indistinguishable from an `LMPC` that never was an
`InitialStateLMPC`: there is a program with such a controller on the same objects, with the same registered constraints and costs, in which
`solve()` hands the same problem to the solver, with the same return value and, on success, the same `control()` and `trajectory()`. -/
theorem c101_like_plain (hE : OnlyObjects E) (h : SlicedHist d dmax E r w g) (hr : r) : w.ctl.isInit = false ∧
    ∃ v, Hist d dmax E v g ∧ v.ctl.isInit = false ∧ v.pss = w.pss ∧ v.cons = w.cons ∧ v.costs = w.costs ∧ v.ctl.ps = w.ctl.ps ∧
      v.ctl.spConstr = w.ctl.spConstr ∧ v.ctl.spBoundConstr = w.ctl.spBoundConstr ∧ v.ctl.spCost = w.ctl.spCost ∧
      ∀ env w' b q, w.solve env = some (w', b, q) → ∃ v', v.solve env = some (v', b, q) ∧
        (b = true → v'.ctl.control = w'.ctl.control ∧ v'.ctl.trajectory = w'.ctl.trajectory) := by
  obtain ⟨hi, v, hv, vi, T, e⟩ := sliced_plain hE h
  obtain ⟨x, rfl⟩ := e hr
  refine ⟨hi, _, hv, vi, rfl, rfl, rfl, rfl, rfl, rfl, rfl, fun env w' b q hs => ?_⟩
  obtain ⟨x', hx, k⟩ := graft_solve x hi hs
  exact ⟨_, hx, k⟩

/-- **C101** (defined): once initialised, `solve()` of the moved controller is defined and hands the solver a well-sized problem in
the `mN` controls. -/
theorem c101_solve_defined (hE : OnlyObjects E) (h : SlicedHist d dmax E r w g) (hr : r) (ho : OpOk d w g (.solve env)) :
    ∃ w' b q, w.solve env = some (w', b, q) ∧ WellSized q ∧ q.nrVar = d.m * d.N := by
  obtain ⟨hi, v, hv, vi, T, e⟩ := sliced_plain hE h
  obtain ⟨x, rfl⟩ := e hr
  have ho' : OpOk d (w.graft x) g (.solve env) := ⟨ho.1, ⟨ho.2.sol, ho.2.answer, fun h => (by rw [vi] at h; cases h)⟩⟩
  obtain ⟨v', b, q, hs, _, ws, nv⟩ := c50_solve_defined hv ho'
  obtain ⟨x', hx, _⟩ := graft_solve w.ctl vi hs
  have : (w.graft x).graft w.ctl = w := rfl
  rw [this] at hx
  exact ⟨_, b, q, hx, ws, by rw [nv]; unfold numVars; rw [if_neg (by rw [vi]; exact Bool.false_ne_true)]⟩

/-- **C101** (end to end): once initialised, a successful solve of the moved controller leaves a control sequence that satisfies
every registered constraint under the simulated dynamics and has the smallest total cost of all that do. -/
theorem c101_end_to_end {q : QP K} {p : Nat} {k : SolverKind} {junk : Junk K} (O : OnlyObjects E)
    (h : SlicedHist d dmax E r w g) (hr : r) (hE : ∀ w op, E w op → NoBoundSpan w op)
    (ho : OpOk d w g (.solve env)) (hb : w.ctl.spBoundConstr = [] → g.clean)
    (hh : ∀ i ∈ w.ctl.spConstr, (w.cons i).userData.Honest) (hf : CostsFresh d w g)
    (hs : w.solve env = some (w', true, q)) (hp : w.ctl.ps = some p)
    (hn : q.nrEq + q.nrIneq + 2 * q.nrVar ≤ intMax)
    (hopt : BackEndOptimal dmax junk k q (env.answer q).2.e) :
    (∀ i ∈ w.ctl.spConstr, (w.cons i).userData.Holds d (Spec.traj d w p w'.ctl.control.e) w'.ctl.control.e) ∧
    IsStacked d (Spec.traj d w p w'.ctl.control.e) w'.ctl.trajectory ∧
    ∀ V : Nat → K, (∀ i ∈ w.ctl.spConstr, (w.cons i).userData.Holds d (Spec.traj d w p V) V) →
      (∀ j < d.m * d.N, -dmax ≤ V j ∧ V j ≤ dmax) →
      (k = .osqp → ∀ i < q.Aineq.rows, -dmax ≤ rowValue q.Aineq V i) →
      totalCost d w p w'.ctl.control.e ≤ totalCost d w p V := by
  obtain ⟨hi, v, hv, vi, T, e⟩ := sliced_plain O h
  obtain ⟨x, rfl⟩ := e hr
  have ho' : OpOk d (w.graft x) g (.solve env) := ⟨ho.1, ⟨ho.2.sol, ho.2.answer, fun h => (by rw [vi] at h; cases h)⟩⟩
  obtain ⟨x', hx, k1⟩ := graft_solve x hi hs
  have R := c59_end_to_end hv hE ho' vi hb hh hf hx hp hn hopt
  have c1 : (w'.graft x').ctl.control = w'.ctl.control := (k1 rfl).1
  have c2 : (w'.graft x').ctl.trajectory = w'.ctl.trajectory := (k1 rfl).2
  rw [c1, c2] at R
  exact R

end World
end
end Copra
