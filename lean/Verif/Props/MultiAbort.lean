import Verif.Proofs.MultiAbort
import Verif.Props.Abort
import Verif.Props.Multi

/-! # Several controllers, some of whose solvers throw: C106 -/

namespace Copra
open Spec

set_option linter.unusedSectionVars false
set_option maxRecDepth 100000

section
variable {K : Type} [Field K] [LinearOrder K] [IsStrictOrderedRing K]

namespace World

/-- Whether or not the solver throws, it is handed the same problem. -/
theorem solve_solveThrow {w w2 w3 : World K} {env : SolveEnv K} {b : Bool} {q2 q3 : QP K}
    (h : w.solve env = some (w2, b, q2)) (ht : w.solveThrow env = some (w3, q3)) : q2 = q3 := by
  rw [solve_eq, ht, Option.bind_some] at h
  unfold finish at h
  simp only [Option.bind_eq_some_iff, Option.map_eq_some_iff, Prod.mk.injEq] at h
  obtain ⟨_, _, _, _, _, _, rfl⟩ := h
  rfl

end World

namespace MWorld
variable {n : Nat} {d : Dims} {dmax : K} {E : World K → Op K → Prop} {w w' : MWorld K n} {g g' : MGhost n} {k : Fin n}
  {env : SolveEnv K} {q : QP K}

/-- **C106** (no new states): with aborted solves a program with several controllers reaches no state, up to the time
measurements, that it could not reach with solves that merely fail. -/
theorem c106_no_new_states (hE : AboutObjects E) (hI : IgnoresSolve E) (h : MAHist d dmax E w g) :
    ∃ w2, MButTimes w w2 ∧ MHist d dmax E w2 g := by
  obtain ⟨a, b, H⟩ := mahist_mhist hE hI h
  exact ⟨_, ⟨a, b, rfl⟩, H⟩

/-- **C106** (defined): whichever solves of whichever controllers were aborted before, `solve()` of every controller has
no undefined behaviour, neither when its solver returns nor when it throws, and hands over a problem of consistent
sizes. -/
theorem c106_defined (hE : AboutObjects E) (hI : IgnoresSolve E) (h : MAHist d dmax E w g)
    (ho : OpOk d (w.view k) (g.view k) (.solve env)) :
    (∃ w' b q, w.solve env k = some (w', b, q) ∧ WellSized q ∧ q.nrVar = numVars d (w.ctls k)) ∧
    ∃ w' q, w.solveThrow env k = some (w', q) ∧ WellSized q ∧ q.nrVar = numVars d (w.ctls k) := by
  obtain ⟨a, b, H⟩ := mahist_mhist hE hI h
  obtain ⟨v, b', q, hs, _, hw, hn⟩ := World.c50_solve_defined (H.view hE k) (World.opOk_clock ho)
  rw [mclock_view, World.clock_solve] at hs
  refine ⟨⟨w.put k v, b', q, by unfold solve; rw [hs]; rfl, hw, hn⟩, ?_⟩
  rw [World.solve_eq, Option.bind_eq_some_iff] at hs
  obtain ⟨⟨u, q2⟩, h1, h2⟩ := hs
  refine ⟨w.put k u, q2, by unfold solveThrow; rw [h1]; rfl, ?_⟩
  unfold World.finish at h2
  simp only [Option.bind_eq_some_iff, Option.map_eq_some_iff, Prod.mk.injEq] at h2
  obtain ⟨_, _, _, _, _, _, rfl⟩ := h2
  exact ⟨hw, hn⟩

/-- What an aborted solve of controller `k` leaves alone. -/
theorem aborted_step (hE : AboutObjects E) (hI : IgnoresSolve E) (h : MHist d dmax E w g)
    (ho : OpOk d (w.view k) (g.view k) (.solve env)) (ht : w.solveThrow env k = some (w', q)) :
    (∀ i, (w'.cons i).userData = (w.cons i).userData) ∧ (∀ i, (w'.costs i).userData = (w.costs i).userData) ∧
    ∀ p, (w'.pss p).A = (w.pss p).A ∧ (w'.pss p).B = (w.pss p).B ∧ (w'.pss p).d = (w.pss p).d ∧
      (w'.pss p).x0 = (w.pss p).x0 := by
  obtain ⟨v, hv, rfl⟩ := msolveThrow_some ht
  obtain ⟨f, h', _, _, _, H, _, o, hs⟩ := aborted_held hE hI h ho hv
  obtain ⟨u1, u2, u3, u4⟩ := World.c64_declared (H.view hE k) o
    (Or.inl (show World.step dmax _ (.solve (World.failing env)) = .ok _ by simp only [World.step, hs]; rfl))
  refine ⟨fun i => u1 i (by simp), fun i => u2 i (by simp) (by simp) (by simp), fun p => ?_⟩
  obtain ⟨y1, y2, y3⟩ := u3 p (by simp) (by simp)
  exact ⟨y1, y2, y3, u4 p (by simp) (by simp)⟩

/-- **C106** (nothing lost): a `solve()` of controller `k` aborted by its solver changes no other controller at all,
leaves the results, the time measurements, the registered constraints and costs and the data of `k` as they were, and
the declared data of all objects, the systems and the client's `shared_ptr`s too. -/
theorem c106_abort_keeps (hE : AboutObjects E) (hI : IgnoresSolve E) (h : MAHist d dmax E w g)
    (ho : OpOk d (w.view k) (g.view k) (.solve env)) (ht : w.solveThrow env k = some (w', q)) :
    (∀ j, j ≠ k → w'.ctls j = w.ctls j) ∧
    ((w'.ctls k).control = (w.ctls k).control ∧ (w'.ctls k).trajectory = (w.ctls k).trajectory ∧
      (w'.ctls k).solveTime = (w.ctls k).solveTime ∧ (w'.ctls k).solveAndBuildTime = (w.ctls k).solveAndBuildTime) ∧
    ((w'.ctls k).spConstr = (w.ctls k).spConstr ∧ (w'.ctls k).spEqConstr = (w.ctls k).spEqConstr ∧
      (w'.ctls k).spIneqConstr = (w.ctls k).spIneqConstr ∧ (w'.ctls k).spBoundConstr = (w.ctls k).spBoundConstr ∧
      (w'.ctls k).spCost = (w.ctls k).spCost) ∧
    ((w'.ctls k).isInit = (w.ctls k).isInit ∧ (w'.ctls k).ps = (w.ctls k).ps ∧ (w'.ctls k).R = (w.ctls k).R ∧
      (w'.ctls k).r = (w.ctls k).r ∧ (w'.ctls k).x0lb = (w.ctls k).x0lb ∧ (w'.ctls k).x0ub = (w.ctls k).x0ub) ∧
    ((∀ i, (w'.cons i).userData = (w.cons i).userData) ∧ (∀ i, (w'.costs i).userData = (w.costs i).userData) ∧
      ∀ p, (w'.pss p).A = (w.pss p).A ∧ (w'.pss p).B = (w.pss p).B ∧ (w'.pss p).d = (w.pss p).d ∧
        (w'.pss p).x0 = (w.pss p).x0) ∧
    w'.extCons = w.extCons ∧ w'.extCosts = w.extCosts := by
  obtain ⟨a, b, H⟩ := mahist_mhist hE hI h
  have D := aborted_step hE hI H (World.opOk_clock ho) (mclock_solveThrow (a := a) (b := b) ht)
  obtain ⟨v, hv, rfl⟩ := msolveThrow_some ht
  obtain ⟨F, _, _⟩ := World.solveThrow_fixed hv
  rw [put_ctl]
  exact ⟨fun j hj => put_ctl_ne w hj v, ⟨F.control, F.trajectory, F.solveTime, F.solveAndBuildTime⟩,
    ⟨F.spConstr, F.spEqConstr, F.spIneqConstr, F.spBoundConstr, F.spCost⟩,
    ⟨F.isInit, F.ps, F.R, F.r, F.x0lb, F.x0ub⟩, D, rfl, rfl⟩

theorem malater_ctl (l : MALater d dmax E (OnOthers k) w g w' g') : w'.ctls k = w.ctls k := by
  have key : ∀ {w1 w2 : MWorld K n} {j : Fin n} {op : Op K} {ok : Prop}, j ≠ k → Out dmax w1 j op ok w2 →
      w2.ctls k = w1.ctls k := by
    intro w1 w2 j op ok hj hs
    by_cases hn : World.NotRefs op
    · obtain ⟨v, _, rfl⟩ := out_inv hn hs
      exact put_ctl_ne w1 (Ne.symm hj) v
    · cases op with
      | refsConstr i m =>
        rcases hs with ⟨_, h⟩ | ⟨_, e, h⟩ <;> simp only [step, Res.ok.injEq, reduceCtorEq] at h
        subst h; rfl
      | refsCost i m =>
        rcases hs with ⟨_, h⟩ | ⟨_, e, h⟩ <;> simp only [step, Res.ok.injEq, reduceCtorEq] at h
        subst h; rfl
      | _ => exact absurd trivial hn
  induction l with
  | refl => rfl
  | ok _ _ _ hf hs ih => exact (key hf.1 (Or.inl ⟨trivial, hs⟩)).trans ih
  | thrown _ _ _ hf hs ih => exact (key hf.1 (Or.inr ⟨id, _, hs⟩)).trans ih
  | aborted _ _ hf ht ih =>
    obtain ⟨v, _, rfl⟩ := msolveThrow_some ht
    exact (put_ctl_ne _ (Ne.symm hf.1) v).trans ih

/-- **C106** (isolation, state): calls on other controllers, aborted solves among them, change neither controller `k`
nor anything that was declared to it, whatever objects they share with it. -/
theorem c106_isolated (hE : AboutObjects E) (hI : IgnoresSolve E) (h : MAHist d dmax E w g)
    (l : MALater d dmax E (OnOthers k) w g w' g') :
    w'.ctls k = w.ctls k ∧ g'.clean k = g.clean k ∧
    (∀ i, (w'.cons i).userData = (w.cons i).userData) ∧ (∀ i, (w'.costs i).userData = (w.costs i).userData) ∧
    ∀ p, (w'.pss p).A = (w.pss p).A ∧ (w'.pss p).B = (w.pss p).B ∧ (w'.pss p).d = (w.pss p).d ∧
      (w'.pss p).x0 = (w.pss p).x0 := by
  obtain ⟨a, b, H⟩ := mahist_mhist hE hI h
  obtain ⟨a', b', L⟩ := malater_mlater hE hI (fun j op op' (h : OnOthers k j op) _ h' => ⟨h.1, h'⟩) H l
  exact ⟨malater_ctl l, (c63_isolated hE H L).2⟩

/-- **C106** (isolation, problem): whatever other controllers do in between, with aborted solves among it, controller `k`
hands its solver the same problem as before, but for costs given per step on the trajectory that are shared with a
controller whose solve was made or aborted meanwhile (C63). -/
theorem c106_isolation (hE : AboutObjects E) (hI : IgnoresSolve E) (hE' : ∀ w op, E w op → NoBoundSpan w op)
    (h : MAHist d dmax E w g) (l : MALater d dmax E (OnOthers k) w g w' g')
    {env env' : SolveEnv K} {v v' : MWorld K n} {b b' : Bool} {q q' : QP K}
    (inv : (w.ctls k).isInit = true → SameInverse d env env') (hb : (w.ctls k).spBoundConstr = [] → g.clean k)
    (f1 : ∀ i ∈ (w.ctls k).spCost, (w.costs i).userData.PerStepState d → g.fresh i ∧ (w.ctls k).spCost.count i = 1)
    (f2 : ∀ i ∈ (w.ctls k).spCost, (w.costs i).userData.PerStepState d → g'.fresh i)
    (o1 : OpOk d (w.view k) (g.view k) (.solve env)) (o2 : SolveContract d env' (w.ctls k))
    (s1 : w.solve env k = some (v, b, q)) (s2 : w'.solve env' k = some (v', b', q')) : QPEq q q' := by
  obtain ⟨x, y, H⟩ := mahist_mhist hE hI h
  obtain ⟨x', y', L⟩ := malater_mlater hE hI (fun j op op' (h : OnOthers k j op) _ h' => ⟨h.1, h'⟩) H l
  obtain ⟨u, hu, rfl⟩ := solve_some s1
  obtain ⟨u', hu', rfl⟩ := solve_some s2
  have t1 : (mclock x y w).solve env k = some ((mclock x y w).put k u, b, q) := by
    unfold solve; rw [mclock_view, World.clock_solve, hu]; rfl
  have t2 : (mclock x' y' w').solve env' k = some ((mclock x' y' w').put k u', b', q') := by
    unfold solve; rw [mclock_view, World.clock_solve, hu']; rfl
  exact c63_isolation_partial hE hE' H L inv hb f1 f2 (World.opOk_clock o1) ⟨o2.sol, o2.answer, o2.init⟩ t1 t2

/-- **C106** (retry): when the solver of controller `k` has thrown and others have gone on, solving again hands `k`'s
solver the problem that was aborted, unless `k` has a cost given per step on the trajectory (`c86_retry_false`). -/
theorem c106_retry (hE : AboutObjects E) (hI : IgnoresSolve E) (hE' : ∀ w op, E w op → NoBoundSpan w op)
    (h : MAHist d dmax E w g) (ho : OpOk d (w.view k) (g.view k) (.solve env)) {w1 w2 v2 : MWorld K n} {g2 : MGhost n}
    (ht : w.solveThrow env k = some (w1, q))
    (l : MALater d dmax E (OnOthers k) w1 (g.next w k True (.solve env)) w2 g2)
    {env2 : SolveEnv K} {b2 : Bool} {q2 : QP K}
    (hb : (w.ctls k).spBoundConstr = [] → g.clean k)
    (hn : ∀ i ∈ (w.ctls k).spCost, ¬ (w.costs i).userData.PerStepState d)
    (inv : (w.ctls k).isInit = true → SameInverse d env env2)
    (o2 : OpOk d (w2.view k) (g2.view k) (.solve env2))
    (hr : w2.solve env2 k = some (v2, b2, q2) ∨ w2.solveThrow env2 k = some (v2, q2)) : QPEq q q2 := by
  have H1 : MAHist d dmax E w1 (g.next w k True (.solve env)) := .aborted h ho ht
  obtain ⟨-, -, ⟨k1, -, -, k4, k5⟩, ⟨i1, i2, i3, i4, i5, i6⟩, ⟨c1, c2, c3⟩, -, -⟩ := c106_abort_keeps hE hI h ho ht
  obtain ⟨m1, m2, m3, m4, m5⟩ := c106_isolated hE hI H1 l
  obtain ⟨x, y, H⟩ := mahist_mhist hE hI h
  obtain ⟨z, t, HL⟩ := mahist_mhist hE hI H1
  obtain ⟨z', t', L⟩ := malater_mlater hE hI (fun j op op' (h : OnOthers k j op) _ h' => ⟨h.1, h'⟩) HL l
  have H2 := L.hist HL
  have ht' := mclock_solveThrow (a := x) (b := y) ht
  obtain ⟨v, hv, -⟩ := msolveThrow_some ht'
  obtain ⟨f, h', _, _, _, HF, _, oF, sF⟩ := aborted_held hE hI H (World.opOk_clock ho) hv
  obtain ⟨v3, b3, q3, s3, -⟩ := World.c50_solve_defined (H2.view hE k) (World.opOk_clock o2)
  have e3 : q3 = q2 := by
    rw [mclock_view, World.clock_solve] at s3
    rcases hr with hr | hr
    · obtain ⟨u, hu, -⟩ := solve_some hr
      rw [s3] at hu
      injection hu with hu
      exact congrArg (fun r => r.2.2) hu
    · obtain ⟨u, hu, -⟩ := msolveThrow_some hr
      exact World.solve_solveThrow s3 hu
  rw [← e3]
  obtain ⟨p, hp⟩ := Option.ne_none_iff_exists'.1 (show (w.ctls k).ps ≠ none from ho.1)
  have E1 : (w2.ctls k).spConstr = (w.ctls k).spConstr := by rw [m1, k1]
  have E2 : (w2.ctls k).spCost = (w.ctls k).spCost := by rw [m1, k5]
  have E3 : (w2.ctls k).isInit = (w.ctls k).isInit := by rw [m1, i1]
  have E4 : (w2.ctls k).ps = (w.ctls k).ps := by rw [m1, i2]
  have E5 : (w2.ctls k).spBoundConstr = (w.ctls k).spBoundConstr := by rw [m1, k4]
  have cd : ∀ i, (w2.cons i).userData = (w.cons i).userData := fun i => (m3 i).trans (c1 i)
  have kd : ∀ i, (w2.costs i).userData = (w.costs i).userData := fun i => (m4 i).trans (c2 i)
  have same : SameDeclared ((mrefs f h' (mclock x y w)).view k) p ((mclock z' t' w2).view k) p :=
    World.sameDeclared_of E1 E2 ((m5 p).1.trans (c3 p).1) ((m5 p).2.1.trans (c3 p).2.1)
      ((m5 p).2.2.1.trans (c3 p).2.2.1) ((m5 p).2.2.2.trans (c3 p).2.2.2) (fun i _ => cd i) (fun i _ => kd i)
  refine World.c57_problem_determined_any (HF.view hE k) (H2.view hE k) hE' hE' oF (World.opOk_clock o2) hp (E4.trans hp)
    E3 same (fun _ => ?_) inv (fun i hi hps => absurd hps (hn i hi)) (fun i hi hps => ?_) hb ?_ sF s3
  · show SameInitData d ((w.ctls k).clock (x k) (y k)) ((w2.ctls k).clock (z' k) (t' k))
    have e1 : (w2.ctls k).R = (w.ctls k).R := by rw [m1, i3]
    have e2 : (w2.ctls k).r = (w.ctls k).r := by rw [m1, i4]
    have e3 : (w2.ctls k).x0lb = (w.ctls k).x0lb := by rw [m1, i5]
    have e4 : (w2.ctls k).x0ub = (w.ctls k).x0ub := by rw [m1, i6]
    constructor <;> simp [LMPC.clock, e1, e2, e3, e4]
  · refine absurd ?_ (hn i (E2 ▸ hi))
    rw [← kd i]; exact hps
  · intro hn'
    have hnil : (w.ctls k).spBoundConstr = [] := E5.symm.trans hn'
    show g2.clean k
    rw [m2]
    have : (g.next w k True (.solve env)).clean k = (g.clean k ∧ (w.ctls k).spBoundConstr = []) := by
      unfold MGhost.next MGhost.put
      simp only [if_pos]
      rfl
    rw [this]
    exact ⟨hb hnil, hnil⟩

/-- **C106** (feasible set): C30 for each of several controllers, after aborted solves of any of them. -/
theorem c106_feasible_set {b : Bool} {p : Nat} (hE : AboutObjects E) (hI : IgnoresSolve E)
    (hE' : ∀ w op, E w op → NoBoundSpan w op) (h : MAHist d dmax E w g)
    (ho : OpOk d (w.view k) (g.view k) (.solve env)) (hi : (w.ctls k).isInit = false)
    (hb : (w.ctls k).spBoundConstr = [] → g.clean k)
    (hh : ∀ i ∈ (w.ctls k).spConstr, (w.cons i).userData.Honest)
    (hs : w.solve env k = some (w', b, q)) (hp : (w.ctls k).ps = some p) (U : Nat → K) :
    Feasible q U ↔
      (∀ i ∈ (w.ctls k).spConstr, (w.cons i).userData.Holds d (Spec.traj d (w.view k) p U) U) ∧
      ((w.ctls k).spBoundConstr = [] → ∀ j < d.m * d.N, -dmax ≤ U j ∧ U j ≤ dmax) := by
  obtain ⟨x, y, H⟩ := mahist_mhist hE hI h
  obtain ⟨v, hv, rfl⟩ := solve_some hs
  exact World.c30_feasible_set (w := World.clock (x k) (y k) (w.view k)) (H.view hE k) hE' (World.opOk_clock ho) hi hb hh
    ((World.clock_solve env _).trans hv) hp U

/-- **C106** (end to end): C62 after aborted solves, of this controller or of others. -/
theorem c106_end_to_end {p : Nat} {s : SolverKind} {junk : Junk K} (hE : AboutObjects E) (hI : IgnoresSolve E)
    (hE' : ∀ w op, E w op → NoBoundSpan w op) (h : MAHist d dmax E w g)
    (ho : OpOk d (w.view k) (g.view k) (.solve env)) (hi : (w.ctls k).isInit = false)
    (hb : (w.ctls k).spBoundConstr = [] → g.clean k)
    (hh : ∀ i ∈ (w.ctls k).spConstr, (w.cons i).userData.Honest)
    (hf : ∀ i ∈ (w.ctls k).spCost, (w.costs i).userData.PerStepState d → g.fresh i ∧ (w.ctls k).spCost.count i = 1)
    (hs : w.solve env k = some (w', true, q)) (hp : (w.ctls k).ps = some p)
    (hn : q.nrEq + q.nrIneq + 2 * q.nrVar ≤ intMax)
    (hopt : BackEndOptimal dmax junk s q (env.answer q).2.e) :
    (∀ i ∈ (w.ctls k).spConstr,
      (w.cons i).userData.Holds d (Spec.traj d (w.view k) p (w'.ctls k).control.e) (w'.ctls k).control.e) ∧
    IsStacked d (Spec.traj d (w.view k) p (w'.ctls k).control.e) (w'.ctls k).trajectory ∧
    ∀ V : Nat → K, (∀ i ∈ (w.ctls k).spConstr, (w.cons i).userData.Holds d (Spec.traj d (w.view k) p V) V) →
      (∀ j < d.m * d.N, -dmax ≤ V j ∧ V j ≤ dmax) →
      (s = .osqp → ∀ i < q.Aineq.rows, -dmax ≤ rowValue q.Aineq V i) →
      World.totalCost d (w.view k) p (w'.ctls k).control.e ≤ World.totalCost d (w.view k) p V := by
  obtain ⟨x, y, H⟩ := mahist_mhist hE hI h
  obtain ⟨v, hv, rfl⟩ := solve_some hs
  rw [put_ctl]
  exact World.c59_end_to_end (w := World.clock (x k) (y k) (w.view k)) (H.view hE k) hE' (World.opOk_clock ho) hi hb hh hf
    ((World.clock_solve env _).trans hv) hp hn hopt

/-- **C106** (end to end, initial-state controller): C60 for each of several controllers, after aborted solves. -/
theorem c106_end_to_end_init {p : Nat} {s : SolverKind} {junk : Junk K} (hE : AboutObjects E) (hI : IgnoresSolve E)
    (hE' : ∀ w op, E w op → NoBoundSpan w op) (h : MAHist d dmax E w g)
    (ho : OpOk d (w.view k) (g.view k) (.solve env)) (hi : (w.ctls k).isInit = true)
    (hb : (w.ctls k).spBoundConstr = [] → g.clean k)
    (hh : ∀ i ∈ (w.ctls k).spConstr, (w.cons i).userData.Honest)
    (hf : ∀ i ∈ (w.ctls k).spCost, (w.costs i).userData.PerStepState d → g.fresh i ∧ (w.ctls k).spCost.count i = 1)
    (hs : w.solve env k = some (w', true, q)) (hp : (w.ctls k).ps = some p)
    (hn : q.nrEq + q.nrIneq + 2 * q.nrVar ≤ intMax)
    (hopt : BackEndOptimal dmax junk s q (env.answer q).2.e) :
    ∃ x : Vec K, (w'.ctls k).initialState (w'.pss p) = some x ∧ InitBounds d (w.ctls k) x.e ∧
      IsStacked d (Spec.trajFrom d (w.view k) p x.e (w'.ctls k).control.e) (w'.ctls k).trajectory ∧
      (∀ i ∈ (w.ctls k).spConstr,
        (w.cons i).userData.Holds d (Spec.trajFrom d (w.view k) p x.e (w'.ctls k).control.e) (w'.ctls k).control.e) ∧
      ∀ V : Nat → K, (∀ i ∈ (w.ctls k).spConstr, (w.cons i).userData.Holds d (Spec.trajFrom d (w.view k) p x.e V) V) →
        (∀ j < d.m * d.N, -dmax ≤ V j ∧ V j ≤ dmax) →
        (s = .osqp → ∀ i < q.Aineq.rows, -dmax ≤ rowValue q.Aineq (joined d x.e V) i) →
        totalCostFrom d (w.view k) p x.e (w'.ctls k).control.e ≤ totalCostFrom d (w.view k) p x.e V := by
  obtain ⟨x, y, H⟩ := mahist_mhist hE hI h
  obtain ⟨v, hv, rfl⟩ := solve_some hs
  rw [put_ctl]
  exact World.c60_initial_state_end_to_end (w := World.clock (x k) (y k) (w.view k)) (H.view hE k) hE'
    (World.opOk_clock ho) hi hb hh hf ((World.clock_solve env _).trans hv) hp hn hopt

end MWorld
end
end Copra
