import Verif.Proofs.Abort
import Verif.Props.Frame
import Verif.Props.EndToEnd
import Verif.Props.Order
import Verif.Props.WorldExamples

/-! # A solver that throws: C86 -/

namespace Copra
open Spec

set_option linter.unusedSectionVars false
set_option maxRecDepth 100000

section
variable {K : Type} [Field K] [LinearOrder K] [IsStrictOrderedRing K]

/-- Equal problems have the same solutions. -/
theorem Spec.QPEq.same {q1 q2 : QP K} (hw : WellSized q1) (h : QPEq q1 q2) : SameProblem q1 q2 := by
  obtain ⟨n1, n2, n3, hQ, hc, hA, hb, hG, hh, hl, hu⟩ := h
  have row : ∀ {A B : Mat K}, MatEq A B → ∀ (x : Nat → K) (i : Nat), i < A.rows → rowValue A x i = rowValue B x i := by
    intro A B hAB x i hi
    unfold rowValue
    rw [← hAB.2.1]
    exact Finset.sum_congr rfl fun j hj => by rw [hAB.2.2 i hi j (Finset.mem_range.1 hj)]
  refine SameProblem.mk' n1 hQ hc (by rw [hw.1, hw.2.2.1]) (by rw [hw.2.1, hw.2.2.1]) fun x => ?_
  obtain ⟨w1, w2, w3, w4, w5, w6, w7, w8, w9, w10, w11⟩ := hw
  unfold Feasible
  rw [← hA.1, ← hG.1, ← hl.1, ← hu.1]
  refine and_congr (forall_congr' fun i => forall_congr' fun hi => ?_) (and_congr (forall_congr' fun i => forall_congr' fun hi => ?_)
    (and_congr (forall_congr' fun i => forall_congr' fun hi => ?_) (forall_congr' fun i => forall_congr' fun hi => ?_)))
  · rw [row hA x i hi, hb.2 i (by omega)]
  · rw [row hG x i hi, hh.2 i (by omega)]
  · rw [hl.2 i hi]
  · rw [hu.2 i hi]

theorem Spec.IgnoresSolve.any : IgnoresSolve (AnyOp : World K → Op K → Prop) :=
  ⟨fun _ _ => trivial, fun _ _ _ => trivial, fun _ _ _ => trivial, fun _ _ _ _ _ => trivial⟩

theorem Spec.IgnoresSolve.noBoundSpan : IgnoresSolve (NoBoundSpan : World K → Op K → Prop) := by
  refine ⟨fun _ _ => trivial, fun _ _ _ => trivial, fun _ _ _ => trivial, ?_⟩
  rintro w w' op ⟨a, b, rfl⟩ h
  cases op <;> exact h

namespace World
variable {d : Dims} {dmax : K} {E : World K → Op K → Prop} {w w' : World K} {g : Ghost} {env : SolveEnv K} {q : QP K}

/-- The aborted solve of a history with aborts, seen as a failed solve of a history without. -/
theorem ahist_failed (hI : IgnoresSolve E) (h : AHist d dmax E w g) (ho : OpOk d w g (.solve env))
    (ht : w.solveThrow env = some (w', q)) :
    ∃ a b a' b' f k, Hist d dmax E (setRefs f k (clock a b w)) g ∧ Held (setRefs f k (clock a b w)) ∧
      OpOk d (setRefs f k (clock a b w)) g (.solve (failing env)) ∧
      (setRefs f k (clock a b w)).solve (failing env) = some (clock a' b' (setRefs f k w'), false, q) := by
  obtain ⟨a, b, H⟩ := ahist_hist hI h
  have ht' : (clock a b w).solveThrow env = some (clock a b w', q) := by rw [clock_solveThrow, ht]; rfl
  obtain ⟨f, k, _, _, h1, h2, h3, h4⟩ := aborted_failed hI H (opOk_clock ho) ht'
  exact ⟨a, b, _, _, f, k, h1, h2, h3, h4⟩

/-- **C86** (no new states): with aborted solves a program reaches no state, up to the two time measurements, that it
could not reach with solves that merely fail. -/
theorem c86_no_new_states (hI : IgnoresSolve E) (h : AHist d dmax E w g) : ∃ w2, ButTimes w w2 ∧ Hist d dmax E w2 g := by
  obtain ⟨a, b, H⟩ := ahist_hist hI h
  exact ⟨_, ⟨a, b, rfl⟩, H⟩

/-- **C86** (defined): whatever aborted solves came before, `solve()` has no undefined behaviour, neither when the
solver returns nor when it throws, and hands over a problem of consistent sizes. -/
theorem c86_defined (hI : IgnoresSolve E) (h : AHist d dmax E w g) (ho : OpOk d w g (.solve env)) :
    (∃ w' b q, w.solve env = some (w', b, q) ∧ WellSized q ∧ q.nrVar = numVars d w.ctl) ∧
    ∃ w' q, w.solveThrow env = some (w', q) ∧ WellSized q ∧ q.nrVar = numVars d w.ctl := by
  obtain ⟨a, b, H⟩ := ahist_hist hI h
  obtain ⟨w', b', q, hs, _, hw, hn⟩ := c50_solve_defined H (opOk_clock ho)
  rw [clock_solve] at hs
  refine ⟨⟨w', b', q, hs, hw, hn⟩, ?_⟩
  rw [solve_eq, Option.bind_eq_some_iff] at hs
  obtain ⟨⟨v, q2⟩, h1, h2⟩ := hs
  refine ⟨v, q2, h1, ?_⟩
  unfold finish at h2
  simp only [Option.bind_eq_some_iff, Option.map_eq_some_iff, Prod.mk.injEq] at h2
  obtain ⟨_, _, _, _, _, _, rfl⟩ := h2
  exact ⟨hw, hn⟩

/-- **C86** (nothing lost): a `solve()` aborted by the solver leaves the results, the time measurements, the registered
constraints and costs, their declared data, the data of the initial-state controller, the systems and the reference
counts as they were. -/
theorem c86_abort_keeps (hI : IgnoresSolve E) (h : AHist d dmax E w g) (ho : OpOk d w g (.solve env))
    (ht : w.solveThrow env = some (w', q)) :
    (w'.ctl.control = w.ctl.control ∧ w'.ctl.trajectory = w.ctl.trajectory ∧ w'.ctl.solveTime = w.ctl.solveTime ∧
      w'.ctl.solveAndBuildTime = w.ctl.solveAndBuildTime) ∧
    (w'.ctl.spConstr = w.ctl.spConstr ∧ w'.ctl.spEqConstr = w.ctl.spEqConstr ∧ w'.ctl.spIneqConstr = w.ctl.spIneqConstr ∧
      w'.ctl.spBoundConstr = w.ctl.spBoundConstr ∧ w'.ctl.spCost = w.ctl.spCost) ∧
    (w'.ctl.isInit = w.ctl.isInit ∧ w'.ctl.ps = w.ctl.ps ∧ w'.ctl.R = w.ctl.R ∧ w'.ctl.r = w.ctl.r ∧
      w'.ctl.x0lb = w.ctl.x0lb ∧ w'.ctl.x0ub = w.ctl.x0ub) ∧
    (∀ i, (w'.cons i).userData = (w.cons i).userData) ∧ (∀ i, (w'.costs i).userData = (w.costs i).userData) ∧
    (∀ p, (w'.pss p).A = (w.pss p).A ∧ (w'.pss p).B = (w.pss p).B ∧ (w'.pss p).d = (w.pss p).d ∧
      (w'.pss p).x0 = (w.pss p).x0) ∧
    w'.extCons = w.extCons ∧ w'.extCosts = w.extCosts := by
  obtain ⟨F, x1, x2⟩ := solveThrow_fixed ht
  obtain ⟨a, b, a', b', f, k, H, held, o, hs⟩ := ahist_failed hI h ho ht
  obtain ⟨u1, u2, u3, u4⟩ := c64_declared H o (Or.inl (show step dmax _ (.solve (failing env)) = .ok _ by simp only [step, hs]; rfl))
  refine ⟨⟨F.control, F.trajectory, F.solveTime, F.solveAndBuildTime⟩,
    ⟨F.spConstr, F.spEqConstr, F.spIneqConstr, F.spBoundConstr, F.spCost⟩,
    ⟨F.isInit, F.ps, F.R, F.r, F.x0lb, F.x0ub⟩, fun i => u1 i (by simp), fun i => u2 i (by simp) (by simp) (by simp), fun p => ?_, x1, x2⟩
  obtain ⟨y1, y2, y3⟩ := u3 p (by simp) (by simp)
  exact ⟨y1, y2, y3, u4 p (by simp) (by simp)⟩

/-- **C86** (retry): calling `solve()` again after an aborted one hands the solver the problem that was aborted, for any
of the two to throw or not, unless a registered cost is a per-step trajectory or mixed cost (`c86_retry_false`). -/
theorem c86_retry {w2 : World K} {env2 : SolveEnv K} {q2 : QP K} {b2 : Bool} (hI : IgnoresSolve E) (h : AHist d dmax E w g)
    (ho : OpOk d w g (.solve env)) (ht : w.solveThrow env = some (w', q))
    (hn : ∀ i ∈ w.ctl.spCost, ¬ (w.costs i).userData.PerStepState d)
    (ho2 : OpOk d w' (g.next w True (.solve env)) (.solve env2)) (hi : w.ctl.isInit = true → SameInverse d env env2)
    (hr : w'.solve env2 = some (w2, b2, q2) ∨ w'.solveThrow env2 = some (w2, q2)) : QPEq q q2 := by
  obtain ⟨a, b, a', b', f, k, H, held, o, hs⟩ := ahist_failed hI h ho ht
  have H2 := Hist.ok H o (hI.solve _ _) (show step dmax _ (.solve (failing env)) = .ok _ by simp only [step, hs]; rfl)
  have ho2' : OpOk d (clock a' b' (setRefs f k w')) (g.next (setRefs f k (clock a b w)) True (.solve (failing env))) (.solve env2) :=
    ⟨ho2.1, ho2.2.sol, ho2.2.answer, ho2.2.init⟩
  obtain ⟨v, b3, q3, hv, -⟩ := c50_solve_defined H2 ho2'
  have hQ : QPEq q q3 := solve_twice H H2 o ho2' held hn hi hs hv
  suffices e : q3 = q2 by rw [← e]; exact hQ
  rw [clock_solve, solve_eq, refs_solveThrow, Option.bind_eq_some_iff] at hv
  obtain ⟨r, hr1, hr2⟩ := hv
  have fin : ∀ {r : World K × QP K} {o : World K × Bool × QP K}, finish env2 r = some o → o.2.2 = r.2 := by
    intro r o h2
    unfold finish at h2
    simp only [Option.bind_eq_some_iff, Option.map_eq_some_iff] at h2
    obtain ⟨_, _, _, _, rfl⟩ := h2
    rfl
  have e1 := fin hr2
  rw [Option.map_eq_some_iff] at hr1
  obtain ⟨r', h1, rfl⟩ := hr1
  rcases hr with hr | hr
  · rw [solve_eq, h1, Option.bind_some] at hr
    exact e1.trans (fin hr).symm
  · rw [h1] at hr
    injection hr with hr
    rw [hr] at e1
    exact e1

/-- **C86** (end to end): C59 for histories in which solves were aborted. -/
theorem c86_end_to_end {q : QP K} {p : Nat} {k : SolverKind} {junk : Junk K} (hI : IgnoresSolve E) (h : AHist d dmax E w g)
    (hE : ∀ w op, E w op → NoBoundSpan w op)
    (ho : OpOk d w g (.solve env)) (hi : w.ctl.isInit = false) (hb : w.ctl.spBoundConstr = [] → g.clean)
    (hh : ∀ i ∈ w.ctl.spConstr, (w.cons i).userData.Honest) (hf : CostsFresh d w g)
    (hs : w.solve env = some (w', true, q)) (hp : w.ctl.ps = some p)
    (hn : q.nrEq + q.nrIneq + 2 * q.nrVar ≤ intMax)
    (hopt : BackEndOptimal dmax junk k q (env.answer q).2.e) :
    (∀ i ∈ w.ctl.spConstr, (w.cons i).userData.Holds d (Spec.traj d w p w'.ctl.control.e) w'.ctl.control.e) ∧
    IsStacked d (Spec.traj d w p w'.ctl.control.e) w'.ctl.trajectory ∧
    ∀ V : Nat → K, (∀ i ∈ w.ctl.spConstr, (w.cons i).userData.Holds d (Spec.traj d w p V) V) →
      (∀ j < d.m * d.N, -dmax ≤ V j ∧ V j ≤ dmax) →
      (k = .osqp → ∀ i < q.Aineq.rows, -dmax ≤ rowValue q.Aineq V i) →
      totalCost d w p w'.ctl.control.e ≤ totalCost d w p V := by
  obtain ⟨a, b, H⟩ := ahist_hist hI h
  exact c59_end_to_end (w := clock a b w) H hE (opOk_clock ho) hi hb hh hf ((clock_solve env w).trans hs) hp hn hopt

/-- **C86** (end to end, initial-state controller): C60 for histories in which solves were aborted. -/
theorem c86_end_to_end_init {q : QP K} {p : Nat} {k : SolverKind} {junk : Junk K} (hI : IgnoresSolve E) (h : AHist d dmax E w g)
    (hE : ∀ w op, E w op → NoBoundSpan w op)
    (ho : OpOk d w g (.solve env)) (hi : w.ctl.isInit = true) (hb : w.ctl.spBoundConstr = [] → g.clean)
    (hh : ∀ i ∈ w.ctl.spConstr, (w.cons i).userData.Honest) (hf : CostsFresh d w g)
    (hs : w.solve env = some (w', true, q)) (hp : w.ctl.ps = some p)
    (hn : q.nrEq + q.nrIneq + 2 * q.nrVar ≤ intMax)
    (hopt : BackEndOptimal dmax junk k q (env.answer q).2.e) :
    ∃ x : Vec K, w'.ctl.initialState (w'.pss p) = some x ∧ InitBounds d w.ctl x.e ∧
      IsStacked d (Spec.trajFrom d w p x.e w'.ctl.control.e) w'.ctl.trajectory ∧
      (∀ i ∈ w.ctl.spConstr, (w.cons i).userData.Holds d (Spec.trajFrom d w p x.e w'.ctl.control.e) w'.ctl.control.e) ∧
      ∀ V : Nat → K, (∀ i ∈ w.ctl.spConstr, (w.cons i).userData.Holds d (Spec.trajFrom d w p x.e V) V) →
        (∀ j < d.m * d.N, -dmax ≤ V j ∧ V j ≤ dmax) →
        (k = .osqp → ∀ i < q.Aineq.rows, -dmax ≤ rowValue q.Aineq (joined d x.e V) i) →
        totalCostFrom d w p x.e w'.ctl.control.e ≤ totalCostFrom d w p x.e V := by
  obtain ⟨a, b, H⟩ := ahist_hist hI h
  exact c60_initial_state_end_to_end (w := clock a b w) H hE (opOk_clock ho) hi hb hh hf ((clock_solve env w).trans hs) hp hn hopt

end World
end
end Copra
