import Verif.Proofs.Multi
import Verif.Props.Frame
import Verif.Props.EndToEnd

/-! # Several controllers sharing objects: C62, C63 -/

namespace Copra
open Spec

set_option linter.unusedSectionVars false
set_option maxRecDepth 100000

variable {K : Type} [Field K] [LinearOrder K] [IsStrictOrderedRing K]

namespace MWorld
variable {n : Nat} {d : Dims} {dmax : K} {E : World K → Op K → Prop} {w w' : MWorld K n} {g : MGhost n} {k : Fin n}
  {env : SolveEnv K}

theorem solve_some {b : Bool} {q : QP K} (h : w.solve env k = some (w', b, q)) :
    ∃ v, (w.view k).solve env = some (v, b, q) ∧ w' = w.put k v := by
  unfold solve at h
  simp only [Option.map_eq_some_iff, Prod.mk.injEq] at h
  obtain ⟨⟨v, b', q'⟩, hs, rfl, rfl, rfl⟩ := h
  exact ⟨v, hs, rfl⟩

theorem put_ctl (w : MWorld K n) (k : Fin n) (v : World K) : (w.put k v).ctls k = v.ctl := if_pos rfl

theorem put_ctl_ne (w : MWorld K n) {j k : Fin n} (h : j ≠ k) (v : World K) : (w.put k v).ctls j = w.ctls j := if_neg h

/-- **C62** (safety): in every interleaving of calls on any number of controllers that share systems, constraints and
costs, every controller's `solve` is free of undefined behaviour and hands over a well formed problem. -/
theorem c62_solve_defined (hE : AboutObjects E) (h : MHist d dmax E w g)
    (ho : OpOk d (w.view k) (g.view k) (.solve env)) :
    ∃ w' b q, w.solve env k = some (w', b, q) ∧ w.step dmax k (.solve env) = .ok w' ∧ WellSized q ∧
      q.nrVar = numVars d (w.ctls k) := by
  obtain ⟨v, b, q, hs, hst, hw, hn⟩ := World.c50_solve_defined (h.view hE k) ho
  refine ⟨w.put k v, b, q, ?_, ?_, hw, hn⟩
  · unfold solve; rw [hs]; rfl
  · rw [step_notRefs (op := .solve env) trivial, hst]; rfl

/-- **C62** (end to end): whatever other controllers have done to the objects they share with controller `k`, when
`k`'s back end reports success with a minimiser of the problem its wrapper handed to it, `k`'s `control()` satisfies
every constraint registered with `k` under the simulated dynamics, `k`'s `trajectory()` is that simulation, and no
other admissible control sequence has a smaller total cost. -/
theorem c62_end_to_end {q : QP K} {p : Nat} {s : SolverKind} {junk : Junk K} (hE : AboutObjects E)
    (hE' : ∀ w op, E w op → NoBoundSpan w op) (h : MHist d dmax E w g)
    (ho : OpOk d (w.view k) (g.view k) (.solve env)) (hi : (w.ctls k).isInit = false)
    (hb : (w.ctls k).spBoundConstr = [] → g.clean k)
    (hh : ∀ i ∈ (w.ctls k).spConstr, (w.cons i).userData.Honest)
    (hf : ∀ i ∈ (w.ctls k).spCost, (w.costs i).userData.PerStepState d → g.fresh i ∧ (w.ctls k).spCost.count i = 1)
    (hs : w.solve env k = some (w', true, q)) (hp : (w.ctls k).ps = some p)
    (hn : q.nrEq + q.nrIneq + 2 * q.nrVar ≤ intMax)
    (hopt : BackEndOptimal dmax junk s q (env.answer q).2.e) :
    (∀ i ∈ (w.ctls k).spConstr,
      (w.cons i).userData.Holds d (Spec.traj d (w.view k) p (w'.ctls k).control.e) (w'.ctls k).control.e) ∧
    IsStacked d (Spec.traj d (w.view k) p (w'.ctls k).control.e) (w'.ctls k).trajectory ∧
    ∀ V : Nat → K, (∀ i ∈ (w.ctls k).spConstr, (w.cons i).userData.Holds d (Spec.traj d (w.view k) p V) V) →
      (∀ j < d.m * d.N, -dmax ≤ V j ∧ V j ≤ dmax) →
      (s = .osqp → ∀ i < q.Aineq.rows, -dmax ≤ rowValue q.Aineq V i) →
      World.totalCost d (w.view k) p (w'.ctls k).control.e ≤ World.totalCost d (w.view k) p V := by
  obtain ⟨v, hv, rfl⟩ := solve_some hs
  rw [put_ctl]
  exact World.c59_end_to_end (h.view hE k) hE' ho hi hb hh hf hv hp hn hopt

/-- **C62** (feasible set): C30 for each of several controllers. -/
theorem c62_feasible_set {b : Bool} {q : QP K} {p : Nat} (hE : AboutObjects E)
    (hE' : ∀ w op, E w op → NoBoundSpan w op) (h : MHist d dmax E w g)
    (ho : OpOk d (w.view k) (g.view k) (.solve env)) (hi : (w.ctls k).isInit = false)
    (hb : (w.ctls k).spBoundConstr = [] → g.clean k)
    (hh : ∀ i ∈ (w.ctls k).spConstr, (w.cons i).userData.Honest)
    (hs : w.solve env k = some (w', b, q)) (hp : (w.ctls k).ps = some p) (U : Nat → K) :
    Feasible q U ↔
      (∀ i ∈ (w.ctls k).spConstr, (w.cons i).userData.Holds d (Spec.traj d (w.view k) p U) U) ∧
      ((w.ctls k).spBoundConstr = [] → ∀ j < d.m * d.N, -dmax ≤ U j ∧ U j ≤ dmax) := by
  obtain ⟨v, hv, rfl⟩ := solve_some hs
  exact World.c30_feasible_set (h.view hE k) hE' ho hi hb hh hv hp U

/-- **C62** (convexity): with nonnegative weights every controller's Hessian is positive definite. -/
theorem c62_hessian {b : Bool} {q : QP K} (hE : AboutObjects E)
    (hE' : ∀ w op, E w op → NonnegWeights w op) (h : MHist d dmax E w g)
    (ho : OpOk d (w.view k) (g.view k) (.solve env)) (hi : (w.ctls k).isInit = false)
    (hs : w.solve env k = some (w', b, q)) : PD q.nrVar q.Q := by
  obtain ⟨v, hv, rfl⟩ := solve_some hs
  exact World.c29_hessian (h.view hE k) hE' ho hi hv

/-- **C62** (registries): in every reachable state of a program with several controllers, the three typed lists of each
partition its registered constraints, so removing any of them is safe. -/
theorem c62_registries (h : Reachable dmax w) (k : Fin n) :
    ((w.ctls k).spEqConstr = (w.ctls k).spConstr.filter fun i => (w.cons i).constraintType = .equality) ∧
    ((w.ctls k).spIneqConstr = (w.ctls k).spConstr.filter fun i => (w.cons i).constraintType = .inequality) ∧
    ((w.ctls k).spBoundConstr = (w.ctls k).spConstr.filter fun i => (w.cons i).constraintType = .bound) ∧
    ∀ i, ∃ w', w.step dmax k (.removeConstraint i) = .ok w' := by
  obtain ⟨a, b, c, _, e⟩ := World.c35_registries_consistent (h.view k)
  refine ⟨a, b, c, fun i => ?_⟩
  obtain ⟨v, hv⟩ := e i
  exact ⟨w.put k v, by rw [step_notRefs (op := .removeConstraint i) trivial, hv]; rfl⟩

theorem view_extCons_pos (w : MWorld K n) (h : Reachable dmax w) (k : Fin n) (i : Nat) :
    0 < (w.view k).extCons i ↔ 0 < w.extCons i ∨ ∃ j, j ≠ k ∧ i ∈ (w.ctls j).spConstr := by
  have cnt : ∀ j, (w.ctls j).refsC i = 2 * (w.ctls j).spConstr.count i := by
    intro j
    obtain ⟨_, _, _, c, _⟩ := World.c35_registries_consistent (h.view j)
    have c : (w.ctls j).spEqConstr.count i + (w.ctls j).spIneqConstr.count i + (w.ctls j).spBoundConstr.count i =
      (w.ctls j).spConstr.count i := c i
    unfold LMPC.refsC; omega
  show 0 < w.extCons i + ∑ j, (if j = k then 0 else (w.ctls j).refsC i) ↔ _
  rw [Nat.add_pos_iff_pos_or_pos, Finset.sum_pos_iff]
  refine or_congr Iff.rfl ⟨?_, ?_⟩
  · rintro ⟨j, _, hj⟩
    by_cases e : j = k
    · rw [if_pos e] at hj; exact absurd hj (Nat.lt_irrefl 0)
    · rw [if_neg e, cnt] at hj
      exact ⟨j, e, List.count_pos_iff.1 (by omega)⟩
  · rintro ⟨j, e, hj⟩
    refine ⟨j, Finset.mem_univ _, ?_⟩
    rw [if_neg e, cnt]
    have := List.count_pos_iff.2 hj
    omega

theorem view_extCosts_pos (w : MWorld K n) (k : Fin n) (i : Nat) :
    0 < (w.view k).extCosts i ↔ 0 < w.extCosts i ∨ ∃ j, j ≠ k ∧ i ∈ (w.ctls j).spCost := by
  show 0 < w.extCosts i + ∑ j, (if j = k then 0 else (w.ctls j).refsK i) ↔ _
  rw [Nat.add_pos_iff_pos_or_pos, Finset.sum_pos_iff]
  refine or_congr Iff.rfl ⟨?_, ?_⟩
  · rintro ⟨j, _, hj⟩
    by_cases e : j = k
    · rw [if_pos e] at hj; exact absurd hj (Nat.lt_irrefl 0)
    · rw [if_neg e] at hj
      exact ⟨j, e, List.count_pos_iff.1 hj⟩
  · rintro ⟨j, e, hj⟩
    refine ⟨j, Finset.mem_univ _, ?_⟩
    rw [if_neg e]
    exact List.count_pos_iff.2 hj

/-- **C62** (dropping): a controller's `solve` drops a constraint or cost exactly when neither the client nor any other
controller holds it (and it is not registered twice), and never touches the other controllers. -/
theorem c62_drops {b : Bool} {q : QP K} (h : Reachable dmax w) (hs : w.solve env k = some (w', b, q)) :
    ((w'.ctls k).spConstr = (w.ctls k).spConstr.filter fun i =>
      0 < w.extCons i ∨ (∃ j, j ≠ k ∧ i ∈ (w.ctls j).spConstr) ∨ 1 < (w.ctls k).spConstr.count i) ∧
    ((w'.ctls k).spCost = (w.ctls k).spCost.filter fun i =>
      0 < w.extCosts i ∨ (∃ j, j ≠ k ∧ i ∈ (w.ctls j).spCost) ∨ 1 < (w.ctls k).spCost.count i) ∧
    ∀ j, j ≠ k → w'.ctls j = w.ctls j := by
  obtain ⟨v, hv, rfl⟩ := solve_some hs
  obtain ⟨e1, _, _, _, e5⟩ := World.c39_as_built (h.view k) hv
  rw [put_ctl, e1, e5]
  refine ⟨?_, ?_, fun j hj => put_ctl_ne w hj v⟩
  · refine List.filter_congr fun i _ => ?_
    rw [decide_eq_decide, view_extCons_pos w h k i, or_assoc]
    exact Iff.rfl
  · refine List.filter_congr fun i _ => ?_
    rw [decide_eq_decide, view_extCosts_pos w k i, or_assoc]
    exact Iff.rfl

/-! ## C63 -/

theorem _root_.Copra.Spec.MLater.hist {F : Fin n → Op K → Prop} (h : MHist d dmax E w g) {w' : MWorld K n} {g' : MGhost n}
    (l : MLater d dmax E F w g w' g') : MHist d dmax E w' g' := by
  induction l with
  | refl => exact h
  | ok _ ho he _ hs ih => exact .ok ih ho he hs
  | thrown _ ho he _ hs ih => exact .thrown ih ho he hs

/-- What a call on another controller leaves alone. -/
theorem other_step (hE : AboutObjects E) (h : MHist d dmax E w g) {j : Fin n} {op : Op K} (hj : j ≠ k)
    (hop : ¬ OnObject op) (ho : OpOk d (w.view j) (g.view j) op) {ok : Prop} (hs : Out dmax w j op ok w') :
    w'.ctls k = w.ctls k ∧ (g.next w j ok op).clean k = g.clean k ∧
    (∀ i, (w'.cons i).userData = (w.cons i).userData) ∧ (∀ i, (w'.costs i).userData = (w.costs i).userData) ∧
    ∀ p, (w'.pss p).A = (w.pss p).A ∧ (w'.pss p).B = (w.pss p).B ∧ (w'.pss p).d = (w.pss p).d ∧
      (w'.pss p).x0 = (w.pss p).x0 := by
  have gc : (g.next w j ok op).clean k = g.clean k := by
    unfold MGhost.next MGhost.put
    exact if_neg (Ne.symm hj)
  by_cases hn : World.NotRefs op
  · obtain ⟨v, hv, rfl⟩ := out_inv hn hs
    have st : World.Steps dmax (w.view j) op v := by
      rcases hv with ⟨_, hv⟩ | ⟨_, e, hv⟩
      · exact Or.inl hv
      · exact Or.inr ⟨e, hv⟩
    obtain ⟨a, b, c, x⟩ := World.c64_declared (h.view hE j) ho st
    refine ⟨put_ctl_ne w (Ne.symm hj) v, gc, fun i => a i ?_, fun i => b i ?_ ?_ ?_, fun p => ?_⟩
    · rintro junk rfl; exact hop trivial
    · rintro junk rfl; exact hop trivial
    · rintro u rfl; exact hop trivial
    · rintro u rfl; exact hop trivial
    · have c := c p (by rintro A B v x N rfl; exact hop trivial) (by rintro A B v rfl; exact hop trivial)
      have x := x p (by rintro A B v x N rfl; exact hop trivial) (by rintro x rfl; exact hop trivial)
      exact ⟨c.1, c.2.1, c.2.2, x⟩
  · cases op with
    | refsConstr i m =>
      rcases hs with ⟨_, h⟩ | ⟨_, e, h⟩ <;> simp only [step, Res.ok.injEq, reduceCtorEq] at h
      subst h
      exact ⟨rfl, gc, fun _ => rfl, fun _ => rfl, fun _ => ⟨rfl, rfl, rfl, rfl⟩⟩
    | refsCost i m =>
      rcases hs with ⟨_, h⟩ | ⟨_, e, h⟩ <;> simp only [step, Res.ok.injEq, reduceCtorEq] at h
      subst h
      exact ⟨rfl, gc, fun _ => rfl, fun _ => rfl, fun _ => ⟨rfl, rfl, rfl, rfl⟩⟩
    | _ => exact absurd trivial hn

/-- **C63** (state): calls on other controllers change neither controller `k` (its lists, results, problem) nor anything
that was declared to it, whatever objects they share with it. -/
theorem c63_isolated (hE : AboutObjects E) (h : MHist d dmax E w g) {w' : MWorld K n} {g' : MGhost n}
    (l : MLater d dmax E (fun j op => j ≠ k ∧ ¬ OnObject op) w g w' g') :
    w'.ctls k = w.ctls k ∧ g'.clean k = g.clean k ∧
    (∀ i, (w'.cons i).userData = (w.cons i).userData) ∧ (∀ i, (w'.costs i).userData = (w.costs i).userData) ∧
    ∀ p, (w'.pss p).A = (w.pss p).A ∧ (w'.pss p).B = (w.pss p).B ∧ (w'.pss p).d = (w.pss p).d ∧
      (w'.pss p).x0 = (w.pss p).x0 := by
  have trans : ∀ {a b c : MWorld K n} {ga gb gc : MGhost n},
      (b.ctls k = a.ctls k ∧ gb.clean k = ga.clean k ∧
        (∀ i, (b.cons i).userData = (a.cons i).userData) ∧ (∀ i, (b.costs i).userData = (a.costs i).userData) ∧
        ∀ p, (b.pss p).A = (a.pss p).A ∧ (b.pss p).B = (a.pss p).B ∧ (b.pss p).d = (a.pss p).d ∧
          (b.pss p).x0 = (a.pss p).x0) →
      (c.ctls k = b.ctls k ∧ gc.clean k = gb.clean k ∧
        (∀ i, (c.cons i).userData = (b.cons i).userData) ∧ (∀ i, (c.costs i).userData = (b.costs i).userData) ∧
        ∀ p, (c.pss p).A = (b.pss p).A ∧ (c.pss p).B = (b.pss p).B ∧ (c.pss p).d = (b.pss p).d ∧
          (c.pss p).x0 = (b.pss p).x0) →
      (c.ctls k = a.ctls k ∧ gc.clean k = ga.clean k ∧
        (∀ i, (c.cons i).userData = (a.cons i).userData) ∧ (∀ i, (c.costs i).userData = (a.costs i).userData) ∧
        ∀ p, (c.pss p).A = (a.pss p).A ∧ (c.pss p).B = (a.pss p).B ∧ (c.pss p).d = (a.pss p).d ∧
          (c.pss p).x0 = (a.pss p).x0) := by
    rintro a b c ga gb gc ⟨x1, x2, x3, x4, x5⟩ ⟨y1, y2, y3, y4, y5⟩
    exact ⟨y1.trans x1, y2.trans x2, fun i => (y3 i).trans (x3 i), fun i => (y4 i).trans (x4 i), fun p =>
      ⟨(y5 p).1.trans (x5 p).1, (y5 p).2.1.trans (x5 p).2.1, (y5 p).2.2.1.trans (x5 p).2.2.1,
        (y5 p).2.2.2.trans (x5 p).2.2.2⟩⟩
  induction l with
  | refl => exact ⟨rfl, rfl, fun _ => rfl, fun _ => rfl, fun _ => ⟨rfl, rfl, rfl, rfl⟩⟩
  | ok l ho he hF hs ih => exact trans ih (other_step hE (l.hist h) hF.1 hF.2 ho (Or.inl ⟨trivial, hs⟩))
  | thrown l ho he hF hs ih => exact trans ih (other_step hE (l.hist h) hF.1 hF.2 ho (Or.inr ⟨id, _, hs⟩))

/-- **C63** (part): whatever other controllers do in between — add, remove, clear, initialise, solve, with the same
systems, constraints and costs — controller `k` hands its solver the same problem as before.  Missing: costs given per
step on the trajectory that are shared with a controller that solved meanwhile (`f2`; see C27 and `c63_false`). -/
theorem c63_isolation_partial (hE : AboutObjects E) (hE' : ∀ w op, E w op → NoBoundSpan w op) (h : MHist d dmax E w g)
    {w' : MWorld K n} {g' : MGhost n} (l : MLater d dmax E (fun j op => j ≠ k ∧ ¬ OnObject op) w g w' g')
    {env env' : SolveEnv K} {v v' : MWorld K n} {b b' : Bool} {q q' : QP K}
    (inv : (w.ctls k).isInit = true → SameInverse d env env') (hb : (w.ctls k).spBoundConstr = [] → g.clean k)
    (f1 : ∀ i ∈ (w.ctls k).spCost, (w.costs i).userData.PerStepState d → g.fresh i ∧ (w.ctls k).spCost.count i = 1)
    (f2 : ∀ i ∈ (w.ctls k).spCost, (w.costs i).userData.PerStepState d → g'.fresh i)
    (o1 : OpOk d (w.view k) (g.view k) (.solve env)) (o2 : SolveContract d env' (w.ctls k))
    (s1 : w.solve env k = some (v, b, q)) (s2 : w'.solve env' k = some (v', b', q')) : QPEq q q' := by
  obtain ⟨a, c, x, y, z⟩ := c63_isolated hE h l
  obtain ⟨u, hu, rfl⟩ := solve_some s1
  obtain ⟨u', hu', rfl⟩ := solve_some s2
  obtain ⟨p, hp⟩ := Option.ne_none_iff_exists'.1 o1.1
  have a' : (w'.view k).ctl = (w.view k).ctl := a
  have same : SameDeclared (w.view k) p (w'.view k) p :=
    World.sameDeclared_of (by rw [a']) (by rw [a']) (z p).1 (z p).2.1 (z p).2.2.1 (z p).2.2.2 (fun i _ => x i)
      (fun i _ => y i)
  refine World.c57_problem_determined_any (h.view hE k) ((l.hist h).view hE k) hE' hE' o1
    ⟨by rw [a']; exact o1.1, by rw [a']; exact o2⟩ hp (by rw [a']; exact hp) (by rw [a']) same
    (fun _ => by rw [a']; exact SameInitData.refl _ _) inv f1 ?_ hb ?_ hu hu'
  · intro i hm hps
    rw [a'] at hm ⊢
    have hps : ((w'.costs i).userData).PerStepState d := hps
    rw [y i] at hps
    exact ⟨f2 i hm hps, (f1 i hm hps).2⟩
  · rw [a']
    intro hn
    show g'.clean k
    rw [c]
    exact hb hn

end MWorld
end Copra
