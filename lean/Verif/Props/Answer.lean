import Verif.Props.Order
import Verif.Props.OrderExamples
import Verif.Props.EndToEndExamples
import Verif.Proofs.Lockstep

/-! # C67-C69: what the returned control is -/

namespace Copra

namespace Spec
variable {K : Type} [Field K]

/-- The sum of the declared costs of the simulation from the current initial state. -/
def declaredCost (d : Dims) (w : World K) (p : Nat) (U : Nat → K) : K :=
  (w.ctl.spCost.map fun i => (w.costs i).userData.value d (traj d w p U) U).sum

/-- `|U|^2`. -/
def normSq (d : Dims) (U : Nat → K) : K := ∑ j ∈ Finset.range (d.m * d.N), U j ^ 2

end Spec
open Spec

set_option linter.unusedSectionVars false
set_option maxRecDepth 100000

section
variable {K : Type} [Field K] [LinearOrder K] [IsStrictOrderedRing K]

/-- Two points that are both no worse than their midpoint coincide when the Hessian is positive definite. -/
theorem pd_unique {q : QP K} (P : PD q.c.rows q.Q) {x y : Nat → K}
    (h1 : objective q x ≤ objective q fun j => (x j + y j) / 2)
    (h2 : objective q y ≤ objective q fun j => (x j + y j) / 2) : ∀ j < q.c.rows, x j = y j := by
  by_contra hne
  push Not at hne
  obtain ⟨j, hj, hne⟩ := hne
  have pos := P.2 (fun j => x j - y j) ⟨j, hj, sub_ne_zero.2 hne⟩
  have e := World.quadValue_mid (n := q.c.rows) (Q := q.Q) q.c x y
  unfold objective at h1 h2
  linarith

/-- An OSQP back end returns a point whose inequality rows do not underflow. -/
theorem BackEndOptimal.rows {dmax : K} {junk : Junk K} {q : QP K} {x : Nat → K} (hw : WellSized q)
    (hi : q.nrEq + q.nrIneq + 2 * q.nrVar ≤ intMax) (h : BackEndOptimal dmax junk .osqp q x) :
    ∀ i < q.Aineq.rows, -dmax ≤ rowValue q.Aineq x i := by
  obtain ⟨p, hp, hf, hm⟩ := h
  obtain ⟨p', hp', _, _, F, O⟩ := c42_osqp dmax junk hw (by omega)
  rw [hp] at hp'; cases hp'
  exact ((F x).1 hf).2

/-- Minimisers of the same problem found through two back ends coincide. -/
theorem same_minimiser {dmax : K} {junk1 junk2 : Junk K} {k1 k2 : SolverKind} {q1 q2 : QP K} {x y : Nat → K}
    (hw1 : WellSized q1) (hw2 : WellSized q2) (P : PD q1.nrVar q1.Q) (S : SameProblem q1 q2)
    (n1 : q1.nrEq + q1.nrIneq + 2 * q1.nrVar ≤ intMax) (n2 : q2.nrEq + q2.nrIneq + 2 * q2.nrVar ≤ intMax)
    (b1 : BackEndOptimal dmax junk1 k1 q1 x) (b2 : BackEndOptimal dmax junk2 k2 q2 y)
    (u1 : k1 = .osqp → ∀ i < q1.Aineq.rows, -dmax ≤ rowValue q1.Aineq y i)
    (u2 : k2 = .osqp → ∀ i < q2.Aineq.rows, -dmax ≤ rowValue q2.Aineq x i) : ∀ j < q1.nrVar, x j = y j := by
  obtain ⟨f1, m1⟩ := BackEndOptimal.spec hw1 n1 b1
  obtain ⟨f2, m2⟩ := BackEndOptimal.spec hw2 n2 b2
  have fm1 := World.feasible_mid f1 ((S.feasible y).2 f2)
  have a1 := m1 _ fm1 (by
    intro hk i hi
    subst hk
    have := BackEndOptimal.rows hw1 n1 b1 i hi
    have := u1 rfl i hi
    rw [World.rowValue_mid]; linarith)
  have a2 := m2 _ ((S.feasible _).1 fm1) (by
    intro hk i hi
    subst hk
    have := BackEndOptimal.rows hw2 n2 b2 i hi
    have := u2 rfl i hi
    rw [World.rowValue_mid]; linarith)
  rw [← S.objective, ← S.objective] at a2
  have hc := hw1.2.2.1
  rw [← hc] at P ⊢
  exact pd_unique P a1 a2

namespace World

theorem stacked_eq {d : Dims} {X Y : Nat → Nat → K} {u v : Vec K} (hu : IsStacked d X u) (hv : IsStacked d Y v)
    (h : ∀ k ≤ d.N, ∀ r < d.n, X k r = Y k r) : VecEq u v := by
  refine ⟨hu.1.trans hv.1.symm, fun i hi => ?_⟩
  rw [hu.1] at hi
  have hn : 0 < d.n := Nat.pos_of_ne_zero fun h0 => by rw [h0] at hi; simp at hi
  have h1 : i / d.n < d.N + 1 := Nat.div_lt_of_lt_mul (by rw [mul_comm]; exact hi)
  have h2 : i % d.n < d.n := Nat.mod_lt _ hn
  have e : i / d.n * d.n + i % d.n = i := Nat.div_add_mod' i d.n
  rw [← e, hu.2 _ _ (by omega) h2, hv.2 _ _ (by omega) h2]
  exact h _ (by omega) _ h2

/-- **C68**: two programs — whatever else they did, in whatever order they registered their objects, with whatever
solver — whose controllers have the same system, initial state, constraints and costs, and whose back ends report success
with a minimiser of the problem handed to them, return the same `control()` and the same `trajectory()`.  (`u1`, `u2`:
OSQP's bound handling, C42.) -/
theorem c68_answer_determined {d : Dims} {dmax : K} {E1 E2 : World K → Op K → Prop} {w1 w2 w1' w2' : World K} {g1 g2 : Ghost}
    {env1 env2 : SolveEnv K} {q1 q2 : QP K} {p1 p2 : Nat} {k1 k2 : SolverKind} {junk1 junk2 : Junk K}
    (h1 : Hist d dmax E1 w1 g1) (h2 : Hist d dmax E2 w2 g2)
    (hE1 : ∀ w op, E1 w op → NoBoundSpan w op ∧ NonnegWeights w op) (hE2 : ∀ w op, E2 w op → NoBoundSpan w op)
    (o1 : OpOk d w1 g1 (.solve env1)) (o2 : OpOk d w2 g2 (.solve env2))
    (hp1 : w1.ctl.ps = some p1) (hp2 : w2.ctl.ps = some p2)
    (i1 : w1.ctl.isInit = false) (i2 : w2.ctl.isInit = false) (same : SamePermuted w1 p1 w2 p2)
    (f1 : CostsFresh d w1 g1) (f2 : CostsFresh d w2 g2)
    (c1 : w1.ctl.spBoundConstr = [] → g1.clean) (c2 : w2.ctl.spBoundConstr = [] → g2.clean)
    (s1 : w1.solve env1 = some (w1', true, q1)) (s2 : w2.solve env2 = some (w2', true, q2))
    (n1 : q1.nrEq + q1.nrIneq + 2 * q1.nrVar ≤ intMax) (n2 : q2.nrEq + q2.nrIneq + 2 * q2.nrVar ≤ intMax)
    (b1 : BackEndOptimal dmax junk1 k1 q1 (env1.answer q1).2.e) (b2 : BackEndOptimal dmax junk2 k2 q2 (env2.answer q2).2.e)
    (u1 : k1 = .osqp → ∀ i < q1.Aineq.rows, -dmax ≤ rowValue q1.Aineq (env2.answer q2).2.e i)
    (u2 : k2 = .osqp → ∀ i < q2.Aineq.rows, -dmax ≤ rowValue q2.Aineq (env1.answer q1).2.e i) :
    VecEq w1'.ctl.control w2'.ctl.control ∧ VecEq w1'.ctl.trajectory w2'.ctl.trajectory := by
  have hw := fun {w w' : World K} {g : Ghost} {env : SolveEnv K} {q : QP K} {E : World K → Op K → Prop}
      (h : Hist d dmax E w g) (o : OpOk d w g (.solve env)) (s : w.solve env = some (w', true, q)) =>
    (show WellSized q ∧ q.nrVar = numVars d w.ctl by
      obtain ⟨_, _, _, e, _, a, b⟩ := c50_solve_defined h o
      rw [s] at e; cases e; exact ⟨a, b⟩)
  have S := c51_order_independent h1 h2 (fun w op h => (hE1 w op h).1) hE2 o1 o2 hp1 hp2 i1 i2 same f1 f2 c1 c2 s1 s2
  have P := c29_hessian h1 (fun w op h => (hE1 w op h).2) o1 i1 s1
  have M := same_minimiser (hw h1 o1 s1).1 (hw h2 o2 s2).1 P S n1 n2 b1 b2 u1 u2
  have nv : q1.nrVar = d.m * d.N := by rw [(hw h1 o1 s1).2]; unfold numVars; rw [i1]; rfl
  obtain ⟨r1, t1, _⟩ := c40_success h1 o1 s1 hp1
  obtain ⟨r2, t2, _⟩ := c40_success h2 o2 s2 hp2
  obtain ⟨a1, T1⟩ := t1 i1
  obtain ⟨a2, T2⟩ := t2 i2
  have hc : ∀ j < d.m * d.N, w1'.ctl.control.e j = w2'.ctl.control.e j := fun j hj => by
    rw [a1 j hj, a2 j hj]; exact M j (by rw [nv]; exact hj)
  refine ⟨⟨r1.trans r2.symm, fun j hj => hc j (by rw [← r1]; exact hj)⟩, stacked_eq T1 T2 ?_⟩
  intro k hk r hr
  unfold Spec.traj
  rw [same.A, same.B, same.bias]
  exact sim_congr d _ _ _ (fun j hj => same.x0.2 j (by rw [(h1.good.canUpdate hp1).x0]; exact hj)) hc k hk r hr

/-- **C68** for an `InitialStateLMPC` with a positive definite initial-state cost: `initialState()`, `control()` and
`trajectory()` are determined. -/
theorem c68_answer_determined_init {d : Dims} {dmax : K} {E1 E2 : World K → Op K → Prop} {w1 w2 w1' w2' : World K} {g1 g2 : Ghost}
    {env1 env2 : SolveEnv K} {q1 q2 : QP K} {p1 p2 : Nat} {k1 k2 : SolverKind} {junk1 junk2 : Junk K}
    (h1 : Hist d dmax E1 w1 g1) (h2 : Hist d dmax E2 w2 g2)
    (hE1 : ∀ w op, E1 w op → NoBoundSpan w op ∧ NonnegWeights w op) (hE2 : ∀ w op, E2 w op → NoBoundSpan w op)
    (o1 : OpOk d w1 g1 (.solve env1)) (o2 : OpOk d w2 g2 (.solve env2))
    (hp1 : w1.ctl.ps = some p1) (hp2 : w2.ctl.ps = some p2)
    (i1 : w1.ctl.isInit = true) (i2 : w2.ctl.isInit = true) (same : SamePermuted w1 p1 w2 p2)
    (sameI : SameInitData d w1.ctl w2.ctl) (inv : SameInverse d env1 env2) (tinv : TrueInverse d env1) (hR : PD d.n w1.ctl.R)
    (f1 : CostsFresh d w1 g1) (f2 : CostsFresh d w2 g2)
    (c1 : w1.ctl.spBoundConstr = [] → g1.clean) (c2 : w2.ctl.spBoundConstr = [] → g2.clean)
    (s1 : w1.solve env1 = some (w1', true, q1)) (s2 : w2.solve env2 = some (w2', true, q2))
    (n1 : q1.nrEq + q1.nrIneq + 2 * q1.nrVar ≤ intMax) (n2 : q2.nrEq + q2.nrIneq + 2 * q2.nrVar ≤ intMax)
    (b1 : BackEndOptimal dmax junk1 k1 q1 (env1.answer q1).2.e) (b2 : BackEndOptimal dmax junk2 k2 q2 (env2.answer q2).2.e)
    (u1 : k1 = .osqp → ∀ i < q1.Aineq.rows, -dmax ≤ rowValue q1.Aineq (env2.answer q2).2.e i)
    (u2 : k2 = .osqp → ∀ i < q2.Aineq.rows, -dmax ≤ rowValue q2.Aineq (env1.answer q1).2.e i) :
    VecEq w1'.ctl.control w2'.ctl.control ∧ VecEq w1'.ctl.trajectory w2'.ctl.trajectory ∧
    ∃ x1 x2, w1'.ctl.initialState (w1'.pss p1) = some x1 ∧ w2'.ctl.initialState (w2'.pss p2) = some x2 ∧ VecEq x1 x2 := by
  have hw := fun {w w' : World K} {g : Ghost} {env : SolveEnv K} {q : QP K} {E : World K → Op K → Prop}
      (h : Hist d dmax E w g) (o : OpOk d w g (.solve env)) (s : w.solve env = some (w', true, q)) =>
    (show WellSized q ∧ q.nrVar = numVars d w.ctl by
      obtain ⟨_, _, _, e, _, a, b⟩ := c50_solve_defined h o
      rw [s] at e; cases e; exact ⟨a, b⟩)
  have S := c51_order_independent_init h1 h2 (fun w op h => (hE1 w op h).1) hE2 o1 o2 hp1 hp2 i1 i2 same sameI inv f1 f2 c1 c2 s1 s2
  have P := (c45_hessian_partial h1 (fun w op h => (hE1 w op h).2) o1 i1 tinv s1).2 hR
  have M := same_minimiser (hw h1 o1 s1).1 (hw h2 o2 s2).1 P S n1 n2 b1 b2 u1 u2
  have nv : q1.nrVar = d.n + d.m * d.N := by rw [(hw h1 o1 s1).2]; unfold numVars; rw [i1]; rfl
  obtain ⟨r1, _, t1⟩ := c40_success h1 o1 s1 hp1
  obtain ⟨r2, _, t2⟩ := c40_success h2 o2 s2 hp2
  obtain ⟨a1, T1⟩ := t1 i1
  obtain ⟨a2, T2⟩ := t2 i2
  obtain ⟨x1, e1, z1, y1, _⟩ := c47_initial_state_partial h1 o1 i1 s1 hp1
  obtain ⟨x2, e2, z2, y2, _⟩ := c47_initial_state_partial h2 o2 i2 s2 hp2
  have hc : ∀ j < d.m * d.N, w1'.ctl.control.e j = w2'.ctl.control.e j := fun j hj => by
    rw [a1 j hj, a2 j hj]; exact M _ (by omega)
  refine ⟨⟨r1.trans r2.symm, fun j hj => hc j (by rw [← r1]; exact hj)⟩, stacked_eq T1 T2 ?_, x1, x2, e1, e2, ?_⟩
  · intro k hk r hr
    rw [same.A, same.B, same.bias]
    exact sim_congr d _ _ _ (fun j hj => M j (by omega)) hc k hk r hr
  · exact ⟨z1.trans z2.symm, fun j hj => by rw [z1] at hj; rw [y1 j hj, y2 j hj]; exact M j (by omega)⟩

/-- **C67**: the regularisation costs at most `1e-6 |V|^2`: the declared costs of the returned control exceed those of any
admissible control sequence `V` by at most `1e-6 (|V|^2 - |U|^2)`; in particular, among admissible control sequences with
the same declared cost, the returned one has the smallest norm. -/
theorem c67_regularisation {d : Dims} {dmax : K} {E : World K → Op K → Prop} {w w' : World K} {g : Ghost} {env : SolveEnv K}
    {q : QP K} {p : Nat} {k : SolverKind} {junk : Junk K} (h : Hist d dmax E w g) (hE : ∀ w op, E w op → NoBoundSpan w op)
    (ho : OpOk d w g (.solve env)) (hi : w.ctl.isInit = false) (hb : w.ctl.spBoundConstr = [] → g.clean)
    (hh : ∀ i ∈ w.ctl.spConstr, (w.cons i).userData.Honest) (hf : CostsFresh d w g)
    (hs : w.solve env = some (w', true, q)) (hp : w.ctl.ps = some p)
    (hn : q.nrEq + q.nrIneq + 2 * q.nrVar ≤ intMax) (hopt : BackEndOptimal dmax junk k q (env.answer q).2.e)
    {V : Nat → K} (hV : ∀ i ∈ w.ctl.spConstr, (w.cons i).userData.Holds d (Spec.traj d w p V) V)
    (hr : ∀ j < d.m * d.N, -dmax ≤ V j ∧ V j ≤ dmax)
    (hos : k = .osqp → ∀ i < q.Aineq.rows, -dmax ≤ rowValue q.Aineq V i) :
    declaredCost d w p w'.ctl.control.e ≤ declaredCost d w p V + 1 / 1000000 * (normSq d V - normSq d w'.ctl.control.e) ∧
    (declaredCost d w p V ≤ declaredCost d w p w'.ctl.control.e → normSq d w'.ctl.control.e ≤ normSq d V) := by
  have := (c59_end_to_end h hE ho hi hb hh hf hs hp hn hopt).2.2 V hV hr hos
  have key : declaredCost d w p w'.ctl.control.e ≤ declaredCost d w p V + 1 / 1000000 * (normSq d V - normSq d w'.ctl.control.e) := by
    unfold totalCost at this
    unfold declaredCost normSq
    linarith
  refine ⟨key, fun hle => ?_⟩
  have h6 : (0 : K) < 1 / 1000000 := by norm_num
  nlinarith

end World
end
end Copra
