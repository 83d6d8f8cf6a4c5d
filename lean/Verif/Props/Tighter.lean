import Verif.Props.AnswerExamples
import Verif.Props.Frame
import Verif.Props.Registry

/-! # C72: adding constraints -/

namespace Copra

namespace Spec
variable {K : Type}

/-- The second controller has the same system, initial state and costs (in any order) as the first one, and at least its
constraints. -/
structure Tighter (w1 : World K) (p1 : Nat) (w2 : World K) (p2 : Nat) : Prop where
  A : (w1.pss p1).A = (w2.pss p2).A
  B : (w1.pss p1).B = (w2.pss p2).B
  bias : (w1.pss p1).d = (w2.pss p2).d
  x0 : (w1.pss p1).x0 = (w2.pss p2).x0
  costs : (w1.ctl.spCost.map fun i => (w1.costs i).userData).Perm (w2.ctl.spCost.map fun i => (w2.costs i).userData)
  cons : ∀ i ∈ w1.ctl.spConstr, ∃ j ∈ w2.ctl.spConstr, (w2.cons j).userData = (w1.cons i).userData

end Spec
open Spec

set_option linter.unusedSectionVars false
set_option maxRecDepth 100000

section
variable {K : Type} [Field K] [LinearOrder K] [IsStrictOrderedRing K]

namespace World

theorem Tighter.traj {d : Dims} {w1 w2 : World K} {p1 p2 : Nat} (T : Tighter w1 p1 w2 p2) (U : Nat → K) :
    Spec.traj d w2 p2 U = Spec.traj d w1 p1 U := by
  unfold Spec.traj; rw [T.A, T.B, T.bias, T.x0]

theorem Tighter.totalCost {d : Dims} {w1 w2 : World K} {p1 p2 : Nat} (T : Tighter w1 p1 w2 p2) (U : Nat → K) :
    totalCost d w2 p2 U = totalCost d w1 p1 U := by
  unfold World.totalCost
  have pm := (T.costs.map fun D => D.value d (Spec.traj d w1 p1 U) U).sum_eq
  rw [List.map_map, List.map_map] at pm
  simp only [Function.comp_def] at pm
  rw [Tighter.traj T, pm]

/-- **C72**: let two controllers differ only in that the second one has more constraints, and let both back ends report
success with minimisers of their problems.  Then the second plan does not cost less than the first one, and if the first
plan satisfies the additional constraints the two plans and trajectories are the same. -/
theorem c72_more_constraints {d : Dims} {dmax : K} {E1 E2 : World K → Op K → Prop} {w1 w2 w1' w2' : World K} {g1 g2 : Ghost}
    {env1 env2 : SolveEnv K} {q1 q2 : QP K} {p1 p2 : Nat} {k1 k2 : SolverKind} {junk1 junk2 : Junk K}
    (h1 : Hist d dmax E1 w1 g1) (h2 : Hist d dmax E2 w2 g2)
    (hE1 : ∀ w op, E1 w op → NoBoundSpan w op ∧ NonnegWeights w op) (hE2 : ∀ w op, E2 w op → NoBoundSpan w op)
    (o1 : OpOk d w1 g1 (.solve env1)) (o2 : OpOk d w2 g2 (.solve env2))
    (hp1 : w1.ctl.ps = some p1) (hp2 : w2.ctl.ps = some p2)
    (i1 : w1.ctl.isInit = false) (i2 : w2.ctl.isInit = false) (T : Tighter w1 p1 w2 p2)
    (f1 : CostsFresh d w1 g1) (f2 : CostsFresh d w2 g2)
    (c1 : w1.ctl.spBoundConstr = [] → g1.clean) (c2 : w2.ctl.spBoundConstr = [] → g2.clean)
    (hh1 : ∀ i ∈ w1.ctl.spConstr, (w1.cons i).userData.Honest) (hh2 : ∀ i ∈ w2.ctl.spConstr, (w2.cons i).userData.Honest)
    (s1 : w1.solve env1 = some (w1', true, q1)) (s2 : w2.solve env2 = some (w2', true, q2))
    (n1 : q1.nrEq + q1.nrIneq + 2 * q1.nrVar ≤ intMax) (n2 : q2.nrEq + q2.nrIneq + 2 * q2.nrVar ≤ intMax)
    (b1 : BackEndOptimal dmax junk1 k1 q1 (env1.answer q1).2.e) (b2 : BackEndOptimal dmax junk2 k2 q2 (env2.answer q2).2.e)
    (r1 : ∀ j < d.m * d.N, -dmax ≤ w1'.ctl.control.e j ∧ w1'.ctl.control.e j ≤ dmax)
    (r2 : ∀ j < d.m * d.N, -dmax ≤ w2'.ctl.control.e j ∧ w2'.ctl.control.e j ≤ dmax)
    (u1 : k1 = .osqp → ∀ i < q1.Aineq.rows, -dmax ≤ rowValue q1.Aineq w2'.ctl.control.e i)
    (u2 : k2 = .osqp → ∀ i < q2.Aineq.rows, -dmax ≤ rowValue q2.Aineq w1'.ctl.control.e i) :
    totalCost d w1 p1 w1'.ctl.control.e ≤ totalCost d w2 p2 w2'.ctl.control.e ∧
    ((∀ i ∈ w2.ctl.spConstr, (w2.cons i).userData.Holds d (Spec.traj d w2 p2 w1'.ctl.control.e) w1'.ctl.control.e) →
      VecEq w1'.ctl.control w2'.ctl.control ∧ VecEq w1'.ctl.trajectory w2'.ctl.trajectory) := by
  have hw := fun {w w' : World K} {g : Ghost} {env : SolveEnv K} {q : QP K} {E : World K → Op K → Prop}
      (h : Hist d dmax E w g) (o : OpOk d w g (.solve env)) (s : w.solve env = some (w', true, q)) =>
    (show WellSized q ∧ q.nrVar = numVars d w.ctl by
      obtain ⟨_, _, _, e, _, a, b⟩ := c50_solve_defined h o
      rw [s] at e; cases e; exact ⟨a, b⟩)
  have F1 := c30_feasible_set h1 (fun w op h => (hE1 w op h).1) o1 i1 c1 hh1 s1 hp1
  have F2 := c30_feasible_set h2 hE2 o2 i2 c2 hh2 s2 hp2
  obtain ⟨κ1, O1⟩ := c32_objective h1 o1 i1 f1 s1 hp1
  obtain ⟨κ2, O2⟩ := c32_objective h2 o2 i2 f2 s2 hp2
  obtain ⟨x1, m1⟩ := BackEndOptimal.spec (hw h1 o1 s1).1 n1 b1
  obtain ⟨x2, m2⟩ := BackEndOptimal.spec (hw h2 o2 s2).1 n2 b2
  rw [← c40_control_is_answer i1 s1] at x1 m1
  rw [← c40_control_is_answer i2 s2] at x2 m2
  have a1 : k1 = .osqp → ∀ i < q1.Aineq.rows, -dmax ≤ rowValue q1.Aineq w1'.ctl.control.e i := by
    intro hk; subst hk
    rw [c40_control_is_answer i1 s1]
    exact BackEndOptimal.rows (hw h1 o1 s1).1 n1 b1
  obtain ⟨z1, T1, _⟩ := c40_success h1 o1 s1 hp1
  obtain ⟨z2, T2, _⟩ := c40_success h2 o2 s2 hp2
  replace T1 := (T1 i1).2
  replace T2 := (T2 i2).2
  have nv : q1.nrVar = d.m * d.N := by rw [(hw h1 o1 s1).2]; unfold numVars; rw [i1]; rfl
  -- the second plan is admissible for the first problem
  have g2 : Feasible q1 w2'.ctl.control.e := by
    refine (F1 _).2 ⟨fun i hi => ?_, fun _ => r2⟩
    obtain ⟨j, hj, e⟩ := T.cons i hi
    rw [← e, ← Tighter.traj T]
    exact ((F2 _).1 x2).1 j hj
  have le1 := m1 _ g2 u1
  have le1' := le1
  rw [O1, O1] at le1
  refine ⟨by rw [Tighter.totalCost T]; linarith, fun hold => ?_⟩
  have g1 : Feasible q2 w1'.ctl.control.e := (F2 _).2 ⟨hold, fun _ => r1⟩
  have le2 := m2 _ g1 u2
  rw [O2, O2, Tighter.totalCost T, Tighter.totalCost T] at le2
  have le3 : objective q1 w2'.ctl.control.e ≤ objective q1 w1'.ctl.control.e := by rw [O1, O1]; linarith
  have le4 := m1 _ (feasible_mid x1 g2) (by
    intro hk i hi
    have a := a1 hk i hi
    have b := u1 hk i hi
    rw [rowValue_mid]; linarith)
  have hc := (hw h1 o1 s1).1.2.2.1
  have PD1 := c29_hessian h1 (fun w op h => (hE1 w op h).2) o1 i1 s1
  rw [← hc] at PD1
  have e := pd_unique PD1 le4 (le_trans le3 le4)
  have e' : ∀ j < d.m * d.N, w1'.ctl.control.e j = w2'.ctl.control.e j := fun j hj => e j (by rw [hc, nv]; exact hj)
  refine ⟨⟨z1.trans z2.symm, fun j hj => e' j (by rw [← z1]; exact hj)⟩, T1.1.trans T2.1.symm, fun s hs => ?_⟩
  rw [T1.1] at hs
  obtain ⟨k, r, hk, hr, rfl⟩ := blk_split hs
  rw [T1.2 k r (by omega) hr, T2.2 k r (by omega) hr, Tighter.traj T]
  unfold Spec.traj
  exact sim_congr d _ _ _ (fun _ _ => rfl) e' k (by omega) r hr

theorem Tighter.trans {w1 w2 w3 : World K} {p1 p2 p3 : Nat} (h : Tighter w1 p1 w2 p2) (k : Tighter w2 p2 w3 p3) :
    Tighter w1 p1 w3 p3 where
  A := h.A.trans k.A
  B := h.B.trans k.B
  bias := h.bias.trans k.bias
  x0 := h.x0.trans k.x0
  costs := h.costs.trans k.costs
  cons := fun i hi => by
    obtain ⟨j, hj, e⟩ := h.cons i hi
    obtain ⟨t, ht, e'⟩ := k.cons j hj
    exact ⟨t, ht, e'.trans e⟩

theorem hist_reachable {d : Dims} {dmax : K} {E : World K → Op K → Prop} {w : World K} {g : Ghost} (h : Hist d dmax E w g) :
    Reachable dmax w := by
  induction h with
  | start h => exact ⟨_, [], h, rfl⟩
  | ok _ _ _ hs ih => exact ih.step (Or.inl hs)
  | thrown _ _ _ hs ih => exact ih.step (Or.inr ⟨_, hs⟩)

/-- **C72** applies to a program before and after `addConstraint`. -/
theorem c72_addConstraint {d : Dims} {dmax : K} {E : World K → Op K → Prop} {w w' : World K} {g : Ghost} {i : Nat} {junk : Junk K}
    (h : Hist d dmax E w g) (ho : OpOk d w g (.addConstraint i junk)) (hs : w.step dmax (.addConstraint i junk) = .ok w') (p : Nat) :
    Tighter w p w' p := by
  obtain ⟨a1, a2⟩ := add_step hs
  obtain ⟨c1, c2, c3, c4⟩ := c64_declared h ho (Or.inl hs)
  obtain ⟨x, y, z⟩ := c3 p (fun _ _ _ _ _ e => by cases e) (fun _ _ _ e => by cases e)
  refine ⟨x.symm, y.symm, z.symm, (c4 p (fun _ _ _ _ _ e => by cases e) (fun _ e => by cases e)).symm, ?_, fun j hj => ⟨j, ?_, ?_⟩⟩
  · rw [a2]
    simp only [c2 _ (fun _ e => by cases e) (fun _ e => by cases e) (fun _ e => by cases e)]
    exact .refl _
  · rw [a1]; exact List.mem_append_left _ hj
  · exact c1 j fun _ e => by cases e

/-- **C72** applies to a program before and after a solve, when nothing registered was abandoned by the client. -/
theorem c72_solve {d : Dims} {dmax : K} {E : World K → Op K → Prop} {w w' : World K} {g : Ghost} {env : SolveEnv K} {b : Bool}
    {q : QP K} (h : Hist d dmax E w g) (ho : OpOk d w g (.solve env)) (hs : w.solve env = some (w', b, q))
    (hc : ∀ i ∈ w.ctl.spConstr, 0 < w.extCons i) (hk : ∀ i ∈ w.ctl.spCost, 0 < w.extCosts i) (p : Nat) : Tighter w p w' p := by
  have st : w.step dmax (.solve env) = .ok w' := by
    obtain ⟨_, _, _, e, e', _⟩ := c50_solve_defined h ho
    rw [hs] at e; cases e; exact e'
  obtain ⟨a1, _, _, _, a5⟩ := c39_as_built (hist_reachable h) hs
  obtain ⟨c1, c2, c3, c4⟩ := c64_declared h ho (Or.inl st)
  obtain ⟨x, y, z⟩ := c3 p (fun _ _ _ _ _ e => by cases e) (fun _ _ _ e => by cases e)
  refine ⟨x.symm, y.symm, z.symm, (c4 p (fun _ _ _ _ _ e => by cases e) (fun _ e => by cases e)).symm, ?_, fun j hj => ⟨j, ?_, ?_⟩⟩
  · rw [a5, List.filter_eq_self.2 fun i hi => by simp [hk i hi]]
    simp only [c2 _ (fun _ e => by cases e) (fun _ e => by cases e) (fun _ e => by cases e)]
    exact .refl _
  · rw [a1, List.mem_filter]; exact ⟨hj, by simp [hc j hj]⟩
  · exact c1 j fun _ e => by cases e

end World
end

namespace Ex
open World

def tg8 := after 1000 m7 (.addConstraint 4 jk)

theorem htg8 : ∃ g : Ghost, Hist d 1000 Careful tg8 g ∧ g.fresh 0 ∧ g.clean := by
  obtain ⟨g, h, f, c⟩ := hm7
  exact ⟨_, hist_after (op := .addConstraint 4 jk) h (fun h => absurd h (by decide +kernel : (m7.cons 4).kind ≠ .ctrlBound))
    ⟨trivial, trivial, trivial⟩ (by decide +kernel : okB 1000 m7 _ = true), f, c⟩

def rG : World ℚ × Bool × QP ℚ := (tg8.solve (env yA true)).getD (tg8, false, q13)

theorem sG : tg8.solve (env yA true) = some (rG.1, true, rG.2.2) := by
  have e : (tg8.solve (env yA true)).isSome = true := by decide +kernel
  obtain ⟨r, hr⟩ := Option.isSome_iff_exists.1 e
  have h1 : rG = r := by unfold rG; rw [hr]; rfl
  have h2 : rG.2.1 = true := by decide +kernel
  rw [hr, ← h2, h1]

/-- C72 applies, with any two back ends: the answer of `m7` satisfies the additional constraint of `tg8`. -/
example (k1 k2 : SolverKind) (junk1 junk2 : Junk ℚ) :
    totalCost d m7 0 rA.1.ctl.control.e ≤ totalCost d tg8 0 rG.1.ctl.control.e ∧
    VecEq rA.1.ctl.control rG.1.ctl.control ∧ VecEq rA.1.ctl.trajectory rG.1.ctl.trajectory := by
  obtain ⟨g1, h1, f1, c1⟩ := hm7
  obtain ⟨g2, h2, f2, c2⟩ := htg8
  have o1 : OpOk d m7 g1 (.solve (env yA true)) :=
    ⟨(by decide +kernel : m7.ctl.ps ≠ none), contract rfl
      (fun h => absurd (congrArg Option.isSome h) (by decide +kernel : m7.ctl.sol.isSome ≠ false)) (by decide +kernel)⟩
  have o2 : OpOk d tg8 g2 (.solve (env yA true)) :=
    ⟨(by decide +kernel : tg8.ctl.ps ≠ none), contract rfl
      (fun h => absurd (congrArg Option.isSome h) (by decide +kernel : tg8.ctl.sol.isSome ≠ false)) (by decide +kernel)⟩
  have PA := psd_of_pd (c29_hessian h1 (fun _ _ h => h.2.1) o1 (by decide +kernel) sA)
  have PB := psd_of_pd (c29_hessian h2 (fun _ _ h => h.2.1) o2 (by decide +kernel) sG)
  rw [(by decide +kernel : rA.2.2.nrVar = rA.2.2.c.rows)] at PA
  rw [(by decide +kernel : rG.2.2.nrVar = rG.2.2.c.rows)] at PB
  have hh1 : ∀ i ∈ m7.ctl.spConstr, (m7.cons i).userData.Honest := by
    intro i hi
    rw [(by decide +kernel : m7.ctl.spConstr = [0, 2])] at hi
    simp only [List.mem_cons, List.not_mem_nil, or_false] at hi
    rcases hi with rfl | rfl <;> exact trivial
  have hh2 : ∀ i ∈ tg8.ctl.spConstr, (tg8.cons i).userData.Honest := by
    intro i hi
    rw [(by decide +kernel : tg8.ctl.spConstr = [0, 2, 4])] at hi
    simp only [List.mem_cons, List.not_mem_nil, or_false] at hi
    rcases hi with rfl | rfl | rfl <;> exact trivial
  have fr1 : CostsFresh d m7 g1 := by
    intro i hi hps
    rw [(by decide +kernel : m7.ctl.spCost = [0, 1])] at hi ⊢
    simp only [List.mem_cons, List.not_mem_nil, or_false] at hi
    rcases hi with rfl | rfl
    · exact ⟨f1, rfl⟩
    · unfold Cost.userData at hps
      rw [(by decide +kernel : (m7.costs 1).kind = .control)] at hps
      exact hps.elim
  have fr2 : CostsFresh d tg8 g2 := by
    intro i hi hps
    rw [(by decide +kernel : tg8.ctl.spCost = [0, 1])] at hi ⊢
    simp only [List.mem_cons, List.not_mem_nil, or_false] at hi
    rcases hi with rfl | rfl
    · exact ⟨f2, rfl⟩
    · unfold Cost.userData at hps
      rw [(by decide +kernel : (tg8.costs 1).kind = .control)] at hps
      exact hps.elim
  have i1 : m7.ctl.isInit = false := by decide +kernel
  have i2 : tg8.ctl.isInit = false := by decide +kernel
  have p1 : m7.ctl.ps = some 0 := by decide +kernel
  have p2 : tg8.ctl.ps = some 0 := by decide +kernel
  have b2 := optimal_of_stationary (x := ((env yA true).answer rG.2.2).2.e) PB (by decide +kernel) (by decide +kernel)
  obtain ⟨a, b⟩ := c72_more_constraints h1 h2 (fun _ _ h => ⟨h.1, h.2.1⟩) (fun _ _ h => h.1) o1 o2 p1 p2 i1 i2
    (c72_addConstraint h1 (fun h => absurd h (by decide +kernel : (m7.cons 4).kind ≠ .ctrlBound))
      (okB_step (by decide +kernel : okB 1000 m7 _ = true)) 0) fr1 fr2 (fun _ => c1) (fun _ => c2) hh1 hh2 sA sG
    (by decide +kernel) (by decide +kernel)
    (backEndOptimal_of (k := k1) (junk := junk1) (by decide +kernel) (by decide +kernel) (by decide +kernel)
      (optimal_of_stationary PA (by decide +kernel) (by decide +kernel)))
    (backEndOptimal_of (k := k2) (junk := junk2) (by decide +kernel) (by decide +kernel) (by decide +kernel) b2)
    (by decide +kernel) (by decide +kernel) (fun _ => by decide +kernel) (fun _ => by decide +kernel)
  refine ⟨a, b ?_⟩
  refine ((c30_feasible_set h2 (fun _ _ h => h.1) o2 i2 (fun _ => c2) hh2 sG p2 _).1 ?_).1
  decide +kernel

end Ex
end Copra
