import Verif.Props.Inactive

/-! # C72 and C95 for `InitialStateLMPC`: adding constraints, and dropping inactive ones -/

namespace Copra

open Spec

set_option linter.unusedSectionVars false
set_option maxRecDepth 100000

section
variable {K : Type} [Field K] [LinearOrder K] [IsStrictOrderedRing K]

theorem quadValue_mix {n : Nat} {Q : Mat K} (c : Vec K) (t : K) (x y : Nat → K) :
    quadValue n Q c (mix t x y) = t * quadValue n Q c x + (1 - t) * quadValue n Q c y
      - 1 / 2 * t * (1 - t) * ∑ i ∈ Finset.range n, ∑ j ∈ Finset.range n, (x i - y i) * Q.e i j * (x j - y j) := by
  unfold quadValue mix
  have lin : ∑ i ∈ Finset.range n, c.e i * (t * x i + (1 - t) * y i) =
      t * (∑ i ∈ Finset.range n, c.e i * x i) + (1 - t) * ∑ i ∈ Finset.range n, c.e i * y i := by
    rw [Finset.mul_sum, Finset.mul_sum, ← Finset.sum_add_distrib]
    apply Finset.sum_congr rfl; intro j _; ring
  have quad : ∑ i ∈ Finset.range n, ∑ j ∈ Finset.range n, (t * x i + (1 - t) * y i) * Q.e i j * (t * x j + (1 - t) * y j) =
      t * (∑ i ∈ Finset.range n, ∑ j ∈ Finset.range n, x i * Q.e i j * x j)
      + (1 - t) * (∑ i ∈ Finset.range n, ∑ j ∈ Finset.range n, y i * Q.e i j * y j)
      - t * (1 - t) * ∑ i ∈ Finset.range n, ∑ j ∈ Finset.range n, (x i - y i) * Q.e i j * (x j - y j) := by
    simp only [Finset.mul_sum]
    rw [← Finset.sum_add_distrib, ← Finset.sum_sub_distrib]
    apply Finset.sum_congr rfl; intro i _
    rw [← Finset.sum_add_distrib, ← Finset.sum_sub_distrib]
    apply Finset.sum_congr rfl; intro j _; ring
  rw [lin, quad]; ring

/-- The objective of a problem with a positive semidefinite Hessian is convex. -/
theorem objective_mix {q : QP K} (P : PSD q.c.rows q.Q) {t : K} (h0 : 0 ≤ t) (h1 : t ≤ 1) (x y : Nat → K) :
    objective q (mix t x y) ≤ t * objective q x + (1 - t) * objective q y := by
  unfold objective
  rw [quadValue_mix]
  have := P.2 fun i => x i - y i
  have h1' : 0 ≤ 1 - t := by linarith
  have := mul_nonneg (mul_nonneg h0 h1') this
  linarith

theorem feasible_ext {q : QP K} (hw : WellSized q) {x y : Nat → K} (h : ∀ j < q.nrVar, x j = y j) (hx : Feasible q x) :
    Feasible q y := by
  obtain ⟨_, _, _, _, a5, _, _, a8, _, a10, a11⟩ := hw
  have R : ∀ A : Mat K, A.cols = q.nrVar → ∀ i, rowValue A x i = rowValue A y i := by
    intro A hA i
    unfold rowValue
    apply Finset.sum_congr rfl; intro j hj
    rw [h j (by rw [← hA]; exact Finset.mem_range.1 hj)]
  obtain ⟨f1, f2, f3, f4⟩ := hx
  refine ⟨fun i hi => ?_, fun i hi => ?_, fun j hj => ?_, fun j hj => ?_⟩
  · rw [← R _ a5]; exact f1 i hi
  · rw [← R _ a8]; exact f2 i hi
  · rw [← h j (by omega)]; exact f3 j hj
  · rw [← h j (by omega)]; exact f4 j hj

theorem objective_ext {q : QP K} (hw : WellSized q) {x y : Nat → K} (h : ∀ j < q.nrVar, x j = y j) :
    objective q x = objective q y := by
  rw [← hw.2.2.1] at h
  unfold objective quadValue
  congr 1
  · congr 1
    apply Finset.sum_congr rfl; intro i hi
    apply Finset.sum_congr rfl; intro j hj
    rw [h i (Finset.mem_range.1 hi), h j (Finset.mem_range.1 hj)]
  · apply Finset.sum_congr rfl; intro i hi
    rw [h i (Finset.mem_range.1 hi)]

theorem optimal_ext {q : QP K} (hw : WellSized q) {x y : Nat → K} (h : ∀ j < q.nrVar, x j = y j) (hx : IsOptimal q x) :
    IsOptimal q y := by
  refine ⟨feasible_ext hw h hx.1, fun z hz => ?_⟩
  rw [← objective_ext hw h]
  exact hx.2 z hz

theorem mix_joined {d : Dims} (t : K) (x x' U U' : Nat → K) :
    mix t (joined d x U) (joined d x' U') = joined d (mix t x x') (mix t U U') := by
  funext j
  unfold mix joined
  split <;> rfl

namespace World

/-- A `solve()` of an initial-state controller after any history, with the conditions under which C44 describes its
problem, and a solver whose matrix inverse is one. -/
structure InitSolve (d : Dims) (dmax : K) (w : World K) (g : Ghost) (p : Nat) (env : SolveEnv K) (w' : World K)
    (b : Bool) (q : QP K) : Prop where
  hist : Hist d dmax (fun w op => NoBoundSpan w op ∧ NonnegWeights w op) w g
  allowed : OpOk d w g (.solve env)
  ps : w.ctl.ps = some p
  init : w.ctl.isInit = true
  clean : w.ctl.spBoundConstr = [] → g.clean
  honest : ∀ i ∈ w.ctl.spConstr, (w.cons i).userData.Honest
  fresh : CostsFresh d w g
  inverse : TrueInverse d env
  solve : w.solve env = some (w', b, q)


variable {d : Dims} {dmax : K} {w1 w2 w1' w2' : World K} {g1 g2 : Ghost} {p1 p2 : Nat} {e1 e2 : SolveEnv K}
  {b1 b2 : Bool} {q1 q2 : QP K}

theorem Tighter.trajFrom (T : Tighter w1 p1 w2 p2) (x U : Nat → K) : Spec.trajFrom d w2 p2 x U = Spec.trajFrom d w1 p1 x U := by
  unfold Spec.trajFrom; rw [T.A, T.B, T.bias]

theorem Tighter.totalCostFrom (T : Tighter w1 p1 w2 p2) (x U : Nat → K) :
    totalCostFrom d w2 p2 x U = totalCostFrom d w1 p1 x U := by
  unfold Spec.totalCostFrom
  have pm := (T.costs.map fun D => D.value d (Spec.trajFrom d w1 p1 x U) U).sum_eq
  rw [List.map_map, List.map_map] at pm
  simp only [Function.comp_def] at pm
  rw [Tighter.trajFrom T, pm]

theorem InitSolve.sized (S : InitSolve d dmax w1 g1 p1 e1 w1' b1 q1) :
    WellSized q1 ∧ q1.nrVar = d.n + d.m * d.N ∧ q1.c.rows = d.n + d.m * d.N := by
  obtain ⟨_, _, _, e, _, a, b⟩ := c50_solve_defined S.hist S.allowed
  rw [S.solve] at e; cases e
  unfold numVars at b; rw [S.init] at b
  exact ⟨a, b, a.2.2.1.trans b⟩

theorem perm_lift {α : Type} {f : Nat → α} {g : Nat → α} {l1 l2 : List Nat} (h : (l1.map f).Perm (l2.map g)) :
    ∃ L, L.Perm l2 ∧ List.Forall₂ (fun i j => f i = g j) l1 L := by
  induction l1 generalizing l2 with
  | nil =>
    refine ⟨[], ?_, .nil⟩
    have := List.map_eq_nil_iff.1 (List.nil_perm.1 h)
    rw [this]
  | cons a l ih =>
    obtain ⟨b, hb, e⟩ := List.mem_map.1 (h.mem_iff.1 (List.mem_cons_self : f a ∈ (a :: l).map f))
    have pb := List.perm_cons_erase hb
    have h2 := h.trans (pb.map g)
    rw [List.map_cons, List.map_cons, e] at h2
    obtain ⟨L, p, F⟩ := ih ((List.perm_cons _).1 h2)
    exact ⟨b :: L, (p.cons b).trans pb.symm, .cons e.symm F⟩

/-- Two initial-state controllers with the same system, start, costs (in any order), initial-state cost and matrix inverse
hand the same objective to their solvers, whatever their constraints and the bounds on their initial states are. -/
theorem same_objective_init (S1 : InitSolve d dmax w1 g1 p1 e1 w1' b1 q1) (S2 : InitSolve d dmax w2 g2 p2 e2 w2' b2 q2)
    (hA : (w1.pss p1).A = (w2.pss p2).A) (hB : (w1.pss p1).B = (w2.pss p2).B) (hd : (w1.pss p1).d = (w2.pss p2).d)
    (h0 : (w1.pss p1).x0 = (w2.pss p2).x0)
    (hcosts : (w1.ctl.spCost.map fun i => (w1.costs i).userData).Perm (w2.ctl.spCost.map fun i => (w2.costs i).userData))
    (hR : ∀ a < d.n, ∀ b < d.n, w1.ctl.R.e a b = w2.ctl.R.e a b) (hr : ∀ a < d.n, w1.ctl.r.e a = w2.ctl.r.e a)
    (inv : SameInverse d e1 e2) (y : Nat → K) : objective q1 y = objective q2 y := by
  have G1 := S1.hist.good
  have G2 := S2.hist.good
  obtain ⟨p, hp, R1⟩ := G1.solved S1.allowed.2 S1.solve
  rw [S1.ps] at hp; cases hp
  obtain ⟨p, hp, R2⟩ := G2.solved S2.allowed.2 S2.solve
  rw [S2.ps] at hp; cases hp
  have s := sysEq R1.heap R2.heap hA hB hd fun j hj => by rw [h0]
  have V1 := R1.entries G1 S1.fresh
  have V2 := R2.entries G2 S2.fresh
  have A1 := R1.init S1.init
  have A2 := R2.init S2.init
  have R : ∀ i ∈ w1.ctl.spCost, ∀ j ∈ w2.ctl.spCost, (w1.costs i).userData.Eqv (w2.costs j).userData →
      Cost.ResEq d (w1'.costs i) (w2'.costs j) := by
    intro i hi j hj h
    obtain ⟨e1, r1, u1⟩ := V1 i hi
    obtain ⟨e2, r2, u2⟩ := V2 j hj
    exact (Cost.determined r1.pre r2.pre (by rw [u1, u2]; exact h)).resEq s e1 e2
  have pm : ∃ L, L.Perm w2.ctl.spCost ∧
      List.Forall₂ (fun i j => (w1.costs i).userData.Eqv (w2.costs j).userData) w1.ctl.spCost L := by
    obtain ⟨L, a, b⟩ := perm_lift hcosts
    exact ⟨L, a, b.imp fun i j h => h ▸ Spec.CostData.Eqv.refl _⟩
  have hUU : ∀ a < d.m * d.N, ∀ b < d.m * d.N, q1.Q.e (d.n + a) (d.n + b) = q2.Q.e (d.n + a) (d.n + b) := by
    intro a ha b hb
    rw [A1.QUU a ha b hb, A2.QUU a ha b hb]
    congr 1
    exact sum_perm pm fun i hi j hj h => (R i hi j hj h).Q a ha b hb
  have hxU : ∀ a < d.n, ∀ b < d.m * d.N, q1.Q.e a (d.n + b) = q2.Q.e a (d.n + b) := by
    intro a ha b hb
    rw [A1.QxU a ha b hb, A2.QxU a ha b hb]
    exact sum_perm pm fun i hi j hj h => (R i hi j hj h).E a ha b hb
  have hxx := hxx_init A1 A2 hR inv (S1.allowed.2.init S1.init).2.2.2.2.2 hUU hxU
  unfold objective
  rw [A1.cr, A2.cr]
  have hQ : ∀ a < d.n + d.m * d.N, ∀ b < d.n + d.m * d.N, q1.Q.e a b = q2.Q.e a b := by
    intro a ha b hb
    by_cases ha' : a < d.n <;> by_cases hb' : b < d.n
    · exact hxx a ha' b hb'
    · obtain ⟨b, rfl⟩ := Nat.exists_eq_add_of_le (Nat.le_of_not_lt hb')
      exact hxU a ha' b (by omega)
    · obtain ⟨a, rfl⟩ := Nat.exists_eq_add_of_le (Nat.le_of_not_lt ha')
      have ha : a < d.m * d.N := by omega
      rw [A1.QUx b hb' a ha, A2.QUx b hb' a ha]
      exact hxU b hb' a ha
    · obtain ⟨a, rfl⟩ := Nat.exists_eq_add_of_le (Nat.le_of_not_lt ha')
      obtain ⟨b, rfl⟩ := Nat.exists_eq_add_of_le (Nat.le_of_not_lt hb')
      exact hUU a (by omega) b (by omega)
  have hc : ∀ a < d.n + d.m * d.N, q1.c.e a = q2.c.e a := by
    intro a ha
    by_cases ha' : a < d.n
    · rw [A1.cx a ha', A2.cx a ha']; exact hr a ha'
    · obtain ⟨a, rfl⟩ := Nat.exists_eq_add_of_le (Nat.le_of_not_lt ha')
      have ha : a < d.m * d.N := by omega
      rw [A1.cU a ha, A2.cU a ha]
      exact sum_perm pm fun i hi j hj h => (R i hi j hj h).f a ha
  unfold quadValue
  congr 1
  · congr 1
    apply Finset.sum_congr rfl; intro a ha
    apply Finset.sum_congr rfl; intro b hb
    rw [hQ a (Finset.mem_range.1 ha) b (Finset.mem_range.1 hb)]
  · apply Finset.sum_congr rfl; intro a ha
    rw [hc a (Finset.mem_range.1 ha)]

/-- Two initial-state controllers that differ in their constraints only hand the same objective to their solvers. -/
theorem c72_same_objective_init (S1 : InitSolve d dmax w1 g1 p1 e1 w1' b1 q1) (S2 : InitSolve d dmax w2 g2 p2 e2 w2' b2 q2)
    (T : Tighter w1 p1 w2 p2) (I : SameInitData d w1.ctl w2.ctl) (inv : SameInverse d e1 e2) (y : Nat → K) :
    objective q1 y = objective q2 y :=
  same_objective_init S1 S2 T.A T.B T.bias T.x0 T.costs I.R I.r inv y

/-- What the client reads off after a successful solve: an initial state and controls which together are the solver's
answer, and the trajectory they lead to. -/
theorem InitSolve.result (S : InitSolve d dmax w1 g1 p1 e1 w1' true q1) : ∃ x : Vec K,
    w1'.ctl.initialState (w1'.pss p1) = some x ∧ x.rows = d.n ∧ w1'.ctl.control.rows = d.m * d.N ∧
    IsStacked d (Spec.trajFrom d w1 p1 x.e w1'.ctl.control.e) w1'.ctl.trajectory ∧
    ∀ j < q1.nrVar, joined d x.e w1'.ctl.control.e j = (e1.answer q1).2.e j := by
  obtain ⟨x, h1, h2, h3, h4, _⟩ := c47_initial_state_partial S.hist S.allowed S.init S.solve S.ps
  obtain ⟨r, _, t⟩ := c40_success S.hist S.allowed S.solve S.ps
  refine ⟨x, h1, h2, r, h4, fun j hj => ?_⟩
  rw [(InitSolve.sized S).2.1] at hj
  by_cases h : j < d.n
  · rw [joined_lt h]; exact h3 j h
  · obtain ⟨k, rfl⟩ := Nat.exists_eq_add_of_le (Nat.le_of_not_lt h)
    rw [joined_add]; exact (t S.init).1 k (by omega)

theorem InitSolve.feasible (S : InitSolve d dmax w1 g1 p1 e1 w1' b1 q1) (x U : Nat → K) :
    Feasible q1 (joined d x U) ↔ (∀ i ∈ w1.ctl.spConstr, (w1.cons i).userData.Holds d (Spec.trajFrom d w1 p1 x U) U) ∧
      InitBounds d w1.ctl x ∧ (w1.ctl.spBoundConstr = [] → ∀ j < d.m * d.N, -dmax ≤ U j ∧ U j ≤ dmax) :=
  c44_joint_feasible S.hist (fun _ _ h => h.1) S.allowed S.init S.clean S.honest S.solve S.ps x U

theorem bounds_same (I : SameInitData d w1.ctl w2.ctl) (x : Nat → K) : InitBounds d w1.ctl x ↔ InitBounds d w2.ctl x := by
  unfold InitBounds
  refine forall₂_congr fun j hj => ?_
  rw [I.x0lb j hj, I.x0ub j hj]

/-- The two answers of initial-state controllers whose problems have the same minimiser: the same initial state, controls and
trajectory. -/
theorem same_results_init
    (T : Tighter w1 p1 w2 p2) {x1 x2 : Vec K} (z1 : x1.rows = d.n) (z2 : x2.rows = d.n)
    (c1 : w1'.ctl.control.rows = d.m * d.N) (c2 : w2'.ctl.control.rows = d.m * d.N)
    (t1 : IsStacked d (Spec.trajFrom d w1 p1 x1.e w1'.ctl.control.e) w1'.ctl.trajectory)
    (t2 : IsStacked d (Spec.trajFrom d w2 p2 x2.e w2'.ctl.control.e) w2'.ctl.trajectory)
    (h : ∀ j < d.n + d.m * d.N, joined d x1.e w1'.ctl.control.e j = joined d x2.e w2'.ctl.control.e j) :
    VecEq x1 x2 ∧ VecEq w1'.ctl.control w2'.ctl.control ∧ VecEq w1'.ctl.trajectory w2'.ctl.trajectory := by
  have hx : ∀ j < d.n, x1.e j = x2.e j := fun j hj => by
    have := h j (by omega)
    rwa [joined_lt hj, joined_lt hj] at this
  have hU : ∀ j < d.m * d.N, w1'.ctl.control.e j = w2'.ctl.control.e j := fun j hj => by
    have := h (d.n + j) (by omega)
    rwa [joined_add, joined_add] at this
  refine ⟨⟨z1.trans z2.symm, fun j hj => hx j (by rw [← z1]; exact hj)⟩,
    ⟨c1.trans c2.symm, fun j hj => hU j (by rw [← c1]; exact hj)⟩, stacked_eq t1 t2 fun k hk r hr => ?_⟩
  rw [Tighter.trajFrom T]
  unfold Spec.trajFrom
  exact sim_congr d _ _ _ hx hU k hk r hr

/-- **C72** for an `InitialStateLMPC`: let two initial-state controllers differ only in that the second one has more
constraints, and let both solvers return minimisers.  Then the second answer is not better than the first one in the
objective they share; if both choose the same initial state, the declared costs of the second plan are not below those of
the first one; and if the first answer satisfies the additional constraints, the two controllers return the same initial
state, controls and trajectory. -/
theorem c72_more_constraints_init (S1 : InitSolve d dmax w1 g1 p1 e1 w1' true q1) (S2 : InitSolve d dmax w2 g2 p2 e2 w2' true q2)
    (T : Tighter w1 p1 w2 p2) (I : SameInitData d w1.ctl w2.ctl) (inv : SameInverse d e1 e2) (hR : PD d.n w1.ctl.R)
    (o1 : IsOptimal q1 (e1.answer q1).2.e) (o2 : IsOptimal q2 (e2.answer q2).2.e)
    (r1 : ∀ j < d.m * d.N, -dmax ≤ w1'.ctl.control.e j ∧ w1'.ctl.control.e j ≤ dmax)
    (r2 : ∀ j < d.m * d.N, -dmax ≤ w2'.ctl.control.e j ∧ w2'.ctl.control.e j ≤ dmax) :
    ∃ x1 x2, w1'.ctl.initialState (w1'.pss p1) = some x1 ∧ w2'.ctl.initialState (w2'.pss p2) = some x2 ∧
      objective q1 (joined d x1.e w1'.ctl.control.e) ≤ objective q2 (joined d x2.e w2'.ctl.control.e) ∧
      (VecEq x1 x2 → totalCostFrom d w1 p1 x1.e w1'.ctl.control.e ≤ totalCostFrom d w2 p2 x2.e w2'.ctl.control.e) ∧
      ((∀ i ∈ w2.ctl.spConstr, (w2.cons i).userData.Holds d (Spec.trajFrom d w2 p2 x1.e w1'.ctl.control.e) w1'.ctl.control.e) →
        VecEq x1 x2 ∧ VecEq w1'.ctl.control w2'.ctl.control ∧ VecEq w1'.ctl.trajectory w2'.ctl.trajectory) := by
  obtain ⟨x1, h1, z1, c1, t1, a1⟩ := InitSolve.result S1
  obtain ⟨x2, h2, z2, c2, t2, a2⟩ := InitSolve.result S2
  obtain ⟨W1, n1, k1⟩ := InitSolve.sized S1
  obtain ⟨W2, n2, k2⟩ := InitSolve.sized S2
  replace o1 := optimal_ext W1 (fun j hj => (a1 j hj).symm) o1
  replace o2 := optimal_ext W2 (fun j hj => (a2 j hj).symm) o2
  have same := c72_same_objective_init S1 S2 T I inv
  have g2 : Feasible q1 (joined d x2.e w2'.ctl.control.e) := by
    obtain ⟨A, B, _⟩ := (InitSolve.feasible S2 _ _).1 o2.1
    refine (InitSolve.feasible S1 _ _).2 ⟨fun i hi => ?_, (bounds_same I _).2 B, fun _ => r2⟩
    obtain ⟨j, hj, e⟩ := T.cons i hi
    rw [← e, ← Tighter.trajFrom T]
    exact A j hj
  have le1 := o1.2 _ g2
  refine ⟨x1, x2, h1, h2, by rw [← same]; exact le1, fun hx => ?_, fun hold => ?_⟩
  · obtain ⟨k, O⟩ := c58_objective_per_state S1.hist S1.allowed S1.init S1.fresh S1.solve S1.ps x2.e
    rw [joined_congr (fun j hj => hx.2 j (by rw [z1]; exact hj)), O, O] at le1
    rw [Tighter.totalCostFrom T]
    have e : totalCostFrom d w1 p1 x1.e w1'.ctl.control.e = totalCostFrom d w1 p1 x2.e w1'.ctl.control.e := by
      have X : ∀ k ≤ d.N, ∀ r < d.n, Spec.trajFrom d w1 p1 x1.e w1'.ctl.control.e k r = Spec.trajFrom d w1 p1 x2.e w1'.ctl.control.e k r :=
        sim_congr d _ _ _ (fun j hj => hx.2 j (by rw [z1]; exact hj)) (fun _ _ => rfl)
      unfold Spec.totalCostFrom
      congr 3
      exact List.map_congr_left fun i _ => value_congr_traj X _
    rw [e]; linarith
  · obtain ⟨_, B, _⟩ := (InitSolve.feasible S1 _ _).1 o1.1
    have g1 : Feasible q2 (joined d x1.e w1'.ctl.control.e) :=
      (InitSolve.feasible S2 _ _).2 ⟨hold, (bounds_same I _).1 B, fun _ => r1⟩
    have le2 := o2.2 _ g1
    rw [← same, ← same] at le2
    have le4 := o1.2 _ (feasible_mid o1.1 g2)
    have P := (c45_hessian_partial S1.hist (fun _ _ h => h.2) S1.allowed S1.init S1.inverse S1.solve).2 hR
    rw [n1, ← k1] at P
    have e := pd_unique P le4 (le_trans le2 le4)
    exact same_results_init T z1 z2 c1 c2 t1 t2 fun j hj => e j (by rw [k1]; exact hj)

/-- **C95** for an `InitialStateLMPC`: dropping constraints that are not active does not change the answer. -/
theorem c95_inactive_init (S1 : InitSolve d dmax w1 g1 p1 e1 w1' b1 q1) (S2 : InitSolve d dmax w2 g2 p2 e2 w2' true q2)
    (T : Tighter w1 p1 w2 p2) (I : SameInitData d w1.ctl w2.ctl) (inv : SameInverse d e1 e2) (hR : PSD d.n w1.ctl.R)
    (o2 : IsOptimal q2 (e2.answer q2).2.e) {x : Vec K} (hx : w2'.ctl.initialState (w2'.pss p2) = some x)
    (inactive : ∀ j ∈ w2.ctl.spConstr, (∃ i ∈ w1.ctl.spConstr, (w1.cons i).userData = (w2.cons j).userData) ∨
      (w2.cons j).userData.HoldsWithMargin d (Spec.trajFrom d w2 p2 x.e w2'.ctl.control.e) w2'.ctl.control.e)
    (r2 : w1.ctl.spBoundConstr = [] → ∀ j < d.m * d.N, |w2'.ctl.control.e j| ≤ dmax) :
    IsOptimal q1 (joined d x.e w2'.ctl.control.e) := by
  obtain ⟨x2, h2, z2, c2, t2, a2⟩ := InitSolve.result S2
  rw [hx] at h2
  cases h2
  obtain ⟨W1, n1, k1⟩ := InitSolve.sized S1
  obtain ⟨W2, n2, k2⟩ := InitSolve.sized S2
  replace o2 := optimal_ext W2 (fun j hj => (a2 j hj).symm) o2
  have same := c72_same_objective_init S1 S2 T I inv
  generalize w2'.ctl.control.e = U at *
  generalize hxe : x.e = X0 at *
  have hU := (InitSolve.feasible S2 X0 U).1 o2.1
  have feas : Feasible q1 (joined d X0 U) := by
    refine (InitSolve.feasible S1 _ _).2 ⟨fun i hi => ?_, (bounds_same I _).2 hU.2.1, fun hb j hj => abs_le.1 (r2 hb j hj)⟩
    obtain ⟨j, hj, e⟩ := T.cons i hi
    rw [← e, ← Tighter.trajFrom T]
    exact hU.1 j hj
  have bd : w2.ctl.spBoundConstr = [] → w1.ctl.spBoundConstr = [] := by
    rw [bound_nil S1.hist.good S1.ps, bound_nil S2.hist.good S2.ps]
    intro H D hD
    obtain ⟨i, hi, e⟩ := List.mem_map.1 hD
    obtain ⟨j, hj, e'⟩ := T.cons i hi
    exact H D (List.mem_map.2 ⟨j, hj, e'.trans e⟩)
  refine ⟨feas, fun y hy => ?_⟩
  rw [← joined_self y (d := d)] at hy ⊢
  generalize (fun j => y (d.n + j)) = V at *
  have hV1 := (InitSolve.feasible S1 y V).1 hy
  obtain ⟨M1, m1, hM1⟩ := finite_bound (d.m * d.N) fun j => V j - U j
  obtain ⟨M2, m2, hM2⟩ := finite_bound (d.N + 1) fun k =>
    (finite_bound d.n fun r => Spec.trajFrom d w2 p2 y V k r - Spec.trajFrom d w2 p2 X0 U k r).choose
  have hM2' : ∀ k ≤ d.N, ∀ r < d.n, |Spec.trajFrom d w2 p2 y V k r - Spec.trajFrom d w2 p2 X0 U k r| ≤ M2 := fun k hk r hr =>
    ((finite_bound d.n fun r => Spec.trajFrom d w2 p2 y V k r - Spec.trajFrom d w2 p2 X0 U k r).choose_spec.2 r hr).trans
      ((le_abs_self _).trans (hM2 k (by omega)))
  have Tm : ∀ t : K, Spec.trajFrom d w2 p2 (mix t y X0) (mix t V U) =
      fun k => mix t (Spec.trajFrom d w2 p2 y V k) (Spec.trajFrom d w2 p2 X0 U k) := by
    intro t
    funext k
    exact sim_mix d (w2.pss p2).A (w2.pss p2).B (w2.pss p2).d t y X0 V U k
  have L : ∃ δ, 0 < δ ∧ ∀ t : K, |t| ≤ δ → ∀ j ∈ w2.ctl.spConstr, 0 ≤ t → t ≤ 1 →
      (w2.cons j).userData.Holds d (Spec.trajFrom d w2 p2 (mix t y X0) (mix t V U)) (mix t V U) := by
    apply list_radius
    intro j hj
    rcases inactive j hj with ⟨i, hi, e⟩ | ⟨ε, h0, H⟩
    · refine ⟨1, one_pos, fun t _ t0 t1 => ?_⟩
      rw [Tm]
      refine holds_mix t0 t1 ?_ (hU.1 j hj)
      rw [← e, Tighter.trajFrom T]
      exact hV1.1 i hi
    · have hp : 0 < M1 + M2 + 1 := by linarith
      refine ⟨ε / (M1 + M2 + 1), div_pos h0 hp, fun t ht _ _ => H _ _ (fun k hk r hr => ?_) fun j hj => ?_⟩
      · rw [Tm]
        have e : mix t (Spec.trajFrom d w2 p2 y V k) (Spec.trajFrom d w2 p2 X0 U k) r - Spec.trajFrom d w2 p2 X0 U k r
            = t * (Spec.trajFrom d w2 p2 y V k r - Spec.trajFrom d w2 p2 X0 U k r) := by unfold mix; ring
        rw [e, abs_mul]
        rw [le_div_iff₀ hp] at ht
        have a := mul_le_mul_of_nonneg_left (hM2' k hk r hr) (abs_nonneg t)
        have b := mul_le_mul_of_nonneg_left (by linarith : M2 ≤ M1 + M2 + 1) (abs_nonneg t)
        linarith
      · have e : mix t V U j - U j = t * (V j - U j) := by unfold mix; ring
        rw [e, abs_mul]
        rw [le_div_iff₀ hp] at ht
        have a := mul_le_mul_of_nonneg_left (hM1 j hj) (abs_nonneg t)
        have b := mul_le_mul_of_nonneg_left (by linarith : M1 ≤ M1 + M2 + 1) (abs_nonneg t)
        linarith
  obtain ⟨δ, h0, H⟩ := L
  let t := min δ 1
  have t0 : 0 < t := lt_min h0 one_pos
  have t1 : t ≤ 1 := min_le_right _ _
  have ft : Feasible q2 (joined d (mix t y X0) (mix t V U)) := by
    refine (InitSolve.feasible S2 _ _).2 ⟨fun j hj => H t (by rw [abs_of_pos t0]; exact min_le_left _ _) j hj t0.le t1,
      fun j hj => ?_, fun hb j hj => ?_⟩
    · have a := (bounds_same I _).1 hV1.2.1 j hj
      have b := hU.2.1 j hj
      exact ⟨ge_mix_ext t0.le t1 a.1 b.1, le_mix_ext t0.le t1 a.2 b.2⟩
    · have a := hV1.2.2 (bd hb) j hj
      have b := hU.2.2 hb j hj
      exact ⟨(ge_mix_ext (b := .fin (-dmax)) t0.le t1 a.1 b.1 :), (le_mix_ext (b := .fin dmax) t0.le t1 a.2 b.2 :)⟩
  have le := o2.2 _ ft
  rw [← mix_joined, ← same, ← same] at le
  have P := (c45_hessian_partial S1.hist (fun _ _ h => h.2) S1.allowed S1.init S1.inverse S1.solve).1 hR
  rw [n1, ← k1] at P
  have cv := objective_mix P t0.le t1 (joined d y V) (joined d X0 U)
  have : t * objective q1 (joined d X0 U) ≤ t * objective q1 (joined d y V) := by linarith
  exact le_of_mul_le_mul_left this t0

/-- **C95** for an `InitialStateLMPC`, the results: both controllers return the same initial state, controls and
trajectory. -/
theorem c95_same_results_init (S1 : InitSolve d dmax w1 g1 p1 e1 w1' true q1) (S2 : InitSolve d dmax w2 g2 p2 e2 w2' true q2)
    (T : Tighter w1 p1 w2 p2) (I : SameInitData d w1.ctl w2.ctl) (inv : SameInverse d e1 e2) (hR : PD d.n w1.ctl.R)
    (o1 : IsOptimal q1 (e1.answer q1).2.e) (o2 : IsOptimal q2 (e2.answer q2).2.e)
    {x2 : Vec K} (hx : w2'.ctl.initialState (w2'.pss p2) = some x2)
    (inactive : ∀ j ∈ w2.ctl.spConstr, (∃ i ∈ w1.ctl.spConstr, (w1.cons i).userData = (w2.cons j).userData) ∨
      (w2.cons j).userData.HoldsWithMargin d (Spec.trajFrom d w2 p2 x2.e w2'.ctl.control.e) w2'.ctl.control.e)
    (r2 : w1.ctl.spBoundConstr = [] → ∀ j < d.m * d.N, |w2'.ctl.control.e j| ≤ dmax) :
    ∃ x1, w1'.ctl.initialState (w1'.pss p1) = some x1 ∧ VecEq x1 x2 ∧ VecEq w1'.ctl.control w2'.ctl.control ∧
      VecEq w1'.ctl.trajectory w2'.ctl.trajectory := by
  have O := c95_inactive_init S1 S2 T I inv (psd_of_pd hR) o2 hx inactive r2
  obtain ⟨x1, h1, z1, c1, t1, a1⟩ := InitSolve.result S1
  obtain ⟨x2', h2, z2, c2, t2, _⟩ := InitSolve.result S2
  rw [hx] at h2
  cases h2
  obtain ⟨W1, n1, k1⟩ := InitSolve.sized S1
  replace o1 := optimal_ext W1 (fun j hj => (a1 j hj).symm) o1
  have P := (c45_hessian_partial S1.hist (fun _ _ h => h.2) S1.allowed S1.init S1.inverse S1.solve).2 hR
  rw [n1, ← k1] at P
  have m := feasible_mid o1.1 O.1
  have e := pd_unique P (o1.2 _ m) (O.2 _ m)
  exact ⟨x1, h1, same_results_init T z1 z2 c1 c2 t1 t2 fun j hj => e j (by rw [k1]; exact hj)⟩

end World
end
end Copra
