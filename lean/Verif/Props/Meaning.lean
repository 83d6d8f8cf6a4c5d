import Verif.Props.Solvable

/-! # C74: only the meaning of the declarations matters -/

namespace Copra

namespace Spec
variable {K : Type} [Field K] [LinearOrder K]

/-- Two controllers that mean the same: their systems have the same simulations, the same (representable) control
sequences satisfy all their constraints, and their costs differ by a constant. -/
structure SameMeaning (d : Dims) (dmax : K) (w1 : World K) (p1 : Nat) (w2 : World K) (p2 : Nat) : Prop where
  traj : ∀ U : Nat → K, ∀ k ≤ d.N, ∀ r < d.n, traj d w1 p1 U k r = traj d w2 p2 U k r
  cons : ∀ U : Nat → K, (∀ j < d.m * d.N, -dmax ≤ U j ∧ U j ≤ dmax) →
    ((∀ i ∈ w1.ctl.spConstr, (w1.cons i).userData.Holds d (Spec.traj d w1 p1 U) U) ↔
      ∀ i ∈ w2.ctl.spConstr, (w2.cons i).userData.Holds d (Spec.traj d w2 p2 U) U)
  cost : ∃ κ : K, ∀ U, declaredCost d w2 p2 U = declaredCost d w1 p1 U + κ

end Spec
open Spec

set_option linter.unusedSectionVars false
set_option maxRecDepth 100000

section
variable {K : Type} [Field K] [LinearOrder K] [IsStrictOrderedRing K]

namespace World

/-- **C74**: two controllers whose declarations mean the same, whatever constructors, matrices, numbers of objects, orders
of calls and solvers were used to declare it, return the same `control()` and `trajectory()` when their back ends report
success with minimisers (`u1`, `u2`: OSQP's bound handling, C42). -/
theorem c74_same_meaning {d : Dims} {dmax : K} {E1 E2 : World K → Op K → Prop} {w1 w2 w1' w2' : World K} {g1 g2 : Ghost}
    {env1 env2 : SolveEnv K} {q1 q2 : QP K} {p1 p2 : Nat} {k1 k2 : SolverKind} {junk1 junk2 : Junk K}
    (h1 : Hist d dmax E1 w1 g1) (h2 : Hist d dmax E2 w2 g2)
    (hE1 : ∀ w op, E1 w op → NoBoundSpan w op ∧ NonnegWeights w op) (hE2 : ∀ w op, E2 w op → NoBoundSpan w op)
    (o1 : OpOk d w1 g1 (.solve env1)) (o2 : OpOk d w2 g2 (.solve env2))
    (hp1 : w1.ctl.ps = some p1) (hp2 : w2.ctl.ps = some p2)
    (i1 : w1.ctl.isInit = false) (i2 : w2.ctl.isInit = false) (M : SameMeaning d dmax w1 p1 w2 p2)
    (f1 : CostsFresh d w1 g1) (f2 : CostsFresh d w2 g2)
    (c1 : w1.ctl.spBoundConstr = [] → g1.clean) (c2 : w2.ctl.spBoundConstr = [] → g2.clean)
    (hh1 : ∀ i ∈ w1.ctl.spConstr, (w1.cons i).userData.Honest) (hh2 : ∀ i ∈ w2.ctl.spConstr, (w2.cons i).userData.Honest)
    (s1 : w1.solve env1 = some (w1', true, q1)) (s2 : w2.solve env2 = some (w2', true, q2))
    (n1 : q1.nrEq + q1.nrIneq + 2 * q1.nrVar ≤ intMax) (n2 : q2.nrEq + q2.nrIneq + 2 * q2.nrVar ≤ intMax)
    (b1 : BackEndOptimal dmax junk1 k1 q1 (env1.answer q1).2.e) (b2 : BackEndOptimal dmax junk2 k2 q2 (env2.answer q2).2.e)
    (r1 : ∀ j < d.m * d.N, -dmax ≤ w1'.ctl.control.e j ∧ w1'.ctl.control.e j ≤ dmax)
    (r2 : ∀ j < d.m * d.N, -dmax ≤ w2'.ctl.control.e j ∧ w2'.ctl.control.e j ≤ dmax)
    (u1 : k1 = .osqp → ∀ i < q1.Aineq.rows, -dmax ≤ rowValue q1.Aineq w2'.ctl.control.e i)
    (u2 : k2 = .osqp → ∀ i < q2.Aineq.rows, -dmax ≤ rowValue q2.Aineq w1'.ctl.control.e i) :
    VecEq w1'.ctl.control w2'.ctl.control ∧ VecEq w1'.ctl.trajectory w2'.ctl.trajectory := by
  have hw := fun {w w' : World K} {g : Ghost} {env : SolveEnv K} {q : QP K} {E : World K → Op K → Prop}
      (h : Hist d dmax E w g) (o : OpOk d w g (.solve env)) (s : w.solve env = some (w', true, q)) =>
    (show WellSized q ∧ q.nrVar = numVars d w.ctl by
      obtain ⟨_, _, _, e, _, a, b⟩ := c50_solve_defined h o
      rw [s] at e; cases e; exact ⟨a, b⟩)
  have F1 := c30_feasible_set h1 (fun w op h => (hE1 w op h).1) o1 i1 c1 hh1 s1 hp1
  have F2 := c30_feasible_set h2 hE2 o2 i2 c2 hh2 s2 hp2
  obtain ⟨κ1, O1⟩ := c32_objective h1 o1 i1 f1 s1 hp1
  obtain ⟨κ2, O2⟩ := c32_objective h2 o2 i2 f2 s2 hp2
  obtain ⟨κ, C⟩ := M.cost
  have tc : ∀ U, totalCost d w2 p2 U = totalCost d w1 p1 U + 1 / 2 * κ := by
    intro U
    have := C U
    unfold declaredCost at this
    unfold totalCost
    rw [this]; ring
  obtain ⟨x1, m1⟩ := BackEndOptimal.spec (hw h1 o1 s1).1 n1 b1
  obtain ⟨x2, m2⟩ := BackEndOptimal.spec (hw h2 o2 s2).1 n2 b2
  have ca1 := c40_control_is_answer i1 s1
  have ca2 := c40_control_is_answer i2 s2
  have a1 : k1 = .osqp → ∀ i < q1.Aineq.rows, -dmax ≤ rowValue q1.Aineq w1'.ctl.control.e i := by
    intro hk; subst hk
    rw [ca1]
    exact BackEndOptimal.rows (hw h1 o1 s1).1 n1 b1
  rw [← ca1] at x1 m1
  rw [← ca2] at x2 m2
  obtain ⟨z1, T1, _⟩ := c40_success h1 o1 s1 hp1
  obtain ⟨z2, T2, _⟩ := c40_success h2 o2 s2 hp2
  replace T1 := (T1 i1).2
  replace T2 := (T2 i2).2
  have nv : q1.nrVar = d.m * d.N := by rw [(hw h1 o1 s1).2]; unfold numVars; rw [i1]; rfl
  have g2 : Feasible q1 w2'.ctl.control.e := (F1 _).2 ⟨(M.cons _ r2).2 ((F2 _).1 x2).1, fun _ => r2⟩
  have g1 : Feasible q2 w1'.ctl.control.e := (F2 _).2 ⟨(M.cons _ r1).1 ((F1 _).1 x1).1, fun _ => r1⟩
  have le2 := m2 _ g1 u2
  rw [O2, O2, tc, tc] at le2
  have le3 : objective q1 w2'.ctl.control.e ≤ objective q1 w1'.ctl.control.e := by rw [O1, O1]; linarith
  have le4 := m1 _ (feasible_mid x1 g2) (by
    intro hk i hi
    have a := a1 hk i hi
    have b := u1 hk i hi
    rw [rowValue_mid]; linarith)
  have hc := (hw h1 o1 s1).1.2.2.1
  have PD1 := c29_hessian h1 (fun w op h => (hE1 w op h).2) o1 i1 s1
  rw [← hc] at PD1
  have e := pd_unique PD1 le4 (le_trans le3 le4)
  have e' : ∀ j < d.m * d.N, w1'.ctl.control.e j = w2'.ctl.control.e j := fun j hj => e j (by rw [hc, nv]; exact hj)
  refine ⟨⟨z1.trans z2.symm, fun j hj => e' j (by rw [← z1]; exact hj)⟩, stacked_eq T1 T2 fun k hk r hr => ?_⟩
  rw [← M.traj _ k hk r hr]
  unfold Spec.traj
  exact sim_congr d _ _ _ (fun _ _ => rfl) e' k hk r hr

end World

/-! ## Two ways to declare the same -/

/-- A `ControlBoundConstraint` with finite entries means the same as an inequality `ControlConstraint` with rows `I` and
`-I`. -/
theorem bound_as_control {d : Dims} {X : Nat → Nat → K} {U : Nat → K} (l u : Nat → K) :
    (ConstrData.ctrlBound ⟨d.m, fun i => .fin (l i)⟩ ⟨d.m, fun i => .fin (u i)⟩).Holds d X U ↔
    (ConstrData.control true
      ⟨2 * d.m, d.m, fun i j => if i < d.m then (if i = j then 1 else 0) else if i - d.m = j then -1 else 0⟩
      ⟨2 * d.m, fun i => if i < d.m then .fin (u i) else .fin (-l (i - d.m))⟩).Holds d X U := by
  have s : ∀ (y : Nat → K) (a : K) (i : Nat), i < d.m → ∑ c ∈ Finset.range d.m, (if i = c then a else 0) * y c = a * y i := by
    intro y a i hi
    rw [Finset.sum_eq_single i]
    · rw [if_pos rfl]
    · intro c _ hne; rw [if_neg (Ne.symm hne), zero_mul]
    · intro hn; exact absurd (Finset.mem_range.2 hi) hn
  simp only [ConstrData.Holds, if_true, CtrlBoundStep, ControlStep, Rel]
  refine forall₂_congr fun k _ => ⟨fun h r hr => ?_, fun h c hc => ?_⟩
  · by_cases hlt : r < d.m
    · simp only [if_pos hlt]
      rw [s _ _ _ hlt, one_mul]
      exact (h r hlt).2
    · simp only [if_neg hlt]
      rw [s _ _ _ (by omega)]
      have := (h (r - d.m) (by omega)).1
      show -1 * _ ≤ -l _
      have : l (r - d.m) ≤ ctrl d U k (r - d.m) := this
      linarith
  · have h1 := h c (by omega)
    have h2 := h (d.m + c) (by omega)
    simp only [if_pos hc] at h1
    rw [s _ _ _ hc, one_mul] at h1
    simp only [if_neg (by omega : ¬ d.m + c < d.m), Nat.add_sub_cancel_left] at h2
    rw [s _ _ _ hc] at h2
    refine ⟨?_, h1⟩
    have : -1 * ctrl d U k c ≤ -l c := h2
    show l c ≤ ctrl d U k c
    linarith

/-- A `TargetCost` means the same as a full-size `TrajectoryCost` whose matrix has zero columns except for the last step. -/
theorem target_as_trajectory {d : Dims} {X : Nat → Nat → K} {U : Nat → K} (M : Mat K) (p v : Vec K) (hn : 0 < d.n) (hN : 0 < d.N) :
    (CostData.target M p v).value d X U =
    (CostData.trajectory ⟨M.rows, d.n * (d.N + 1), fun i j => if d.N * d.n ≤ j then M.e i (j - d.N * d.n) else 0⟩ p v).value d X U := by
  have hne : ¬ d.n * (d.N + 1) = d.n := by
    intro h
    have : d.n * (d.N + 1) = d.n + d.n * d.N := by ring
    have : 0 < d.n * d.N := Nat.mul_pos hn hN
    omega
  simp only [CostData.value, if_neg hne]
  congr 1
  funext r
  rw [Finset.sum_range_succ, Finset.sum_eq_zero (s := Finset.range d.N), zero_add]
  · refine Finset.sum_congr rfl fun c _ => ?_
    rw [if_pos (by omega), Nat.add_sub_cancel_left]
  · intro k hk
    apply Finset.sum_eq_zero
    intro c hc
    have h1 : k + 1 ≤ d.N := Finset.mem_range.1 hk
    have h2 := Nat.mul_le_mul_right d.n h1
    have h3 := Finset.mem_range.1 hc
    rw [if_neg (by rw [Nat.add_mul] at h2; omega), zero_mul]

end

/-! ## An example: the bounds of `m7` declared as a `ControlConstraint` -/

namespace Ex
open World

def consCB (i : Nat) : Constr ℚ := if i = 2 then Constr.mkControl (mat 2 1 [[1], [-1]]) (evec [.fin 1, .fin 1]) true else theCons i

def cb0 : World ℚ := { w0 with cons := consCB }

theorem cb0_init : World.Init cb0 := by
  obtain ⟨a, b, c, e⟩ := w0_init
  refine ⟨a, fun i => ?_, c, e⟩
  show World.FreshConstr (consCB i)
  unfold consCB
  split
  · exact .inr (.inl ⟨_, _, _, rfl⟩)
  · exact b i

def cb1 := after 1000 cb0 opSys
def cb2 := after 1000 cb1 opCtl
def cb3 := after 1000 cb2 (.addConstraint 2 jk)
def cb4 := after 1000 cb3 (.addConstraint 0 jk)
def cb5 := after 1000 cb4 (.addCost 1 jk)
def cb6 := after 1000 cb5 (.addCost 0 jk)

theorem hcb6 : ∃ g : Ghost, Hist d 1000 Careful cb6 g ∧ g.fresh 0 ∧ g.clean := by
  have a1 := hist_after (d := d) (dmax := 1000) (E := Careful) (op := opSys) (.start cb0_init) ⟨rfl, rfl, rfl⟩
    ⟨trivial, trivial, trivial⟩ (by decide +kernel)
  have a2 := hist_after (op := opCtl) a1 (show HasSystem cb1 0 by unfold HasSystem; decide +kernel)
    ⟨trivial, trivial, trivial⟩ (by decide +kernel : okB 1000 cb1 _ = true)
  have b3 := hist_after (op := .addConstraint 2 jk) a2 (fun _ => (by decide +kernel : cb2.ctl.spBoundConstr = [])) ⟨trivial, trivial, trivial⟩
    (by decide +kernel : okB 1000 cb2 _ = true)
  have b4 := hist_after (op := .addConstraint 0 jk) b3 (fun _ => (by decide +kernel : cb3.ctl.spBoundConstr = []))
    ⟨trivial, trivial, trivial⟩ (by decide +kernel : okB 1000 cb3 _ = true)
  have b5 := hist_after (op := .addCost 1 jk) b4 trivial ⟨trivial, trivial, trivial⟩ (by decide +kernel : okB 1000 cb4 _ = true)
  have b6 := hist_after (op := .addCost 0 jk) b5 trivial ⟨trivial, trivial, trivial⟩ (by decide +kernel : okB 1000 cb5 _ = true)
  exact ⟨_, b6, Or.inr ⟨trivial, rfl⟩, trivial⟩

theorem meaningCB : SameMeaning d 1000 m7 0 cb6 0 := by
  have l1 : m7.ctl.spConstr = [0, 2] := by decide +kernel
  have l2 : cb6.ctl.spConstr = [2, 0] := by decide +kernel
  have l3 : m7.ctl.spCost = [0, 1] := by decide +kernel
  have l4 : cb6.ctl.spCost = [1, 0] := by decide +kernel
  have t : ∀ U, Spec.traj d cb6 0 U = Spec.traj d m7 0 U := fun _ => rfl
  have u0 : (m7.cons 0).userData = (theCons 0).userData := rfl
  have v0 : (cb6.cons 0).userData = (theCons 0).userData := rfl
  have u2 : (m7.cons 2).userData = (theCons 2).userData := rfl
  have v2 : (cb6.cons 2).userData = (consCB 2).userData := rfl
  refine ⟨fun _ _ _ _ _ => rfl, fun U _ => ?_, 0, fun U => ?_⟩
  · rw [l1, l2, t]
    simp only [List.mem_cons, List.not_mem_nil, or_false, forall_eq_or_imp, forall_eq, u0, v0, u2, v2]
    rw [and_comm]
    refine and_congr_left fun _ => ?_
    show CtrlBoundStep d U _ _ ↔ ControlStep d U true (mat 2 1 [[1], [-1]]) (evec [.fin 1, .fin 1])
    refine forall₂_congr fun k _ => ⟨fun h r hr => ?_, fun h c hc => ?_⟩
    · obtain ⟨a, b⟩ := h 0 (by decide)
      have a : (-1 : ℚ) ≤ ctrl d U k 0 := a
      have b : ctrl d U k 0 ≤ (1 : ℚ) := b
      show Ext.fin _ ≤ _
      have hr : r < 2 := hr
      have e : (Finset.range d.m) = {0} := rfl
      rw [e, Finset.sum_singleton]
      interval_cases r
      · show (1 : ℚ) * _ ≤ 1; linarith
      · show (-1 : ℚ) * _ ≤ 1; linarith
    · have hc : c < 1 := hc
      interval_cases c
      have a := h 0 (by decide)
      have b := h 1 (by decide)
      have e : (Finset.range d.m) = {0} := rfl
      rw [e, Finset.sum_singleton] at a b
      have a : (1 : ℚ) * ctrl d U k 0 ≤ 1 := a
      have b : (-1 : ℚ) * ctrl d U k 0 ≤ 1 := b
      refine ⟨?_, ?_⟩
      · show (-1 : ℚ) ≤ ctrl d U k 0; linarith
      · show ctrl d U k 0 ≤ (1 : ℚ); linarith
  · have k0 : (m7.costs 0).userData = (cb6.costs 0).userData := rfl
    have k1 : (m7.costs 1).userData = (cb6.costs 1).userData := rfl
    unfold declaredCost
    rw [l3, l4, t]
    simp only [List.map_cons, List.map_nil, List.sum_cons, List.sum_nil, k0, k1]
    ring

def rCB : World ℚ × Bool × QP ℚ := (cb6.solve (env yA true)).getD (cb6, false, q13)

theorem sCB : cb6.solve (env yA true) = some (rCB.1, true, rCB.2.2) := by
  have e : (cb6.solve (env yA true)).isSome = true := by decide +kernel
  obtain ⟨r, hr⟩ := Option.isSome_iff_exists.1 e
  have h1 : rCB = r := by unfold rCB; rw [hr]; rfl
  have h2 : rCB.2.1 = true := by decide +kernel
  rw [hr, ← h2, h1]

/-- C74 applies, with any two back ends. -/
example (k1 k2 : SolverKind) (junk1 junk2 : Junk ℚ) :
    VecEq rA.1.ctl.control rCB.1.ctl.control ∧ VecEq rA.1.ctl.trajectory rCB.1.ctl.trajectory := by
  obtain ⟨g1, h1, f1, c1⟩ := hm7
  obtain ⟨g2, h2, f2, c2⟩ := hcb6
  have o1 : OpOk d m7 g1 (.solve (env yA true)) :=
    ⟨(by decide +kernel : m7.ctl.ps ≠ none), contract rfl
      (fun h => absurd (congrArg Option.isSome h) (by decide +kernel : m7.ctl.sol.isSome ≠ false)) (by decide +kernel)⟩
  have o2 : OpOk d cb6 g2 (.solve (env yA true)) :=
    ⟨(by decide +kernel : cb6.ctl.ps ≠ none), contract rfl
      (fun h => absurd (congrArg Option.isSome h) (by decide +kernel : cb6.ctl.sol.isSome ≠ false)) (by decide +kernel)⟩
  have PA := psd_of_pd (c29_hessian h1 (fun _ _ h => h.2.1) o1 (by decide +kernel) sA)
  have PB := psd_of_pd (c29_hessian h2 (fun _ _ h => h.2.1) o2 (by decide +kernel) sCB)
  rw [(by decide +kernel : rA.2.2.nrVar = rA.2.2.c.rows)] at PA
  rw [(by decide +kernel : rCB.2.2.nrVar = rCB.2.2.c.rows)] at PB
  have hh1 : ∀ i ∈ m7.ctl.spConstr, (m7.cons i).userData.Honest := by
    intro i hi
    rw [(by decide +kernel : m7.ctl.spConstr = [0, 2])] at hi
    simp only [List.mem_cons, List.not_mem_nil, or_false] at hi
    rcases hi with rfl | rfl <;> exact trivial
  have hh2 : ∀ i ∈ cb6.ctl.spConstr, (cb6.cons i).userData.Honest := by
    intro i hi
    rw [(by decide +kernel : cb6.ctl.spConstr = [2, 0])] at hi
    simp only [List.mem_cons, List.not_mem_nil, or_false] at hi
    rcases hi with rfl | rfl <;> exact trivial
  have fr1 : CostsFresh d m7 g1 := by
    intro i hi hps
    rw [(by decide +kernel : m7.ctl.spCost = [0, 1])] at hi ⊢
    simp only [List.mem_cons, List.not_mem_nil, or_false] at hi
    rcases hi with rfl | rfl
    · exact ⟨f1, rfl⟩
    · exact hps.elim
  have fr2 : CostsFresh d cb6 g2 := by
    intro i hi hps
    rw [(by decide +kernel : cb6.ctl.spCost = [1, 0])] at hi ⊢
    simp only [List.mem_cons, List.not_mem_nil, or_false] at hi
    rcases hi with rfl | rfl
    · exact hps.elim
    · exact ⟨f2, rfl⟩
  exact c74_same_meaning h1 h2 (fun _ _ h => ⟨h.1, h.2.1⟩) (fun _ _ h => h.1) o1 o2 (by decide +kernel) (by decide +kernel)
    (by decide +kernel) (by decide +kernel) meaningCB fr1 fr2 (fun _ => c1) (fun _ => c2) hh1 hh2 sA sCB
    (by decide +kernel) (by decide +kernel)
    (backEndOptimal_of (k := k1) (junk := junk1) (by decide +kernel) (by decide +kernel) (by decide +kernel)
      (optimal_of_stationary PA (by decide +kernel) (by decide +kernel)))
    (backEndOptimal_of (k := k2) (junk := junk2) (by decide +kernel) (by decide +kernel) (by decide +kernel)
      (optimal_of_stationary PB (by decide +kernel) (by decide +kernel)))
    (by decide +kernel) (by decide +kernel) (fun _ => by decide +kernel) (fun _ => by decide +kernel)

end Ex
end Copra
