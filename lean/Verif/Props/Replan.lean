import Verif.Props.Answer

/-! # C70: replanning on a shrinking horizon reproduces the plan (principle of optimality) -/

namespace Copra

namespace Spec
variable {K : Type}

/-- The controls after the first step. -/
def tail (d : Dims) (U : Nat → K) (j : Nat) : K := U (d.m + j)

/-- First control `U`, then `V`. -/
def followedBy (d : Dims) (U V : Nat → K) (j : Nat) : K := if j < d.m then U j else V (j - d.m)

/-- The second controller plans for the rest of the first one's horizon: same system, same constraints and costs (in any
order), one step less. -/
structure Remaining (d d' : Dims) (w1 : World K) (p1 : Nat) (w2 : World K) (p2 : Nat) : Prop where
  n : d'.n = d.n
  m : d'.m = d.m
  N : d.N = d'.N + 1
  A : (w1.pss p1).A = (w2.pss p2).A
  B : (w1.pss p1).B = (w2.pss p2).B
  bias : (w1.pss p1).d = (w2.pss p2).d
  cons : (w1.ctl.spConstr.map fun i => (w1.cons i).userData).Perm (w2.ctl.spConstr.map fun i => (w2.cons i).userData)
  costs : (w1.ctl.spCost.map fun i => (w1.costs i).userData).Perm (w2.ctl.spCost.map fun i => (w2.costs i).userData)
  consStep : ∀ i ∈ w1.ctl.spConstr, (w1.cons i).userData.PerStep d
  costsStep : ∀ i ∈ w1.ctl.spCost, (w1.costs i).userData.PerStep d

end Spec
open Spec

set_option linter.unusedSectionVars false
set_option maxRecDepth 100000

section
variable {K : Type} [Field K] [LinearOrder K] [IsStrictOrderedRing K]

theorem tail_followedBy (d : Dims) (U V : Nat → K) : tail d (followedBy d U V) = V := by
  funext j
  unfold tail followedBy
  rw [if_neg (by omega), Nat.add_sub_cancel_left]

theorem ctrl_tail {d d' : Dims} (hm : d'.m = d.m) (U : Nat → K) (k c : Nat) :
    ctrl d' (tail d U) k c = ctrl d U (k + 1) c := by
  unfold ctrl tail
  rw [hm]
  congr 1
  ring

theorem ctrl_first {d : Dims} (U V : Nat → K) {c : Nat} (hc : c < d.m) : ctrl d (followedBy d U V) 0 c = ctrl d U 0 c := by
  unfold ctrl followedBy
  rw [if_pos (by omega)]

theorem sim_tail {d d' : Dims} (hn : d'.n = d.n) (hm : d'.m = d.m) (A B : Mat K) (b : Vec K) (x x1 U : Nat → K)
    (hx : ∀ r < d.n, x1 r = sim d A B b x U 1 r) (k : Nat) :
    ∀ r < d.n, sim d' A B b x1 (tail d U) k r = sim d A B b x U (k + 1) r := by
  induction k with
  | zero => exact hx
  | succ k ih =>
    intro r hr
    rw [sim, sim, hn, hm]
    congr 2
    · exact Finset.sum_congr rfl fun c hc => by rw [ih c (Finset.mem_range.1 hc)]
    · exact Finset.sum_congr rfl fun c _ => by rw [ctrl_tail hm]

theorem forall_le_succ {N : Nat} {P : Nat → Prop} : (∀ k ≤ N + 1, P k) ↔ P 0 ∧ ∀ k ≤ N, P (k + 1) :=
  ⟨fun h => ⟨h 0 (by omega), fun k hk => h _ (by omega)⟩, fun h k hk => by
    cases k with
    | zero => exact h.1
    | succ k => exact h.2 k (by omega)⟩

theorem forall_lt_succ' {N : Nat} {P : Nat → Prop} : (∀ k < N + 1, P k) ↔ P 0 ∧ ∀ k < N, P (k + 1) :=
  ⟨fun h => ⟨h 0 (by omega), fun k hk => h _ (by omega)⟩, fun h k hk => by
    cases k with
    | zero => exact h.1
    | succ k => exact h.2 k (by omega)⟩

/-- A step-wise constraint holds on a horizon iff it holds at the first step and on the rest. -/
theorem holds_split (d d' : Dims) (hn : d'.n = d.n) (hm : d'.m = d.m) (hN : d.N = d'.N + 1) {D : ConstrData K}
    (hD : D.PerStep d) : ∃ F : (Nat → K) → (Nat → K) → Prop,
    (∀ {x x' u u' : Nat → K}, (∀ r < d.n, x r = x' r) → (∀ c < d.m, u c = u' c) → (F x u ↔ F x' u')) ∧
    ∀ (X X' : Nat → Nat → K) (U : Nat → K), (∀ k ≤ d'.N, ∀ r < d.n, X' k r = X (k + 1) r) →
      ((D.Holds d X U) ↔ F (X 0) (ctrl d U 0) ∧ D.Holds d' X' (tail d U)) := by
  have S : ∀ (e : Nat → K) (x x' : Nat → K) (n : Nat), (∀ r < n, x r = x' r) →
      ∑ c ∈ Finset.range n, e c * x c = ∑ c ∈ Finset.range n, e c * x' c := fun e x x' n h =>
    Finset.sum_congr rfl fun c hc => by rw [h c (Finset.mem_range.1 hc)]
  cases D with
  | trajectory q E f =>
    have h1 : E.cols = d.n := hD
    refine ⟨fun x _ => ∀ r < E.rows, Rel q (∑ c ∈ Finset.range d.n, E.e r c * x c) (f.e r), ?_, ?_⟩
    · intro x x' u u' hx _; simp only [S _ _ _ _ hx]
    · intro X X' U hX
      simp only [ConstrData.Holds, if_pos h1, if_pos (h1.trans hn.symm), TrajectoryStep, hN]
      rw [forall_le_succ]
      refine and_congr Iff.rfl (forall₂_congr fun k hk => forall₂_congr fun r hr => ?_)
      rw [hn, S _ _ _ _ (hX k hk)]
  | control q G f =>
    have h1 : G.cols = d.m := hD
    refine ⟨fun _ u => ∀ r < G.rows, Rel q (∑ c ∈ Finset.range d.m, G.e r c * u c) (f.e r), ?_, ?_⟩
    · intro x x' u u' _ hu; simp only [S _ _ _ _ hu]
    · intro X X' U hX
      simp only [ConstrData.Holds, if_pos h1, if_pos (h1.trans hm.symm), ControlStep, hN]
      rw [forall_lt_succ']
      refine and_congr Iff.rfl (forall₂_congr fun k hk => forall₂_congr fun r hr => ?_)
      simp only [ctrl_tail hm, hm]
  | mixed q E G f =>
    have h1 : E.cols = d.n ∧ G.cols = d.m := hD
    refine ⟨fun x u => ∀ r < E.rows, Rel q ((∑ c ∈ Finset.range d.n, E.e r c * x c) + ∑ c ∈ Finset.range d.m, G.e r c * u c) (f.e r), ?_, ?_⟩
    · intro x x' u u' hx hu; simp only [S _ _ _ _ hx, S _ _ _ _ hu]
    · intro X X' U hX
      have h2 : E.cols = d'.n ∧ G.cols = d'.m := ⟨h1.1.trans hn.symm, h1.2.trans hm.symm⟩
      simp only [ConstrData.Holds, if_pos h1, if_pos h2, MixedStep, hN]
      rw [forall_lt_succ']
      refine and_congr Iff.rfl (forall₂_congr fun k hk => forall₂_congr fun r hr => ?_)
      simp only [ctrl_tail hm, hm, hn, S _ _ _ _ (hX k hk.le)]
  | trajBound l u =>
    have h1 : l.rows = d.n := hD
    refine ⟨fun x _ => ∀ r < d.n, l.e r ≤ Ext.fin (x r) ∧ Ext.fin (x r) ≤ u.e r, ?_, ?_⟩
    · intro x x' u u' hx _; exact forall₂_congr fun r hr => by rw [hx r hr]
    · intro X X' U hX
      simp only [ConstrData.Holds, if_pos h1, if_pos (h1.trans hn.symm), TrajBoundStep, hN]
      rw [forall_le_succ, hn]
      exact and_congr Iff.rfl (forall₂_congr fun k hk => forall₂_congr fun r hr => by rw [hX k hk r hr])
  | ctrlBound l u =>
    have h1 : l.rows = d.m := hD
    refine ⟨fun _ v => ∀ c < d.m, l.e c ≤ Ext.fin (v c) ∧ Ext.fin (v c) ≤ u.e c, ?_, ?_⟩
    · intro x x' u u' _ hu; exact forall₂_congr fun r hr => by rw [hu r hr]
    · intro X X' U hX
      simp only [ConstrData.Holds, if_pos h1, if_pos (h1.trans hm.symm), CtrlBoundStep, hN]
      rw [forall_lt_succ', hm]
      simp only [ctrl_tail hm]

/-- The value of a step-wise cost is that of the first step plus that of the rest. -/
theorem value_split (d d' : Dims) (hn : d'.n = d.n) (hm : d'.m = d.m) (hN : d.N = d'.N + 1) {D : CostData K}
    (hD : D.PerStep d) : ∃ F : (Nat → K) → (Nat → K) → K,
    (∀ {x x' u u' : Nat → K}, (∀ r < d.n, x r = x' r) → (∀ c < d.m, u c = u' c) → (F x u = F x' u')) ∧
    ∀ (X X' : Nat → Nat → K) (U : Nat → K), (∀ k ≤ d'.N, ∀ r < d.n, X' k r = X (k + 1) r) →
      D.value d X U = F (X 0) (ctrl d U 0) + D.value d' X' (tail d U) := by
  have S : ∀ (e : Nat → K) (x x' : Nat → K) (n : Nat), (∀ r < n, x r = x' r) →
      ∑ c ∈ Finset.range n, e c * x c = ∑ c ∈ Finset.range n, e c * x' c := fun e x x' n h =>
    Finset.sum_congr rfl fun c hc => by rw [h c (Finset.mem_range.1 hc)]
  cases D with
  | trajectory M p w =>
    have h1 : M.cols = d.n := hD
    refine ⟨fun x _ => wsq M.rows w p fun r => ∑ c ∈ Finset.range d.n, M.e r c * x c, ?_, ?_⟩
    · intro x x' u u' hx _; simp only [S _ _ _ _ hx]
    · intro X X' U hX
      simp only [CostData.value, if_pos h1, if_pos (h1.trans hn.symm), hN]
      rw [Finset.sum_range_succ', add_comm]
      congr 1
      refine Finset.sum_congr rfl fun k hk => ?_
      simp only [hn, S _ _ _ _ (hX k (Nat.lt_succ_iff.1 (Finset.mem_range.1 hk)))]
  | target M p w =>
    refine ⟨fun _ _ => 0, fun _ _ => rfl, ?_⟩
    intro X X' U hX
    simp only [CostData.value, hN, hn, zero_add, S _ _ _ _ (hX _ (le_refl _))]
  | control N p w =>
    have h1 : N.cols = d.m := hD
    refine ⟨fun _ u => wsq N.rows w p fun r => ∑ c ∈ Finset.range d.m, N.e r c * u c, ?_, ?_⟩
    · intro x x' u u' _ hu; simp only [S _ _ _ _ hu]
    · intro X X' U hX
      simp only [CostData.value, if_pos h1, if_pos (h1.trans hm.symm), hN]
      rw [Finset.sum_range_succ', add_comm]
      simp only [ctrl_tail hm, hm]
  | mixed M N p w =>
    have h1 : M.cols = d.n ∧ N.cols = d.m := hD
    refine ⟨fun x u => wsq M.rows w p fun r => (∑ c ∈ Finset.range d.n, M.e r c * x c) + ∑ c ∈ Finset.range d.m, N.e r c * u c, ?_, ?_⟩
    · intro x x' u u' hx hu; simp only [S _ _ _ _ hx, S _ _ _ _ hu]
    · intro X X' U hX
      have h2 : M.cols = d'.n ∧ N.cols = d'.m := ⟨h1.1.trans hn.symm, h1.2.trans hm.symm⟩
      simp only [CostData.value, if_pos h1, if_pos h2, hN]
      rw [Finset.sum_range_succ', add_comm]
      congr 1
      refine Finset.sum_congr rfl fun k hk => ?_
      simp only [ctrl_tail hm, hm, hn, S _ _ _ _ (hX k (Finset.mem_range.1 hk).le)]

theorem values_split (d d' : Dims) (hn : d'.n = d.n) (hm : d'.m = d.m) (hN : d.N = d'.N + 1) (L : List (CostData K))
    (hL : ∀ D ∈ L, D.PerStep d) : ∃ F : (Nat → K) → (Nat → K) → K,
    (∀ {x x' u u' : Nat → K}, (∀ r < d.n, x r = x' r) → (∀ c < d.m, u c = u' c) → (F x u = F x' u')) ∧
    ∀ (X X' : Nat → Nat → K) (U : Nat → K), (∀ k ≤ d'.N, ∀ r < d.n, X' k r = X (k + 1) r) →
      (L.map fun D => D.value d X U).sum = F (X 0) (ctrl d U 0) + (L.map fun D => D.value d' X' (tail d U)).sum := by
  induction L with
  | nil => exact ⟨fun _ _ => 0, fun _ _ => rfl, fun _ _ _ _ => by simp⟩
  | cons D L ih =>
    obtain ⟨F, c1, h1⟩ := ih fun D hD => hL D (List.mem_cons_of_mem _ hD)
    obtain ⟨G, c2, h2⟩ := value_split d d' hn hm hN (hL D List.mem_cons_self)
    refine ⟨fun x u => G x u + F x u, fun hx hu => by simp only [c1 hx hu, c2 hx hu], fun X X' U hX => ?_⟩
    simp only [List.map_cons, List.sum_cons]
    rw [h1 X X' U hX, h2 X X' U hX]
    ring

theorem regularisation_split (d d' : Dims) (hm : d'.m = d.m) (hN : d.N = d'.N + 1) (U : Nat → K) :
    ∑ j ∈ Finset.range (d.m * d.N), U j ^ 2 =
      ∑ j ∈ Finset.range d.m, ctrl d U 0 j ^ 2 + ∑ j ∈ Finset.range (d'.m * d'.N), tail d U j ^ 2 := by
  have : d.m * d.N = d.m + d'.m * d'.N := by rw [hN, hm]; ring
  rw [this, Finset.sum_range_add]
  unfold ctrl tail
  simp

namespace World

theorem bound_nil {d : Dims} {dmax : K} {w : World K} {g : Ghost} {p : Nat} (hg : Good d dmax w g) (hp : w.ctl.ps = some p) :
    w.ctl.spBoundConstr = [] ↔ ∀ D ∈ w.ctl.spConstr.map fun i => (w.cons i).userData, ∀ l u, D ≠ .ctrlBound l u := by
  rw [(hg.canUpdate hp).part.bound, List.filter_eq_nil_iff]
  simp only [List.mem_map, forall_exists_index, and_imp, forall_apply_eq_imp_iff₂, decide_eq_true_eq]
  refine forall₂_congr fun i _ => ?_
  unfold Constr.constraintType Constr.userData
  cases h : (w.cons i).kind <;> simp only
  case ctrlBound => 
    constructor
    · intro h; exact absurd trivial h
    · intro h; split at h <;> exact absurd rfl (h _ _)
  all_goals
    constructor
    · intro _ l u e
      first
        | (split at e <;> cases e)
        | cases e
    · intro _; try split
      all_goals decide

/-- The total cost of a plan is the cost of its first step plus the total cost of the rest. -/
theorem totalCost_split {d d' : Dims} {w1 w2 : World K} {p1 p2 : Nat} (R : Remaining d d' w1 p1 w2 p2) :
    ∃ F : (Nat → K) → (Nat → K) → K,
      (∀ {x x' u u' : Nat → K}, (∀ r < d.n, x r = x' r) → (∀ c < d.m, u c = u' c) → (F x u = F x' u')) ∧
      ∀ U, (∀ r < d.n, (w2.pss p2).x0.e r = Spec.traj d w1 p1 U 1 r) →
        totalCost d w1 p1 U = F (w1.pss p1).x0.e (ctrl d U 0) + totalCost d' w2 p2 (tail d U) := by
  obtain ⟨F, c, h⟩ := values_split d d' R.n R.m R.N _ (by
    intro D hD
    obtain ⟨i, hi, rfl⟩ := List.mem_map.1 hD
    exact R.costsStep i hi : ∀ D ∈ w1.ctl.spCost.map fun i => (w1.costs i).userData, D.PerStep d)
  refine ⟨fun x u => 1 / 2 * F x u + 1 / 2 * (1 / 1000000) * ∑ j ∈ Finset.range d.m, u j ^ 2, fun hx hu => ?_, fun U hx => ?_⟩
  · simp only [c hx hu]
    congr 2
    exact Finset.sum_congr rfl fun j hj => by rw [hu j (Finset.mem_range.1 hj)]
  · have key := h (Spec.traj d w1 p1 U) (Spec.traj d' w2 p2 (tail d U)) U (fun k _ r hr => by
      unfold Spec.traj at hx ⊢
      rw [← R.A, ← R.B, ← R.bias]
      exact sim_tail R.n R.m _ _ _ _ _ U hx k r hr)
    have pm := (R.costs.map fun D => D.value d' (Spec.traj d' w2 p2 (tail d U)) (tail d U)).sum_eq
    rw [List.map_map, List.map_map] at pm
    rw [List.map_map, List.map_map] at key
    unfold totalCost
    rw [regularisation_split d d' R.m R.N]
    simp only [Function.comp_def] at pm key
    rw [key, pm]
    simp only [Spec.traj, sim]
    ring

/-- A plan is admissible iff its first step is and the rest is. -/
theorem holds_all_split {d d' : Dims} {w1 w2 : World K} {p1 p2 : Nat} (R : Remaining d d' w1 p1 w2 p2) :
    ∃ F : (Nat → K) → (Nat → K) → Prop,
      (∀ {x x' u u' : Nat → K}, (∀ r < d.n, x r = x' r) → (∀ c < d.m, u c = u' c) → (F x u ↔ F x' u')) ∧
      ∀ U, (∀ r < d.n, (w2.pss p2).x0.e r = Spec.traj d w1 p1 U 1 r) →
        ((∀ i ∈ w1.ctl.spConstr, (w1.cons i).userData.Holds d (Spec.traj d w1 p1 U) U) ↔ F (w1.pss p1).x0.e (ctrl d U 0) ∧
          ∀ i ∈ w2.ctl.spConstr, (w2.cons i).userData.Holds d' (Spec.traj d' w2 p2 (tail d U)) (tail d U)) := by
  choose! F c h using fun (D : ConstrData K) (hD : D.PerStep d) => holds_split d d' R.n R.m R.N hD
  refine ⟨fun x u => ∀ i ∈ w1.ctl.spConstr, F (w1.cons i).userData x u, fun hx hu => ?_, fun U hx => ?_⟩
  · exact forall₂_congr fun i hi => c _ (R.consStep i hi) hx hu
  · have pm : (∀ i ∈ w2.ctl.spConstr, (w2.cons i).userData.Holds d' (Spec.traj d' w2 p2 (tail d U)) (tail d U)) ↔
        ∀ i ∈ w1.ctl.spConstr, (w1.cons i).userData.Holds d' (Spec.traj d' w2 p2 (tail d U)) (tail d U) := by
      constructor
      · intro H i hi
        obtain ⟨j, hj, e⟩ := List.mem_map.1 ((R.cons.mem_iff).1 (List.mem_map.2 ⟨i, hi, rfl⟩))
        rw [← e]; exact H j hj
      · intro H i hi
        obtain ⟨j, hj, e⟩ := List.mem_map.1 ((R.cons.mem_iff).2 (List.mem_map.2 ⟨i, hi, rfl⟩))
        rw [← e]; exact H j hj
    rw [pm, ← forall₂_and]
    refine forall₂_congr fun i hi => h _ (R.consStep i hi) _ _ U fun k _ r hr => ?_
    unfold Spec.traj at hx ⊢
    rw [← R.A, ← R.B, ← R.bias]
    exact sim_tail R.n R.m _ _ _ _ _ U hx k r hr

theorem traj_one {d : Dims} {w : World K} {p : Nat} {U V : Nat → K} (h : ∀ c < d.m, ctrl d U 0 c = ctrl d V 0 c) (r : Nat) :
    Spec.traj d w p U 1 r = Spec.traj d w p V 1 r := by
  unfold Spec.traj
  rw [sim, sim]
  congr 2
  exact Finset.sum_congr rfl fun c hc => by rw [h c (Finset.mem_range.1 hc)]

/-- **C70** (principle of optimality): a controller plans for the horizon `N + 1`; its first control is applied and a second
controller, with the same system, the same step-wise constraints and costs in any order and the horizon `N`, plans from
the state reached.  If both back ends report success with minimisers of their problems, the second plan is the rest of
the first one, and so is the second predicted trajectory. -/
theorem c70_replanning {d d' : Dims} {dmax : K} {E1 E2 : World K → Op K → Prop} {w1 w2 w1' w2' : World K} {g1 g2 : Ghost}
    {env1 env2 : SolveEnv K} {q1 q2 : QP K} {p1 p2 : Nat} {k1 k2 : SolverKind} {junk1 junk2 : Junk K}
    (h1 : Hist d dmax E1 w1 g1) (h2 : Hist d' dmax E2 w2 g2)
    (hE1 : ∀ w op, E1 w op → NoBoundSpan w op) (hE2 : ∀ w op, E2 w op → NoBoundSpan w op ∧ NonnegWeights w op)
    (o1 : OpOk d w1 g1 (.solve env1)) (o2 : OpOk d' w2 g2 (.solve env2))
    (hp1 : w1.ctl.ps = some p1) (hp2 : w2.ctl.ps = some p2)
    (i1 : w1.ctl.isInit = false) (i2 : w2.ctl.isInit = false) (R : Remaining d d' w1 p1 w2 p2)
    (f1 : CostsFresh d w1 g1) (f2 : CostsFresh d' w2 g2)
    (c1 : w1.ctl.spBoundConstr = [] → g1.clean) (c2 : w2.ctl.spBoundConstr = [] → g2.clean)
    (hh1 : ∀ i ∈ w1.ctl.spConstr, (w1.cons i).userData.Honest) (hh2 : ∀ i ∈ w2.ctl.spConstr, (w2.cons i).userData.Honest)
    (s1 : w1.solve env1 = some (w1', true, q1)) (s2 : w2.solve env2 = some (w2', true, q2))
    (n1 : q1.nrEq + q1.nrIneq + 2 * q1.nrVar ≤ intMax) (n2 : q2.nrEq + q2.nrIneq + 2 * q2.nrVar ≤ intMax)
    (b1 : BackEndOptimal dmax junk1 k1 q1 (env1.answer q1).2.e) (b2 : BackEndOptimal dmax junk2 k2 q2 (env2.answer q2).2.e)
    (hx : ∀ r < d.n, (w2.pss p2).x0.e r = w1'.ctl.trajectory.e (d.n + r))
    (u1 : k1 = .osqp → ∀ i < q1.Aineq.rows, -dmax ≤ rowValue q1.Aineq (followedBy d w1'.ctl.control.e w2'.ctl.control.e) i)
    (u2 : k2 = .osqp → ∀ i < q2.Aineq.rows, -dmax ≤ rowValue q2.Aineq (tail d w1'.ctl.control.e) i) :
    (∀ j < d'.m * d'.N, w2'.ctl.control.e j = w1'.ctl.control.e (d.m + j)) ∧
    ∀ k ≤ d'.N, ∀ r < d.n, w2'.ctl.trajectory.e (k * d.n + r) = w1'.ctl.trajectory.e ((k + 1) * d.n + r) := by
  have hw := fun {d : Dims} {w w' : World K} {g : Ghost} {env : SolveEnv K} {q : QP K} {E : World K → Op K → Prop}
      (h : Hist d dmax E w g) (o : OpOk d w g (.solve env)) (s : w.solve env = some (w', true, q)) =>
    (show WellSized q ∧ q.nrVar = numVars d w.ctl by
      obtain ⟨_, _, _, e, _, a, b⟩ := c50_solve_defined h o
      rw [s] at e; cases e; exact ⟨a, b⟩)
  have F1 := c30_feasible_set h1 hE1 o1 i1 c1 hh1 s1 hp1
  have F2 := c30_feasible_set h2 (fun w op h => (hE2 w op h).1) o2 i2 c2 hh2 s2 hp2
  obtain ⟨κ1, O1⟩ := c32_objective h1 o1 i1 f1 s1 hp1
  obtain ⟨κ2, O2⟩ := c32_objective h2 o2 i2 f2 s2 hp2
  obtain ⟨x1, m1⟩ := BackEndOptimal.spec (hw h1 o1 s1).1 n1 b1
  obtain ⟨x2, m2⟩ := BackEndOptimal.spec (hw h2 o2 s2).1 n2 b2
  rw [← c40_control_is_answer i1 s1] at x1 m1
  rw [← c40_control_is_answer i2 s2] at x2 m2
  have r2 : k2 = .osqp → ∀ i < q2.Aineq.rows, -dmax ≤ rowValue q2.Aineq w2'.ctl.control.e i := by
    intro hk; subst hk
    rw [c40_control_is_answer i2 s2]
    exact BackEndOptimal.rows (hw h2 o2 s2).1 n2 b2
  have T1 := ((c40_success h1 o1 s1 hp1).2.1 i1).2
  have T2 := ((c40_success h2 o2 s2 hp2).2.1 i2).2
  have nv : q2.nrVar = d'.m * d'.N := by rw [(hw h2 o2 s2).2]; unfold numVars; rw [i2]; rfl
  generalize w1'.ctl.control.e = U at *
  generalize w2'.ctl.control.e = V at *
  have hx' : ∀ r < d.n, (w2.pss p2).x0.e r = Spec.traj d w1 p1 U 1 r := fun r hr => by
    rw [hx r hr]
    have := T1.2 1 r (by have := R.N; omega) hr
    rw [one_mul] at this
    exact this
  have hxV : ∀ r < d.n, (w2.pss p2).x0.e r = Spec.traj d w1 p1 (followedBy d U V) 1 r := fun r hr => by
    rw [hx' r hr]; exact traj_one (fun c hc => (ctrl_first U V hc).symm) r
  obtain ⟨P, pc, ps⟩ := holds_all_split R
  obtain ⟨C, cc, cs⟩ := totalCost_split R
  have nb : w1.ctl.spBoundConstr = [] ↔ w2.ctl.spBoundConstr = [] := by
    rw [bound_nil h1.good hp1, bound_nil h2.good hp2]
    exact ⟨fun H D hD => H D (R.cons.mem_iff.2 hD), fun H D hD => H D (R.cons.mem_iff.1 hD)⟩
  have dm : d.m * d.N = d.m + d'.m * d'.N := by rw [R.N, R.m]; ring
  -- the tail of the first plan is feasible for the second problem
  have fU := (F1 U).1 x1
  have fV := (F2 V).1 x2
  have tU : Feasible q2 (tail d U) := (F2 _).2 ⟨((ps U hx').1 fU.1).2, fun hb j hj => fU.2 (nb.2 hb) _ (by omega)⟩
  -- the first control followed by the second plan is feasible for the first problem
  have tV : Feasible q1 (followedBy d U V) := by
    refine (F1 _).2 ⟨(ps _ hxV).2 ⟨?_, ?_⟩, fun hb j hj => ?_⟩
    · exact (pc (fun _ _ => rfl) fun c hc => (ctrl_first U V hc).symm).1 ((ps U hx').1 fU.1).1
    · rw [tail_followedBy]; exact fV.1
    · unfold followedBy
      split
      · exact fU.2 hb j hj
      · exact fV.2 (nb.1 hb) _ (by omega)
  have le1 := m1 _ tV u1
  rw [O1, O1, cs U hx', cs _ hxV, tail_followedBy] at le1
  rw [cc (x' := (w1.pss p1).x0.e) (u' := ctrl d U 0) (fun _ _ => rfl) fun c hc => ctrl_first U V hc] at le1
  have le2 : objective q2 (tail d U) ≤ objective q2 V := by rw [O2, O2]; linarith
  have le3 := m2 _ (feasible_mid x2 tU) (by
    intro hk i hi
    have a := r2 hk i hi
    have b := u2 hk i hi
    rw [rowValue_mid]; linarith)
  have hc := (hw h2 o2 s2).1.2.2.1
  have PD2 := c29_hessian h2 (fun w op h => (hE2 w op h).2) o2 i2 s2
  rw [← hc] at PD2
  have e := pd_unique PD2 le3 (le_trans le2 le3)
  have e' : ∀ j < d'.m * d'.N, V j = tail d U j := fun j hj => e j (by rw [hc, nv]; exact hj)
  refine ⟨e', fun k hk r hr => ?_⟩
  rw [T1.2 (k + 1) r (by have := R.N; omega) hr, ← R.n, T2.2 k r hk (by rw [R.n]; exact hr)]
  unfold Spec.traj at hx' ⊢
  rw [sim_congr d' _ _ _ (fun _ _ => rfl) e' k hk r (by rw [R.n]; exact hr), ← R.A, ← R.B, ← R.bias]
  exact sim_tail R.n R.m _ _ _ _ _ U hx' k r hr

end World
end
end Copra
