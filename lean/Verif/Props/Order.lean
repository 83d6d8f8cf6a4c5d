import Verif.Props.Same

/-! # C51: the order of registration does not matter -/

namespace Copra
open Spec

set_option linter.unusedSectionVars false
set_option linter.unusedSimpArgs false

variable {K : Type} [Field K] [LinearOrder K] [IsStrictOrderedRing K]

theorem perm_mem {R : Nat → Nat → Prop} {A B : List Nat} (h : ∃ L, L.Perm B ∧ List.Forall₂ R A L) :
    (∀ i ∈ A, ∃ j ∈ B, R i j) ∧ ∀ j ∈ B, ∃ i ∈ A, R i j := by
  obtain ⟨L, hp, hf⟩ := h
  constructor
  · intro i hi
    have : ∀ {A L : List Nat}, List.Forall₂ R A L → ∀ i ∈ A, ∃ j ∈ L, R i j := by
      intro A L h
      induction h with
      | nil => intro i hi; cases hi
      | cons h _ ih =>
        intro i hi
        rcases List.mem_cons.1 hi with rfl | hi
        · exact ⟨_, List.mem_cons_self, h⟩
        · obtain ⟨j, hj, r⟩ := ih i hi
          exact ⟨j, List.mem_cons_of_mem _ hj, r⟩
    obtain ⟨j, hj, r⟩ := this hf i hi
    exact ⟨j, hp.mem_iff.1 hj, r⟩
  · intro j hj
    have : ∀ {A L : List Nat}, List.Forall₂ R A L → ∀ j ∈ L, ∃ i ∈ A, R i j := by
      intro A L h
      induction h with
      | nil => intro i hi; cases hi
      | cons h _ ih =>
        intro i hi
        rcases List.mem_cons.1 hi with rfl | hi
        · exact ⟨_, List.mem_cons_self, h⟩
        · obtain ⟨j, hj, r⟩ := ih i hi
          exact ⟨j, List.mem_cons_of_mem _ hj, r⟩
    exact this hf j (hp.mem_iff.2 hj)

theorem sum_perm {R : Nat → Nat → Prop} {f g : Nat → K} {A B : List Nat} (h : ∃ L, L.Perm B ∧ List.Forall₂ R A L)
    (hr : ∀ i ∈ A, ∀ j ∈ B, R i j → f i = g j) : (A.map f).sum = (B.map g).sum := by
  obtain ⟨L, hp, hf⟩ := h
  rw [sum_forall₂ (g := g) ((World.forall₂_mem hf).imp fun i j h => hr i h.1 j (hp.mem_iff.1 h.2.1) h.2.2)]
  exact (hp.map g).sum_eq

/-- One stack of rows implies another one all of whose rows occur in the first. -/
theorem Stack.imply {L1 L2 : List Nat} {sz1 sz2 : Nat → Nat} {F1 F2 : Nat → Nat → Nat → K} {g1 g2 : Nat → Nat → Ext K} {cols : Nat}
    {A1 A2 : Mat K} {b1 b2 : Vec (Ext K)} (h1 : Stack L1 sz1 F1 g1 cols A1 b1) (h2 : Stack L2 sz2 F2 g2 cols A2 b2)
    (h : ∀ j ∈ L2, ∃ i ∈ L1, sz1 i = sz2 j ∧ ∀ r < sz1 i, (∀ k < cols, F1 i r k = F2 j r k) ∧ g1 i r = g2 j r)
    (R : K → Ext K → Prop) (x : Nat → K) :
    (∀ t < A1.rows, R (rowValue A1 x t) (b1.e t)) → ∀ t < A2.rows, R (rowValue A2 x t) (b2.e t) := by
  rw [h1.forall R x, h2.forall R x]
  intro H j hj r hr
  obtain ⟨i, hi, hs, hrow⟩ := h j hj
  have a := H i hi r (by rw [hs]; exact hr)
  obtain ⟨e1, e2⟩ := hrow r (by rw [hs]; exact hr)
  rw [← e2]
  convert a using 1
  apply Finset.sum_congr rfl; intro k hk
  rw [e1 k (Finset.mem_range.1 hk)]

namespace World
variable {d : Dims} {w1 w1' w2 w2' : World K} {p1 p2 : Nat}

/-- Corresponding registered constraints. -/
def Corr (d : Dims) (w1 w2 : World K) (i j : Nat) : Prop :=
  i ∈ w1.ctl.spConstr ∧ j ∈ w2.ctl.spConstr ∧ Constr.Det d (w1.cons i) (w2.cons j)

/-- The registered constraints correspond to each other, in any order. -/
structure Covers (d : Dims) (w1 w2 : World K) : Prop where
  lr : ∀ i ∈ w1.ctl.spConstr, ∃ j ∈ w2.ctl.spConstr, Corr d w1 w2 i j
  rl : ∀ j ∈ w2.ctl.spConstr, ∃ i ∈ w1.ctl.spConstr, Corr d w1 w2 i j

theorem Covers.filter (h : Covers d w1 w2) (t : CFlag) :
    (∀ i ∈ w1.ctl.spConstr.filter fun i => (w1.cons i).constraintType = t,
      ∃ j ∈ w2.ctl.spConstr.filter fun i => (w2.cons i).constraintType = t, Corr d w1 w2 i j) ∧
    ∀ j ∈ w2.ctl.spConstr.filter fun i => (w2.cons i).constraintType = t,
      ∃ i ∈ w1.ctl.spConstr.filter fun i => (w1.cons i).constraintType = t, Corr d w1 w2 i j := by
  constructor
  · intro i hi
    obtain ⟨hi, ht⟩ := List.mem_filter.1 hi
    obtain ⟨j, hj, c⟩ := h.lr i hi
    exact ⟨j, List.mem_filter.2 ⟨hj, by rw [← c.2.2.type]; exact ht⟩, c⟩
  · intro j hj
    obtain ⟨hj, ht⟩ := List.mem_filter.1 hj
    obtain ⟨i, hi, c⟩ := h.rl j hj
    exact ⟨i, List.mem_filter.2 ⟨hi, by rw [c.2.2.type]; exact ht⟩, c⟩

/-- The rows of two constraints after a solve. -/
def RowsEq (d : Dims) (c c' : Constr K) : Prop :=
  c.nrConstr = c'.nrConstr ∧ ∀ r < c.nrConstr, (∀ k < d.m * d.N, c.A.e r k = c'.A.e r k) ∧
    (∀ k < d.n, c.Y.e r k = c'.Y.e r k) ∧ c.z.e r = c'.z.e r ∧ c.b.e r = c'.b.e r

theorem RowsEq.symm {c c' : Constr K} (h : RowsEq d c c') : RowsEq d c' c := by
  refine ⟨h.1.symm, fun r hr => ?_⟩
  obtain ⟨a, b, e, f⟩ := h.2 r (by rw [h.1]; exact hr)
  exact ⟨fun k hk => (a k hk).symm, fun k hk => (b k hk).symm, e.symm, f.symm⟩

/-- The three lists of two controllers whose constraints correspond. -/
structure ListsAgree (d : Dims) (w1 w1' w2 w2' : World K) : Prop where
  eq1 : ∀ j ∈ w2.ctl.spEqConstr, ∃ i ∈ w1.ctl.spEqConstr, RowsEq d (w1'.cons i) (w2'.cons j)
  eq2 : ∀ i ∈ w1.ctl.spEqConstr, ∃ j ∈ w2.ctl.spEqConstr, RowsEq d (w2'.cons j) (w1'.cons i)
  in1 : ∀ j ∈ w2.ctl.spIneqConstr, ∃ i ∈ w1.ctl.spIneqConstr, RowsEq d (w1'.cons i) (w2'.cons j)
  in2 : ∀ i ∈ w1.ctl.spIneqConstr, ∃ j ∈ w2.ctl.spIneqConstr, RowsEq d (w2'.cons j) (w1'.cons i)
  bnil : w1.ctl.spBoundConstr = [] → w2.ctl.spBoundConstr = []
  bone : ∀ i, w1.ctl.spBoundConstr = [i] → ∃ j, w2.ctl.spBoundConstr = [j] ∧
    ∀ t < d.m * d.N, (w1'.cons i).lb.e t = (w2'.cons j).lb.e t ∧ (w1'.cons i).ub.e t = (w2'.cons j).ub.e t

theorem lists_agree (C1 : CanUpdate d p1 w1) (C2 : CanUpdate d p2 w2) (H1 : HeapUpdated d p1 w1 w1')
    (H2 : HeapUpdated d p2 w2 w2') (s : SysEq d (w1'.pss p1) (w2'.pss p2)) (V : Covers d w1 w2) : ListsAgree d w1 w1' w2 w2' := by
  obtain ⟨t1, t2, t3⟩ := C1.typed
  have e := V.filter .equality
  have i := V.filter .inequality
  have b := V.filter .bound
  rw [← C1.part.eq, ← C2.part.eq] at e
  rw [← C1.part.ineq, ← C2.part.ineq] at i
  rw [← C1.part.bound, ← C2.part.bound] at b
  refine ⟨?_, ?_, ?_, ?_, ?_, ?_⟩
  · intro j hj
    obtain ⟨k, hk, c⟩ := e.2 j hj
    exact ⟨k, hk, rows_agree H1 H2 s c.1 c.2.1 c.2.2 (t1 k hk).2.1⟩
  · intro k hk
    obtain ⟨j, hj, c⟩ := e.1 k hk
    exact ⟨j, hj, RowsEq.symm (rows_agree H1 H2 s c.1 c.2.1 c.2.2 (t1 k hk).2.1)⟩
  · intro j hj
    obtain ⟨k, hk, c⟩ := i.2 j hj
    exact ⟨k, hk, rows_agree H1 H2 s c.1 c.2.1 c.2.2 (t2 k hk).2.1⟩
  · intro k hk
    obtain ⟨j, hj, c⟩ := i.1 k hk
    exact ⟨j, hj, RowsEq.symm (rows_agree H1 H2 s c.1 c.2.1 c.2.2 (t2 k hk).2.1)⟩
  · intro h
    rcases hl : w2.ctl.spBoundConstr with _ | ⟨j, r⟩
    · rfl
    · obtain ⟨k, hk, _⟩ := b.2 j (by rw [hl]; exact List.mem_cons_self)
      rw [h] at hk; cases hk
  · intro k hk
    obtain ⟨j, hj, c⟩ := b.1 k (by rw [hk]; exact List.mem_cons_self)
    have hlen := C2.one
    refine ⟨j, ?_, bounds_agree H1 H2 c.1 c.2.1 c.2.2 (t3 k (by rw [hk]; exact List.mem_cons_self)).2⟩
    rcases hl : w2.ctl.spBoundConstr with _ | ⟨j', _ | ⟨j'', r⟩⟩
    · rw [hl] at hj; cases hj
    · rw [hl] at hj; rw [List.mem_singleton.1 hj]
    · rw [hl] at hlen; simp at hlen

theorem _root_.Copra.Spec.SameProblem.mk' {q1 q2 : QP K} (n : q1.nrVar = q2.nrVar) (hQ : MatEq q1.Q q2.Q) (hc : VecEq q1.c q2.c)
    (hs : q1.Q.rows = q1.c.rows) (hs' : q1.Q.cols = q1.c.rows)
    (hf : ∀ x, Feasible q1 x ↔ Feasible q2 x) : SameProblem q1 q2 := by
  have ho : ∀ x, Spec.objective q1 x = Spec.objective q2 x := by
    intro x
    unfold Spec.objective quadValue
    rw [← hc.1]
    congr 1
    · congr 1
      apply Finset.sum_congr rfl; intro i hi
      apply Finset.sum_congr rfl; intro j hj
      rw [hQ.2.2 i (by rw [hs]; exact Finset.mem_range.1 hi) j (by rw [hs']; exact Finset.mem_range.1 hj)]
    · apply Finset.sum_congr rfl; intro i hi
      rw [hc.2 i (Finset.mem_range.1 hi)]
  refine ⟨n, hQ, hc, ho, hf, fun x => ?_⟩
  unfold IsOptimal
  rw [hf x]
  refine and_congr_right fun _ => forall_congr' fun y => ?_
  rw [hf y, ho x, ho y]

variable {env1 env2 : SolveEnv K} {b1 b2 : Bool} {q1 q2 : QP K}

theorem feasible_iff {n : Nat} (e1 : ∀ x, (∀ t < q1.Aeq.rows, Ext.fin (rowValue q1.Aeq x t) = q1.beq.e t) ↔
      ∀ t < q2.Aeq.rows, Ext.fin (rowValue q2.Aeq x t) = q2.beq.e t)
    (e2 : ∀ x, (∀ t < q1.Aineq.rows, Ext.fin (rowValue q1.Aineq x t) ≤ q1.bineq.e t) ↔
      ∀ t < q2.Aineq.rows, Ext.fin (rowValue q2.Aineq x t) ≤ q2.bineq.e t)
    (l1 : q1.lb.rows = n) (l2 : q2.lb.rows = n) (u1 : q1.ub.rows = n) (u2 : q2.ub.rows = n)
    (hB : ∀ t < n, q1.lb.e t = q2.lb.e t ∧ q1.ub.e t = q2.ub.e t) (x : Nat → K) : Feasible q1 x ↔ Feasible q2 x := by
  unfold Feasible
  rw [e1 x, e2 x, l1, l2, u1, u2]
  refine and_congr_right fun _ => and_congr_right fun _ => and_congr ?_ ?_
  · refine forall_congr' fun t => forall_congr' fun ht => ?_
    rw [(hB t ht).1]
  · refine forall_congr' fun t => forall_congr' fun ht => ?_
    rw [(hB t ht).2]

theorem _root_.Copra.Spec.SamePermuted.covers {d : Dims} {dmax : K} {E1 E2 : World K → Op K → Prop} {g1 g2 : Ghost}
    (h1 : Hist d dmax E1 w1 g1) (h2 : Hist d dmax E2 w2 g2)
    (hE1 : ∀ w op, E1 w op → NoBoundSpan w op) (hE2 : ∀ w op, E2 w op → NoBoundSpan w op)
    (C1 : CanUpdate d p1 w1) (C2 : CanUpdate d p2 w2) (same : SamePermuted w1 p1 w2 p2) : Covers d w1 w2 := by
  obtain ⟨m1, m2⟩ := perm_mem same.cons
  have det : ∀ i ∈ w1.ctl.spConstr, ∀ j ∈ w2.ctl.spConstr, (w1.cons i).userData.Eqv (w2.cons j).userData → Corr d w1 w2 i j :=
    fun i hi j hj e => ⟨hi, hj, Constr.determined (C1.cons i hi) (C2.cons j hj) (h1.lines hE1 i) (h2.lines hE2 j) e⟩
  constructor
  · intro i hi
    obtain ⟨j, hj, e⟩ := m1 i hi
    exact ⟨j, hj, det i hi j hj e⟩
  · intro j hj
    obtain ⟨i, hi, e⟩ := m2 j hj
    exact ⟨i, hi, det i hi j hj e⟩

/-- C51: two programs whose controllers have the same system, initial state, constraints and costs, registered in
different orders (whatever else happened before), hand the solver problems with the same objective, the same
feasible set and the same minimisers.  `f1`, `f2`: see C27; `c1`, `c2`: see C37; `hE1`, `hE2`: see C11. -/
theorem c51_order_independent {d : Dims} {dmax : K} {E1 E2 : World K → Op K → Prop} {w1 w2 w1' w2' : World K} {g1 g2 : Ghost}
    {env1 env2 : SolveEnv K} {b1 b2 : Bool} {q1 q2 : QP K} {p1 p2 : Nat}
    (h1 : Hist d dmax E1 w1 g1) (h2 : Hist d dmax E2 w2 g2)
    (hE1 : ∀ w op, E1 w op → NoBoundSpan w op) (hE2 : ∀ w op, E2 w op → NoBoundSpan w op)
    (o1 : OpOk d w1 g1 (.solve env1)) (o2 : OpOk d w2 g2 (.solve env2))
    (hp1 : w1.ctl.ps = some p1) (hp2 : w2.ctl.ps = some p2)
    (i1 : w1.ctl.isInit = false) (i2 : w2.ctl.isInit = false) (same : SamePermuted w1 p1 w2 p2)
    (f1 : CostsFresh d w1 g1) (f2 : CostsFresh d w2 g2)
    (c1 : w1.ctl.spBoundConstr = [] → g1.clean) (c2 : w2.ctl.spBoundConstr = [] → g2.clean)
    (s1 : w1.solve env1 = some (w1', b1, q1)) (s2 : w2.solve env2 = some (w2', b2, q2)) : SameProblem q1 q2 := by
  have G1 := h1.good
  have G2 := h2.good
  obtain ⟨p, hp, S1⟩ := G1.solved o1.2 s1
  rw [hp1] at hp; cases hp
  obtain ⟨p, hp, S2⟩ := G2.solved o2.2 s2
  rw [hp2] at hp; cases hp
  have C1 := G1.canUpdate hp1
  have C2 := G2.canUpdate hp2
  have s := sysEq S1.heap S2.heap same.A same.B same.bias fun j hj => same.x0.2 j (by rw [C1.x0]; exact hj)
  have V1 := S1.entries G1 f1
  have V2 := S2.entries G2 f2
  have L := lists_agree C1 C2 S1.heap S2.heap s (SamePermuted.covers h1 h2 hE1 hE2 C1 C2 same)
  have A1 := S1.plain i1
  have A2 := S2.plain i2
  have R : ∀ i ∈ w1.ctl.spCost, ∀ j ∈ w2.ctl.spCost, (w1.costs i).userData.Eqv (w2.costs j).userData →
      Cost.ResEq d (w1'.costs i) (w2'.costs j) := by
    intro i hi j hj h
    obtain ⟨e1, r1, u1⟩ := V1 i hi
    obtain ⟨e2, r2, u2⟩ := V2 j hj
    exact (Cost.determined r1.pre r2.pre (by rw [u1, u2]; exact h)).resEq s e1 e2
  refine SameProblem.mk' ?_ ⟨by rw [A1.Qr, A2.Qr], by rw [A1.Qc, A2.Qc], ?_⟩ ⟨by rw [A1.cr, A2.cr], ?_⟩ (by rw [A1.Qr, A1.cr])
    (by rw [A1.Qc, A1.cr]) ?_
  · rw [A1.nrVar, A2.nrVar, A1.cr, A2.cr]
  · intro a ha b hb
    rw [A1.Qr] at ha; rw [A1.Qc] at hb
    rw [A1.Q a ha b hb, A2.Q a ha b hb]
    congr 1
    exact sum_perm same.costs fun i hi j hj h => (R i hi j hj h).Q a ha b hb
  · intro a ha
    rw [A1.cr] at ha
    rw [A1.c a ha, A2.c a ha]
    exact sum_perm same.costs fun i hi j hj h => (R i hi j hj h).c a ha
  · have conv : ∀ {c c' : Constr K}, RowsEq d c c' → c.nrConstr = c'.nrConstr ∧ ∀ r < c.nrConstr,
        (∀ k < d.m * d.N, c.A.e r k = c'.A.e r k) ∧ c.b.e r = c'.b.e r :=
      fun h => ⟨h.1, fun r hr => ⟨(h.2 r hr).1, (h.2 r hr).2.2.2⟩⟩
    refine feasible_iff (n := d.m * d.N) (fun x => ⟨?_, ?_⟩) (fun x => ⟨?_, ?_⟩) A1.lbr A2.lbr A1.ubr A2.ubr ?_
    · exact A1.eq.imply A2.eq (fun j hj => let ⟨i, hi, h⟩ := L.eq1 j hj; ⟨i, hi, conv h⟩) (fun v b => Ext.fin v = b) x
    · exact A2.eq.imply A1.eq (fun j hj => let ⟨i, hi, h⟩ := L.eq2 j hj; ⟨i, hi, conv h⟩) (fun v b => Ext.fin v = b) x
    · exact A1.ineq.imply A2.ineq (fun j hj => let ⟨i, hi, h⟩ := L.in1 j hj; ⟨i, hi, conv h⟩) (fun v b => Ext.fin v ≤ b) x
    · exact A2.ineq.imply A1.ineq (fun j hj => let ⟨i, hi, h⟩ := L.in2 j hj; ⟨i, hi, conv h⟩) (fun v b => Ext.fin v ≤ b) x
    · intro t ht
      have hlen := C1.one
      rcases hl : w1.ctl.spBoundConstr with _ | ⟨i, _ | ⟨i', r⟩⟩
      · have hl2 := L.bnil hl
        have k1 := G1.clean (c1 hl) (by rw [hp1]; exact Option.some_ne_none _) t ht
        have k2 := G2.clean (c2 hl2) (by rw [hp2]; exact Option.some_ne_none _) t ht
        unfold off at k1 k2
        rw [i1] at k1; rw [i2] at k2
        simp only [Bool.false_eq_true, if_false, Nat.zero_add] at k1 k2
        rw [(A1.keep hl).1, (A1.keep hl).2, (A2.keep hl2).1, (A2.keep hl2).2, k1.1, k1.2, k2.1, k2.2]
        exact ⟨rfl, rfl⟩
      · obtain ⟨j, hj, h⟩ := L.bone i hl
        rw [(A1.bound i hl t ht).1, (A1.bound i hl t ht).2, (A2.bound j hj t ht).1, (A2.bound j hj t ht).2]
        exact h t ht
      · rw [hl] at hlen; simp at hlen

/-- C51 for initial-state controllers. -/
theorem c51_order_independent_init {d : Dims} {dmax : K} {E1 E2 : World K → Op K → Prop} {w1 w2 w1' w2' : World K} {g1 g2 : Ghost}
    {env1 env2 : SolveEnv K} {b1 b2 : Bool} {q1 q2 : QP K} {p1 p2 : Nat}
    (h1 : Hist d dmax E1 w1 g1) (h2 : Hist d dmax E2 w2 g2)
    (hE1 : ∀ w op, E1 w op → NoBoundSpan w op) (hE2 : ∀ w op, E2 w op → NoBoundSpan w op)
    (o1 : OpOk d w1 g1 (.solve env1)) (o2 : OpOk d w2 g2 (.solve env2))
    (hp1 : w1.ctl.ps = some p1) (hp2 : w2.ctl.ps = some p2)
    (i1 : w1.ctl.isInit = true) (i2 : w2.ctl.isInit = true) (same : SamePermuted w1 p1 w2 p2)
    (sameI : SameInitData d w1.ctl w2.ctl) (inv : SameInverse d env1 env2)
    (f1 : CostsFresh d w1 g1) (f2 : CostsFresh d w2 g2)
    (c1 : w1.ctl.spBoundConstr = [] → g1.clean) (c2 : w2.ctl.spBoundConstr = [] → g2.clean)
    (s1 : w1.solve env1 = some (w1', b1, q1)) (s2 : w2.solve env2 = some (w2', b2, q2)) : SameProblem q1 q2 := by
  have G1 := h1.good
  have G2 := h2.good
  obtain ⟨p, hp, S1⟩ := G1.solved o1.2 s1
  rw [hp1] at hp; cases hp
  obtain ⟨p, hp, S2⟩ := G2.solved o2.2 s2
  rw [hp2] at hp; cases hp
  have C1 := G1.canUpdate hp1
  have C2 := G2.canUpdate hp2
  have s := sysEq S1.heap S2.heap same.A same.B same.bias fun j hj => same.x0.2 j (by rw [C1.x0]; exact hj)
  have V1 := S1.entries G1 f1
  have V2 := S2.entries G2 f2
  have L := lists_agree C1 C2 S1.heap S2.heap s (SamePermuted.covers h1 h2 hE1 hE2 C1 C2 same)
  have A1 := S1.init i1
  have A2 := S2.init i2
  have R : ∀ i ∈ w1.ctl.spCost, ∀ j ∈ w2.ctl.spCost, (w1.costs i).userData.Eqv (w2.costs j).userData →
      Cost.ResEq d (w1'.costs i) (w2'.costs j) := by
    intro i hi j hj h
    obtain ⟨e1, r1, u1⟩ := V1 i hi
    obtain ⟨e2, r2, u2⟩ := V2 j hj
    exact (Cost.determined r1.pre r2.pre (by rw [u1, u2]; exact h)).resEq s e1 e2
  have hUU : ∀ a < d.m * d.N, ∀ b < d.m * d.N, q1.Q.e (d.n + a) (d.n + b) = q2.Q.e (d.n + a) (d.n + b) := by
    intro a ha b hb
    rw [A1.QUU a ha b hb, A2.QUU a ha b hb]
    congr 1
    exact sum_perm same.costs fun i hi j hj h => (R i hi j hj h).Q a ha b hb
  have hxU : ∀ a < d.n, ∀ b < d.m * d.N, q1.Q.e a (d.n + b) = q2.Q.e a (d.n + b) := by
    intro a ha b hb
    rw [A1.QxU a ha b hb, A2.QxU a ha b hb]
    exact sum_perm same.costs fun i hi j hj h => (R i hi j hj h).E a ha b hb
  have hxx := hxx_init A1 A2 sameI.R inv (o1.2.init i1).2.2.2.2.2 hUU hxU
  refine SameProblem.mk' ?_ ⟨by rw [A1.Qr, A2.Qr], by rw [A1.Qc, A2.Qc], ?_⟩ ⟨by rw [A1.cr, A2.cr], ?_⟩ (by rw [A1.Qr, A1.cr])
    (by rw [A1.Qc, A1.cr]) ?_
  · rw [A1.nrVar, A2.nrVar, A1.cr, A2.cr]
  · intro a ha b hb
    rw [A1.Qr] at ha; rw [A1.Qc] at hb
    by_cases ha' : a < d.n <;> by_cases hb' : b < d.n
    · exact hxx a ha' b hb'
    · obtain ⟨b, rfl⟩ := Nat.exists_eq_add_of_le (Nat.le_of_not_lt hb')
      exact hxU a ha' b (by omega)
    · obtain ⟨a, rfl⟩ := Nat.exists_eq_add_of_le (Nat.le_of_not_lt ha')
      have ha : a < d.m * d.N := by omega
      rw [A1.QUx b hb' a ha, A2.QUx b hb' a ha]
      exact hxU b hb' a ha
    · obtain ⟨a, rfl⟩ := Nat.exists_eq_add_of_le (Nat.le_of_not_lt ha')
      obtain ⟨b, rfl⟩ := Nat.exists_eq_add_of_le (Nat.le_of_not_lt hb')
      exact hUU a (by omega) b (by omega)
  · intro a ha
    rw [A1.cr] at ha
    by_cases ha' : a < d.n
    · rw [A1.cx a ha', A2.cx a ha']; exact sameI.r a ha'
    · obtain ⟨a, rfl⟩ := Nat.exists_eq_add_of_le (Nat.le_of_not_lt ha')
      have ha : a < d.m * d.N := by omega
      rw [A1.cU a ha, A2.cU a ha]
      exact sum_perm same.costs fun i hi j hj h => (R i hi j hj h).f a ha
  · have conv : ∀ {c c' : Constr K}, RowsEq d c c' → c.nrConstr = c'.nrConstr ∧ ∀ r < c.nrConstr,
        (∀ k < d.n + d.m * d.N, (if k < d.n then c.Y.e r k else c.A.e r (k - d.n)) =
          if k < d.n then c'.Y.e r k else c'.A.e r (k - d.n)) ∧ c.z.e r = c'.z.e r := by
      refine fun h => ⟨h.1, fun r hr => ⟨fun k hk => ?_, (h.2 r hr).2.2.1⟩⟩
      split
      · next hk' => exact (h.2 r hr).2.1 k hk'
      · exact (h.2 r hr).1 _ (by omega)
    refine feasible_iff (n := d.n + d.m * d.N) (fun x => ⟨?_, ?_⟩) (fun x => ⟨?_, ?_⟩) A1.lbr A2.lbr A1.ubr A2.ubr ?_
    · exact A1.eq.imply A2.eq (fun j hj => let ⟨i, hi, h⟩ := L.eq1 j hj; ⟨i, hi, conv h⟩) (fun v b => Ext.fin v = b) x
    · exact A2.eq.imply A1.eq (fun j hj => let ⟨i, hi, h⟩ := L.eq2 j hj; ⟨i, hi, conv h⟩) (fun v b => Ext.fin v = b) x
    · exact A1.ineq.imply A2.ineq (fun j hj => let ⟨i, hi, h⟩ := L.in1 j hj; ⟨i, hi, conv h⟩) (fun v b => Ext.fin v ≤ b) x
    · exact A2.ineq.imply A1.ineq (fun j hj => let ⟨i, hi, h⟩ := L.in2 j hj; ⟨i, hi, conv h⟩) (fun v b => Ext.fin v ≤ b) x
    · intro t ht
      by_cases hx : t < d.n
      · rw [(A1.bx t hx).1, (A1.bx t hx).2, (A2.bx t hx).1, (A2.bx t hx).2]
        exact ⟨sameI.x0lb t hx, sameI.x0ub t hx⟩
      · obtain ⟨t, rfl⟩ := Nat.exists_eq_add_of_le (Nat.le_of_not_lt hx)
        have ht : t < d.m * d.N := by omega
        have hlen := C1.one
        rcases hl : w1.ctl.spBoundConstr with _ | ⟨i, _ | ⟨i', r⟩⟩
        · have hl2 := L.bnil hl
          have k1 := G1.clean (c1 hl) (by rw [hp1]; exact Option.some_ne_none _) t ht
          have k2 := G2.clean (c2 hl2) (by rw [hp2]; exact Option.some_ne_none _) t ht
          unfold off at k1 k2
          rw [i1] at k1; rw [i2] at k2
          simp only [if_true] at k1 k2
          rw [(A1.keep hl t ht).1, (A1.keep hl t ht).2, (A2.keep hl2 t ht).1, (A2.keep hl2 t ht).2, k1.1, k1.2, k2.1, k2.2]
          exact ⟨rfl, rfl⟩
        · obtain ⟨j, hj, h⟩ := L.bone i hl
          rw [(A1.bound i hl t ht).1, (A1.bound i hl t ht).2, (A2.bound j hj t ht).1, (A2.bound j hj t ht).2]
          exact h t ht
        · rw [hl] at hlen; simp at hlen

end World
end Copra
