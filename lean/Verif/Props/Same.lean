import Verif.Proofs.Determined2

/-! # Properties C27, C57: solving again, and the problem as a function of the declared data -/

namespace Copra
open Spec

set_option linter.unusedSectionVars false
set_option linter.unusedSimpArgs false

variable {K : Type} [Field K]

theorem MatEq.symm {A B : Mat K} (h : MatEq A B) : MatEq B A :=
  ⟨h.1.symm, h.2.1.symm, fun i hi j hj => (h.2.2 i (by rw [h.1]; exact hi) j (by rw [h.2.1]; exact hj)).symm⟩

theorem MatEq.trans {A B C : Mat K} (h : MatEq A B) (g : MatEq B C) : MatEq A C :=
  ⟨h.1.trans g.1, h.2.1.trans g.2.1, fun i hi j hj =>
    (h.2.2 i hi j hj).trans (g.2.2 i (by rw [← h.1]; exact hi) j (by rw [← h.2.1]; exact hj))⟩

theorem VecEq.symm {α : Type} {a b : Vec α} (h : VecEq a b) : VecEq b a :=
  ⟨h.1.symm, fun i hi => (h.2 i (by rw [h.1]; exact hi)).symm⟩

theorem VecEq.trans {α : Type} {a b c : Vec α} (h : VecEq a b) (g : VecEq b c) : VecEq a c :=
  ⟨h.1.trans g.1, fun i hi => (h.2 i hi).trans (g.2 i (by rw [← h.1]; exact hi))⟩

theorem QPEq.symm {p q : QP K} (h : QPEq p q) : QPEq q p := by
  obtain ⟨a, b, c, d, e, f, g, i, j, k, l⟩ := h
  exact ⟨a.symm, b.symm, c.symm, MatEq.symm d, VecEq.symm e, MatEq.symm f, VecEq.symm g, MatEq.symm i, VecEq.symm j,
    VecEq.symm k, VecEq.symm l⟩

theorem QPEq.trans {p q r : QP K} (h : QPEq p q) (h' : QPEq q r) : QPEq p r := by
  obtain ⟨a, b, c, d, e, f, g, i, j, k, l⟩ := h
  obtain ⟨a', b', c', d', e', f', g', i', j', k', l'⟩ := h'
  exact ⟨a.trans a', b.trans b', c.trans c', MatEq.trans d d', VecEq.trans e e', MatEq.trans f f', VecEq.trans g g',
    MatEq.trans i i', VecEq.trans j j', VecEq.trans k k', VecEq.trans l l'⟩

theorem QPEq.refl (p : QP K) : QPEq p p :=
  ⟨rfl, rfl, rfl, ⟨rfl, rfl, fun _ _ _ _ => rfl⟩, ⟨rfl, fun _ _ => rfl⟩, ⟨rfl, rfl, fun _ _ _ _ => rfl⟩, ⟨rfl, fun _ _ => rfl⟩,
    ⟨rfl, rfl, fun _ _ _ _ => rfl⟩, ⟨rfl, fun _ _ => rfl⟩, ⟨rfl, fun _ _ => rfl⟩, ⟨rfl, fun _ _ => rfl⟩⟩

theorem forall₂_self {R : Nat → Nat → Prop} {L : List Nat} (h : ∀ i ∈ L, R i i) : List.Forall₂ R L L := by
  induction L with
  | nil => exact .nil
  | cons a L ih => exact .cons (h a List.mem_cons_self) (ih fun i hi => h i (List.mem_cons_of_mem _ hi))

theorem Constr.Frame.det {d : Dims} {c c' : Constr K} (h : Constr.Frame c c') : Constr.Det d c c' := by
  refine ⟨h.kind.symm, ?_, h.nr.symm, h.full.symm, ?_, ?_, ?_⟩
  · unfold Constr.constraintType; rw [h.kind, h.isIneq]
  · intro _ i _; rw [h.row]; exact ⟨fun _ _ => rfl, fun _ _ => rfl, rfl⟩
  · intro _ _ r _; rw [h.lower, h.upper]; exact ⟨rfl, rfl⟩
  · intro hk hf j _; rw [(h.movedB hf hk).1, (h.movedB hf hk).2]; exact ⟨rfl, rfl⟩

theorem Spec.CostData.Eqv.refl (D : CostData K) : D.Eqv D := by
  cases D with
  | trajectory | target | control => exact ⟨⟨rfl, rfl, fun _ _ _ _ => rfl⟩, ⟨rfl, fun _ _ => rfl⟩, rfl, fun _ _ => rfl⟩
  | mixed => exact ⟨⟨rfl, rfl, fun _ _ _ _ => rfl⟩, ⟨rfl, rfl, fun _ _ _ _ => rfl⟩, ⟨rfl, fun _ _ => rfl⟩, rfl, fun _ _ => rfl⟩

theorem Cost.Same.det {d : Dims} {c c' : Cost K} (h : Cost.Same c c') (r : Cost.Pre d c) (r' : Cost.Pre d c') : Cost.Det d c c' := by
  apply Cost.determined r r'
  have : c'.userData = c.userData := by unfold Cost.userData; rw [h.kind, h.M, h.N, h.p, h.weights]
  rw [this]
  exact Spec.CostData.Eqv.refl _

variable [LinearOrder K] [IsStrictOrderedRing K]

namespace World

/-! ## C57 -/

/-- C57: the problem handed to the solver by an `LMPC` is a function of the declared data.  Two programs,
whatever happened in them before (other systems, other objects, removed and re-added elements, earlier solves
and their results, other contents of uninitialised memory), whose controllers now have the same system, the
same initial state and the same constraints and costs in the same order, hand the solver the same problem.
`hf`: see C27; `hb`: see C37; `hE`: see C11. -/
theorem c57_problem_determined {d : Dims} {dmax : K} {E1 E2 : World K → Op K → Prop} {w1 w2 w1' w2' : World K} {g1 g2 : Ghost}
    {env1 env2 : SolveEnv K} {b1 b2 : Bool} {q1 q2 : QP K} {p1 p2 : Nat}
    (h1 : Hist d dmax E1 w1 g1) (h2 : Hist d dmax E2 w2 g2)
    (hE1 : ∀ w op, E1 w op → NoBoundSpan w op) (hE2 : ∀ w op, E2 w op → NoBoundSpan w op)
    (o1 : OpOk d w1 g1 (.solve env1)) (o2 : OpOk d w2 g2 (.solve env2))
    (hp1 : w1.ctl.ps = some p1) (hp2 : w2.ctl.ps = some p2)
    (i1 : w1.ctl.isInit = false) (i2 : w2.ctl.isInit = false) (same : SameDeclared w1 p1 w2 p2)
    (f1 : CostsFresh d w1 g1) (f2 : CostsFresh d w2 g2)
    (c1 : w1.ctl.spBoundConstr = [] → g1.clean) (c2 : w2.ctl.spBoundConstr = [] → g2.clean)
    (s1 : w1.solve env1 = some (w1', b1, q1)) (s2 : w2.solve env2 = some (w2', b2, q2)) : QPEq q1 q2 := by
  have G1 := h1.good
  have G2 := h2.good
  obtain ⟨p, hp, S1⟩ := G1.solved o1.2 s1
  rw [hp1] at hp; cases hp
  obtain ⟨p, hp, S2⟩ := G2.solved o2.2 s2
  rw [hp2] at hp; cases hp
  have C1 := G1.canUpdate hp1
  have C2 := G2.canUpdate hp2
  have D : SameDet d w1 p1 w2 p2 := by
    refine ⟨same.A, same.B, same.bias, fun j hj => same.x0.2 j (by rw [C1.x0]; exact hj), ?_⟩
    exact (forall₂_mem same.cons).imp fun i j h => ⟨h.1, h.2.1,
      Constr.determined (C1.cons i h.1) (C2.cons j h.2.1) (h1.lines hE1 i) (h2.lines hE2 j) h.2.2⟩
  have s := sysEq S1.heap S2.heap D.A D.B D.bias D.x0
  have V1 := S1.entries G1 f1
  have V2 := S2.entries G2 f2
  have B := (D.eqs C1.part C2.part).2.2
  refine qp_eq_plain C1 C2 S1 S2 i1 i2 D ?_ ?_
  · refine (forall₂_mem same.costs).imp ?_
    rintro i j ⟨hi, hj, h⟩
    obtain ⟨e1, r1, u1⟩ := V1 i hi
    obtain ⟨e2, r2, u2⟩ := V2 j hj
    exact (Cost.determined r1.pre r2.pre (by rw [u1, u2]; exact h)).resEq s e1 e2
  · intro hl t ht
    have hl2 : w2.ctl.spBoundConstr = [] := by rw [hl] at B; exact List.forall₂_nil_left_iff.1 B
    have k1 := G1.clean (c1 hl) (by rw [hp1]; exact Option.some_ne_none _) t ht
    have k2 := G2.clean (c2 hl2) (by rw [hp2]; exact Option.some_ne_none _) t ht
    unfold off at k1 k2
    rw [i1] at k1; rw [i2] at k2
    simp only [Bool.false_eq_true, if_false, Nat.zero_add] at k1 k2
    rw [k1.1, k1.2, k2.1, k2.2]
    exact ⟨rfl, rfl⟩

/-- C57 for initial-state controllers. -/
theorem c57_problem_determined_init {d : Dims} {dmax : K} {E1 E2 : World K → Op K → Prop} {w1 w2 w1' w2' : World K} {g1 g2 : Ghost}
    {env1 env2 : SolveEnv K} {b1 b2 : Bool} {q1 q2 : QP K} {p1 p2 : Nat}
    (h1 : Hist d dmax E1 w1 g1) (h2 : Hist d dmax E2 w2 g2)
    (hE1 : ∀ w op, E1 w op → NoBoundSpan w op) (hE2 : ∀ w op, E2 w op → NoBoundSpan w op)
    (o1 : OpOk d w1 g1 (.solve env1)) (o2 : OpOk d w2 g2 (.solve env2))
    (hp1 : w1.ctl.ps = some p1) (hp2 : w2.ctl.ps = some p2)
    (i1 : w1.ctl.isInit = true) (i2 : w2.ctl.isInit = true) (same : SameDeclared w1 p1 w2 p2)
    (sameI : SameInitData d w1.ctl w2.ctl) (inv : SameInverse d env1 env2)
    (f1 : CostsFresh d w1 g1) (f2 : CostsFresh d w2 g2)
    (c1 : w1.ctl.spBoundConstr = [] → g1.clean) (c2 : w2.ctl.spBoundConstr = [] → g2.clean)
    (s1 : w1.solve env1 = some (w1', b1, q1)) (s2 : w2.solve env2 = some (w2', b2, q2)) : QPEq q1 q2 := by
  have G1 := h1.good
  have G2 := h2.good
  obtain ⟨p, hp, S1⟩ := G1.solved o1.2 s1
  rw [hp1] at hp; cases hp
  obtain ⟨p, hp, S2⟩ := G2.solved o2.2 s2
  rw [hp2] at hp; cases hp
  have C1 := G1.canUpdate hp1
  have C2 := G2.canUpdate hp2
  have D : SameDet d w1 p1 w2 p2 := by
    refine ⟨same.A, same.B, same.bias, fun j hj => same.x0.2 j (by rw [C1.x0]; exact hj), ?_⟩
    exact (forall₂_mem same.cons).imp fun i j h => ⟨h.1, h.2.1,
      Constr.determined (C1.cons i h.1) (C2.cons j h.2.1) (h1.lines hE1 i) (h2.lines hE2 j) h.2.2⟩
  have s := sysEq S1.heap S2.heap D.A D.B D.bias D.x0
  have V1 := S1.entries G1 f1
  have V2 := S2.entries G2 f2
  have B := (D.eqs C1.part C2.part).2.2
  refine qp_eq_init C1 C2 S1 S2 i1 i2 D ?_ ?_ ?_ inv (o1.2.init i1).2.2.2.2.2
  · refine (forall₂_mem same.costs).imp ?_
    rintro i j ⟨hi, hj, h⟩
    obtain ⟨e1, r1, u1⟩ := V1 i hi
    obtain ⟨e2, r2, u2⟩ := V2 j hj
    exact (Cost.determined r1.pre r2.pre (by rw [u1, u2]; exact h)).resEq s e1 e2
  · intro hl t ht
    have hl2 : w2.ctl.spBoundConstr = [] := by rw [hl] at B; exact List.forall₂_nil_left_iff.1 B
    have k1 := G1.clean (c1 hl) (by rw [hp1]; exact Option.some_ne_none _) t ht
    have k2 := G2.clean (c2 hl2) (by rw [hp2]; exact Option.some_ne_none _) t ht
    unfold off at k1 k2
    rw [i1] at k1; rw [i2] at k2
    simp only [if_true] at k1 k2
    rw [k1.1, k1.2, k2.1, k2.2]
    exact ⟨rfl, rfl⟩
  · intro a ha
    exact ⟨sameI.R a ha, sameI.r a ha, sameI.x0lb a ha, sameI.x0ub a ha⟩

theorem _root_.Copra.Spec.SameInitData.refl (d : Dims) (l : LMPC K) : SameInitData d l l :=
  ⟨fun _ _ _ _ => rfl, fun _ _ => rfl, fun _ _ => rfl, fun _ _ => rfl⟩

/-- C57 for either kind of controller. -/
theorem c57_problem_determined_any {d : Dims} {dmax : K} {E1 E2 : World K → Op K → Prop} {w1 w2 w1' w2' : World K} {g1 g2 : Ghost}
    {env1 env2 : SolveEnv K} {b1 b2 : Bool} {q1 q2 : QP K} {p1 p2 : Nat}
    (h1 : Hist d dmax E1 w1 g1) (h2 : Hist d dmax E2 w2 g2)
    (hE1 : ∀ w op, E1 w op → NoBoundSpan w op) (hE2 : ∀ w op, E2 w op → NoBoundSpan w op)
    (o1 : OpOk d w1 g1 (.solve env1)) (o2 : OpOk d w2 g2 (.solve env2))
    (hp1 : w1.ctl.ps = some p1) (hp2 : w2.ctl.ps = some p2)
    (hi : w2.ctl.isInit = w1.ctl.isInit) (same : SameDeclared w1 p1 w2 p2)
    (sameI : w1.ctl.isInit = true → SameInitData d w1.ctl w2.ctl) (inv : w1.ctl.isInit = true → SameInverse d env1 env2)
    (f1 : CostsFresh d w1 g1) (f2 : CostsFresh d w2 g2)
    (c1 : w1.ctl.spBoundConstr = [] → g1.clean) (c2 : w2.ctl.spBoundConstr = [] → g2.clean)
    (s1 : w1.solve env1 = some (w1', b1, q1)) (s2 : w2.solve env2 = some (w2', b2, q2)) : QPEq q1 q2 := by
  cases i1 : w1.ctl.isInit
  · exact c57_problem_determined h1 h2 hE1 hE2 o1 o2 hp1 hp2 i1 (hi.trans i1) same f1 f2 c1 c2 s1 s2
  · exact c57_problem_determined_init h1 h2 hE1 hE2 o1 o2 hp1 hp2 i1 (hi.trans i1) same (sameI i1) (inv i1) f1 f2 c1 c2 s1 s2

/-! ## C27 -/

theorem held_lists {w w' : World K} {g : Ghost} {d : Dims} {dmax : K} {env : SolveEnv K} {b : Bool} {q : QP K} (hg : Good d dmax w g)
    (hh : Held w) (hs : w.solve env = some (w', b, q)) :
    w'.ctl.spConstr = w.ctl.spConstr ∧ w'.ctl.spEqConstr = w.ctl.spEqConstr ∧ w'.ctl.spIneqConstr = w.ctl.spIneqConstr ∧
    w'.ctl.spBoundConstr = w.ctl.spBoundConstr ∧ w'.ctl.spCost = w.ctl.spCost := by
  obtain ⟨h1, h2, h3, h4, h5⟩ := (solve_frame hs).2
  obtain ⟨k1, k2, k3, k4, k5, _⟩ := LMPC.checkDelete_lists hg.part w.extCons w.extCosts
  have keep : ∀ {L : List Nat}, (∀ i ∈ L, i ∈ w.ctl.spConstr) →
      L.filter (fun i => decide (2 < w.extCons i + 2 * w.ctl.spConstr.count i)) = L := by
    intro L hL
    apply List.filter_eq_self.2
    intro i hi
    have a := hh.1 i (hL i hi)
    have b := List.count_pos_iff.2 (hL i hi)
    simp only [decide_eq_true_eq]
    omega
  refine ⟨?_, ?_, ?_, ?_, ?_⟩
  · rw [h1, k1]; exact keep fun i hi => hi
  · rw [h2, k2]; exact keep fun i hi => (mem_registered hg.part i).2 (Or.inl hi)
  · rw [h3, k3]; exact keep fun i hi => (mem_registered hg.part i).2 (Or.inr (Or.inl hi))
  · rw [h4, k4]; exact keep fun i hi => (mem_registered hg.part i).2 (Or.inr (Or.inr hi))
  · rw [h5, k5]
    apply List.filter_eq_self.2
    intro i hi
    have a := hh.2 i hi
    have b := List.count_pos_iff.2 hi
    simp only [decide_eq_true_eq]
    omega

/-- No registered cost is a per-step trajectory or mixed cost. -/
def NoPerStep (d : Dims) (w : World K) : Prop := ∀ i ∈ w.ctl.spCost, ¬ (w.costs i).userData.PerStepState d

/-- Two solves in a row. -/
theorem solve_twice {d : Dims} {dmax : K} {E : World K → Op K → Prop} {w w1 w2 : World K} {g : Ghost} {e1 e2 : SolveEnv K}
    {b1 b2 : Bool} {q1 q2 : QP K} (h : Hist d dmax E w g) (h' : Hist d dmax E w1 (g.next w True (.solve e1)))
    (o1 : OpOk d w g (.solve e1)) (o2 : OpOk d w1 (g.next w True (.solve e1)) (.solve e2)) (hh : Held w) (hn : NoPerStep d w)
    (hi : w.ctl.isInit = true → SameInverse d e1 e2)
    (s1 : w.solve e1 = some (w1, b1, q1)) (s2 : w1.solve e2 = some (w2, b2, q2)) : QPEq q1 q2 := by
  have G1 := h.good
  have G2 := h'.good
  obtain ⟨p, hp, S1⟩ := G1.solved o1.2 s1
  obtain ⟨F, L⟩ := solve_frame s1
  have hp' : w1.ctl.ps = some p := by rw [F.ps]; exact hp
  obtain ⟨p', hp2, S2⟩ := G2.solved o2.2 s2
  rw [hp'] at hp2; cases hp2
  have C1 := G1.canUpdate hp
  have C2 := G2.canUpdate hp'
  obtain ⟨l1, l2, l3, l4, l5⟩ := held_lists G1 hh s1
  have D : SameDet d w p w1 p := by
    refine ⟨S1.heap.A.symm, S1.heap.B.symm, S1.heap.bias.symm, fun j _ => by rw [S1.heap.x0], ?_⟩
    rw [l1]
    exact forall₂_self fun i hi => ⟨hi, hi, (S1.heap.frame i).det⟩
  have s := sysEq S1.heap S2.heap D.A D.B D.bias D.x0
  have hK : List.Forall₂ (fun i j => Cost.ResEq d (w1.costs i) (w2.costs j)) w.ctl.spCost w1.ctl.spCost := by
    rw [l5]
    refine forall₂_self fun i hi => ?_
    have r0 := G1.costReg i (G1.subK i hi)
    obtain ⟨r1, m1, e1⟩ := (S1.heap.costs i).1 hi
    obtain ⟨r2, m2, e2⟩ := (S2.heap.costs i).1 (by rw [l5]; exact hi)
    have na : ¬ Cost.Accumulates (w.costs i) := fun ha => hn i hi (r0.acc ha)
    have na1 : ¬ Cost.Accumulates (w1.costs i) := fun ha => na ((m1.acc).1 ha)
    exact (m2.det r1.pre r2.pre).resEq s (e1 (fun ha => absurd ha na) fun ha => absurd ha na)
      (e2 (fun ha => absurd ha na1) fun ha => absurd ha na1)
  cases hI : w.ctl.isInit
  · have hI' : w1.ctl.isInit = false := by rw [F.isInit]; exact hI
    refine qp_eq_plain C1 C2 S1 S2 hI hI' D hK ?_
    intro hl t _
    have A := (S1.plain hI).keep hl
    rw [S1.lb, S1.ub, A.1, A.2]
    exact ⟨rfl, rfl⟩
  · have hI' : w1.ctl.isInit = true := by rw [F.isInit]; exact hI
    refine qp_eq_init C1 C2 S1 S2 hI hI' D hK ?_ ?_ (hi hI) (o1.2.init hI).2.2.2.2.2
    · intro hl t ht
      have A := (S1.init hI).keep hl t ht
      rw [S1.lb, S1.ub, A.1, A.2]
      exact ⟨rfl, rfl⟩
    · intro a _
      rw [F.R, F.r, F.x0lb, F.x0ub]
      exact ⟨fun _ _ => rfl, rfl, rfl, rfl⟩

/-- A solver and an `inverse()` that meet their contract whatever the state of the controller. -/
theorem contract_next {d : Dims} {w w1 : World K} {e e' : SolveEnv K} {b : Bool} {q : QP K} {p : Nat} (F : SolveFrame w w1)
    (S : Solved d p e w w1 b q) (h : SolveContract d e' w.ctl) : SolveContract d e' w1.ctl := by
  have hn : numVars d w1.ctl = numVars d w.ctl := by unfold numVars; rw [F.isInit]
  refine ⟨?_, ?_, ?_⟩
  · obtain ⟨s, _, hs⟩ := S.sol
    rw [hs]; exact Option.some_ne_none _
  · intro q hq; rw [hn] at hq; exact h.answer q hq
  · intro hi
    rw [F.isInit] at hi
    rw [F.R, F.r, F.x0lb, F.x0ub]
    exact h.init hi

/-- C27 (partial): solving any number of times in a row hands the solver the same problem every time, as long
as the registered objects are also held outside the controller (so that nothing is dropped, C39) and no
registered cost is a per-step trajectory or mixed cost.  Missing: those costs add themselves to what they
computed in earlier solves (`c27_false`). -/
theorem c27_same_problem_partial {d : Dims} {dmax : K} {w : World K} {g : Ghost} {es : List (SolveEnv K)}
    (h : Hist d dmax AnyOp w g) (hp : w.ctl.ps ≠ none) (hc : ∀ e ∈ es, SolveContract d e w.ctl) (hh : Held w) (hn : NoPerStep d w)
    (hi : w.ctl.isInit = true → ∀ e ∈ es, ∀ e' ∈ es, SameInverse d e e') :
    ∃ w' qs, solveSeq w es = some (w', qs) ∧ qs.length = es.length ∧ ∀ q ∈ qs, ∀ q' ∈ qs, QPEq q q' := by
  suffices H : ∃ w' qs, solveSeq w es = some (w', qs) ∧ qs.length = es.length ∧ ∀ q ∈ qs.head?, ∀ q' ∈ qs, QPEq q q' by
    obtain ⟨w', qs, h1, h2, h3⟩ := H
    refine ⟨w', qs, h1, h2, ?_⟩
    cases qs with
    | nil => intro q hq; cases hq
    | cons a t => intro q hq q' hq'; exact QPEq.trans (QPEq.symm (h3 a rfl q hq)) (h3 a rfl q' hq')
  induction es generalizing w g with
  | nil => exact ⟨w, [], rfl, rfl, fun q hq => by cases hq⟩
  | cons e es ih =>
    have o : OpOk d w g (.solve e) := ⟨hp, hc e List.mem_cons_self⟩
    have G := h.good
    obtain ⟨w1, b, q, hs, hst, _⟩ := c50_solve_defined h o
    have h1 : Hist d dmax AnyOp w1 (g.next w True (.solve e)) := .ok h o trivial hst
    obtain ⟨p, hpp, S⟩ := G.solved o.2 hs
    obtain ⟨F, _⟩ := solve_frame hs
    obtain ⟨l1, l2, l3, l4, l5⟩ := held_lists G hh hs
    have hp1 : w1.ctl.ps ≠ none := by rw [F.ps]; exact hp
    have hc1 : ∀ e' ∈ es, SolveContract d e' w1.ctl := fun e' he' => contract_next F S (hc e' (List.mem_cons_of_mem _ he'))
    have hh1 : Held w1 := by
      refine ⟨?_, ?_⟩
      · rw [l1, S.heap.extCons]; exact hh.1
      · rw [l5, S.heap.extCosts]; exact hh.2
    have hn1 : NoPerStep d w1 := by
      intro i hi
      rw [l5] at hi
      have := S.heap.same i
      have hu : (w1.costs i).userData = (w.costs i).userData := by
        unfold Cost.userData; rw [this.kind, this.M, this.N, this.p, this.weights]
      rw [hu]; exact hn i hi
    obtain ⟨w', qs, k1, k2, k3⟩ := ih h1 hp1 hc1 hh1 hn1 (by
      intro hi' e' he' e'' he''
      rw [F.isInit] at hi'
      exact hi hi' e' (List.mem_cons_of_mem _ he') e'' (List.mem_cons_of_mem _ he''))
    refine ⟨w', q :: qs, ?_, ?_, ?_⟩
    · simp only [solveSeq, hs, k1, Option.bind_eq_bind, Option.bind_some, Option.pure_def]
    · simp [k2]
    · intro a ha q' hq'
      simp only [List.head?_cons, Option.mem_def, Option.some.injEq] at ha
      subst ha
      rcases List.mem_cons.1 hq' with rfl | hq'
      · exact QPEq.refl _
      · cases es with
        | nil =>
          simp only [solveSeq, Option.some.injEq, Prod.mk.injEq] at k1
          rw [← k1.2] at hq'; cases hq'
        | cons e2 es =>
          have o2 : OpOk d w1 (g.next w True (.solve e)) (.solve e2) := ⟨hp1, hc1 e2 List.mem_cons_self⟩
          obtain ⟨w2, b2, q2, hs2, _⟩ := c50_solve_defined h1 o2
          have tw := solve_twice h h1 o o2 hh hn (fun hi' => hi hi' e List.mem_cons_self e2
            (List.mem_cons_of_mem _ List.mem_cons_self)) hs hs2
          simp only [solveSeq, hs2, Option.bind_eq_bind, Option.bind_some, Option.pure_def, Option.bind_eq_some_iff] at k1
          obtain ⟨⟨w3, qs3⟩, k1, k4⟩ := k1
          simp only [Option.some.injEq, Prod.mk.injEq] at k4
          rw [← k4.2] at hq' k3
          exact QPEq.trans tw (k3 q2 rfl q' hq')

end World
end Copra
