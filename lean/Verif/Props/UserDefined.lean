import Verif.Proofs.UserQP
import Verif.Props.InitState

/-! # Property C91: user-defined constraint and cost classes -/

namespace Copra
open Spec

set_option linter.unusedSectionVars false
set_option linter.unusedSimpArgs false

section
variable {K S : Type} [Field K] [LinearOrder K] [IsStrictOrderedRing K]

namespace UWorld

theorem _root_.Copra.Spec.WithoutUser.traj {X : UWorld K S} {w : World K} (W : WithoutUser X w) (d : Dims) (p : Nat) (U : Nat → K) :
    Spec.traj d w p U = Spec.traj d X.world p U := by
  unfold Spec.traj; rw [W.pss]

theorem _root_.Copra.Spec.WithoutUser.trajFrom {X : UWorld K S} {w : World K} (W : WithoutUser X w) (d : Dims) (p : Nat) (x U : Nat → K) :
    Spec.trajFrom d w p x U = Spec.trajFrom d X.world p x U := by
  unfold Spec.trajFrom; rw [W.pss]

theorem _root_.Copra.Spec.WithoutUser.mem {X : UWorld K S} {w : World K} (W : WithoutUser X w) (i : Nat) :
    i ∈ w.ctl.spConstr ↔ i ∈ X.world.ctl.spConstr ∧ X.consClass i = none := by
  rw [W.ctl.spConstr, List.mem_filter, Option.isNone_iff_eq_none]

/-- The type of a registered user-defined constraint is the one its class tells. -/
theorem Inv.type {X : UWorld K S} (I : X.Inv) {i : Nat} {C : ConstrClass K S} (hC : X.consClass i = some C)
    (hi : i ∈ X.world.ctl.spConstr) :
    (i ∈ X.world.ctl.spEqConstr ↔ C.flag = .equality) ∧ (i ∈ X.world.ctl.spIneqConstr ↔ C.flag = .inequality) := by
  obtain ⟨k, t⟩ := I.ident i C hC
  rw [I.part.eq, I.part.ineq]
  simp only [List.mem_filter, decide_eq_true_eq, hi, true_and]
  unfold Constr.constraintType
  rw [k]
  rcases I.flags i hi C hC with f | f <;> rw [f] at t ⊢ <;> simp [t]

variable {d : Dims} {dmax : K} {X X' : UWorld K S} {g gw : Ghost} {w w' : World K} {env : SolveEnv K} {b : Bool} {q q' : QP K}
  {p : Nat}

/-- The system, the sizes and the objects of the library after a solve. -/
theorem Both.sizes (B : Both d p env X w X' w' b q q') (hconf : Conforming d X) {i : Nat} {C : ConstrClass K S}
    (hC : X.consClass i = some C) (hi : i ∈ X.world.ctl.spConstr) : Constr.RowSizes d (X'.world.cons i) := by
  have Sh : SysShape d (X'.world.pss p) := by rw [← B.without.pss]; exact B.solved.heap.sys.dims.toSysShape
  exact (hconf.1 i hi C hC).sizes Sh.xDim Sh.fullU (List.count_pos_iff.2 hi) rfl (B.user.cons i C hC)

/-- The rows of the problem with user-defined objects: those of the problem without them, and theirs. -/
theorem stack_split {L : List Nat} {lc : Nat → Bool} {cons cw : Nat → Constr K} {F : Constr K → Nat → Nat → K}
    {G : Constr K → Nat → Ext K} {wd : Nat} {A A' : Mat K} {bb bb' : Vec (Ext K)}
    (h : Stack L (fun i => (cons i).nrConstr) (fun i => F (cons i)) (fun i => G (cons i)) wd A bb)
    (h' : Stack (L.filter lc) (fun i => (cw i).nrConstr) (fun i => F (cw i)) (fun i => G (cw i)) wd A' bb')
    (hc : ∀ i, lc i = true → cw i = cons i) (R : K → Ext K → Prop) (x : Nat → K) :
    (∀ t < A.rows, R (rowValue A x t) (bb.e t)) ↔
      (∀ t < A'.rows, R (rowValue A' x t) (bb'.e t)) ∧
      ∀ i ∈ L, lc i = false → ∀ r < (cons i).nrConstr, R (∑ j ∈ Finset.range wd, F (cons i) r j * x j) (G (cons i) r) := by
  rw [h.forall R x, h'.forall R x]
  constructor
  · intro H
    refine ⟨fun i hi => ?_, fun i hi _ => H i hi⟩
    rw [List.mem_filter] at hi
    rw [hc i hi.2]
    exact H i hi.1
  · rintro ⟨h1, h2⟩ i hi
    cases hl : lc i
    · exact h2 i hi hl
    · have := h1 i (List.mem_filter.2 ⟨hi, hl⟩)
      rw [hc i hl] at this
      exact this

theorem Both.lib (B : Both d p env X w X' w' b q q') : ∀ i, (X.consClass i).isNone = true → w'.cons i = X'.world.cons i := by
  intro i hi
  apply B.without.cons
  rw [B.user.consClass]
  exact Option.isNone_iff_eq_none.1 hi

theorem Both.feasible (P : Projects d dmax X g w gw) (hconf : Conforming d X) (B : Both d p env X w X' w' b q q')
    (hi : X.world.ctl.isInit = false) (U : Nat → K) :
    Feasible q U ↔ Feasible q' U ∧
      ∀ i ∈ X.world.ctl.spConstr, ∀ C, X.consClass i = some C → Rows.Holds C.flag (constrObj X' i).1 U := by
  have A := B.plain hi
  have A' := B.solved.plain (P.without.ctl.isInit.trans hi)
  have Aeq' := A'.eq
  have Ain' := A'.ineq
  rw [P.without.ctl.spEqConstr] at Aeq'
  rw [P.without.ctl.spIneqConstr] at Ain'
  have e1 := stack_split (F := fun c => c.A.e) (G := fun c => c.b.e) A.eq Aeq' B.lib (fun a b => Ext.fin a = b) U
  have e2 := stack_split (F := fun c => c.A.e) (G := fun c => c.b.e) A.ineq Ain' B.lib (fun a b => Ext.fin a ≤ b) U
  have reg := World.mem_registered P.inv.part
  have key : ((∀ i ∈ X.world.ctl.spEqConstr, (X.consClass i).isNone = false → ∀ r < (X'.world.cons i).nrConstr,
        Ext.fin (∑ j ∈ Finset.range (d.m * d.N), (X'.world.cons i).A.e r j * U j) = (X'.world.cons i).b.e r) ∧
      (∀ i ∈ X.world.ctl.spIneqConstr, (X.consClass i).isNone = false → ∀ r < (X'.world.cons i).nrConstr,
        Ext.fin (∑ j ∈ Finset.range (d.m * d.N), (X'.world.cons i).A.e r j * U j) ≤ (X'.world.cons i).b.e r)) ↔
      ∀ i ∈ X.world.ctl.spConstr, ∀ C, X.consClass i = some C → Rows.Holds C.flag (constrObj X' i).1 U := by
    have hold : ∀ i ∈ X.world.ctl.spConstr, ∀ C, X.consClass i = some C → (Rows.Holds C.flag (constrObj X' i).1 U ↔
        ∀ t < (X'.world.cons i).nrConstr,
          (C.flag = .equality → Ext.fin (∑ j ∈ Finset.range (d.m * d.N), (X'.world.cons i).A.e t j * U j) = (X'.world.cons i).b.e t) ∧
          (C.flag = .inequality → Ext.fin (∑ j ∈ Finset.range (d.m * d.N), (X'.world.cons i).A.e t j * U j) ≤ (X'.world.cons i).b.e t)) := by
      intro i hi C hC
      unfold Rows.Holds rowValue constrObj Constr.inheritedRows
      simp only [(B.sizes hconf hC hi).Ac]
    constructor
    · rintro ⟨h1, h2⟩ i hi C hC
      rw [hold i hi C hC]
      have hn : (X.consClass i).isNone = false := by rw [hC]; rfl
      obtain ⟨t1, t2⟩ := P.inv.type hC hi
      intro t ht
      exact ⟨fun f => h1 i (t1.2 f) hn t ht, fun f => h2 i (t2.2 f) hn t ht⟩
    · intro H
      constructor
      · intro i hi hn t ht
        obtain ⟨C, hC⟩ := Option.isSome_iff_exists.1 (by rw [← Option.not_isNone, hn]; rfl)
        have hm := (reg i).2 (Or.inl hi)
        exact ((hold i hm C hC).1 (H i hm C hC) t ht).1 ((P.inv.type hC hm).1.1 hi)
      · intro i hi hn t ht
        obtain ⟨C, hC⟩ := Option.isSome_iff_exists.1 (by rw [← Option.not_isNone, hn]; rfl)
        have hm := (reg i).2 (Or.inr (Or.inl hi))
        exact ((hold i hm C hC).1 (H i hm C hC) t ht).2 ((P.inv.type hC hm).2.1 hi)
  unfold Feasible
  rw [e1, e2, B.lb, B.ub, ← key]
  tauto

theorem Both.feasibleInit (P : Projects d dmax X g w gw) (hconf : Conforming d X) (B : Both d p env X w X' w' b q q')
    (hi : X.world.ctl.isInit = true) (x U : Nat → K) :
    Feasible q (joined d x U) ↔ Feasible q' (joined d x U) ∧
      ∀ i ∈ X.world.ctl.spConstr, ∀ C, X.consClass i = some C → Rows.HoldsFrom C.flag (constrObj X' i).1 x U := by
  have A := B.init hi
  have A' := B.solved.init (P.without.ctl.isInit.trans hi)
  have Aeq' := A'.eq
  have Ain' := A'.ineq
  rw [P.without.ctl.spEqConstr] at Aeq'
  rw [P.without.ctl.spIneqConstr] at Ain'
  have e1 := stack_split (F := fun c r j => if j < d.n then c.Y.e r j else c.A.e r (j - d.n)) (G := fun c => c.z.e)
    A.eq Aeq' B.lib (fun a b => Ext.fin a = b) (joined d x U)
  have e2 := stack_split (F := fun c r j => if j < d.n then c.Y.e r j else c.A.e r (j - d.n)) (G := fun c => c.z.e)
    A.ineq Ain' B.lib (fun a b => Ext.fin a ≤ b) (joined d x U)
  have row : ∀ c : Constr K, ∀ r, ∑ j ∈ Finset.range (d.n + d.m * d.N), (if j < d.n then c.Y.e r j else c.A.e r (j - d.n)) * joined d x U j
      = (∑ j ∈ Finset.range d.n, c.Y.e r j * x j) + ∑ j ∈ Finset.range (d.m * d.N), c.A.e r j * U j := by
    intro c r
    exact sum_joined (fun j => c.Y.e r j) (fun j => c.A.e r j) x U
  simp only [row] at e1 e2
  have reg := World.mem_registered P.inv.part
  have key : ((∀ i ∈ X.world.ctl.spEqConstr, (X.consClass i).isNone = false → ∀ r < (X'.world.cons i).nrConstr,
        Ext.fin ((∑ j ∈ Finset.range d.n, (X'.world.cons i).Y.e r j * x j)
          + ∑ j ∈ Finset.range (d.m * d.N), (X'.world.cons i).A.e r j * U j) = (X'.world.cons i).z.e r) ∧
      (∀ i ∈ X.world.ctl.spIneqConstr, (X.consClass i).isNone = false → ∀ r < (X'.world.cons i).nrConstr,
        Ext.fin ((∑ j ∈ Finset.range d.n, (X'.world.cons i).Y.e r j * x j)
          + ∑ j ∈ Finset.range (d.m * d.N), (X'.world.cons i).A.e r j * U j) ≤ (X'.world.cons i).z.e r)) ↔
      ∀ i ∈ X.world.ctl.spConstr, ∀ C, X.consClass i = some C → Rows.HoldsFrom C.flag (constrObj X' i).1 x U := by
    have hold : ∀ i ∈ X.world.ctl.spConstr, ∀ C, X.consClass i = some C → (Rows.HoldsFrom C.flag (constrObj X' i).1 x U ↔
        ∀ t < (X'.world.cons i).nrConstr,
          (C.flag = .equality → Ext.fin ((∑ j ∈ Finset.range d.n, (X'.world.cons i).Y.e t j * x j)
            + ∑ j ∈ Finset.range (d.m * d.N), (X'.world.cons i).A.e t j * U j) = (X'.world.cons i).z.e t) ∧
          (C.flag = .inequality → Ext.fin ((∑ j ∈ Finset.range d.n, (X'.world.cons i).Y.e t j * x j)
            + ∑ j ∈ Finset.range (d.m * d.N), (X'.world.cons i).A.e t j * U j) ≤ (X'.world.cons i).z.e t)) := by
      intro i hi C hC
      unfold Rows.HoldsFrom rowValue constrObj Constr.inheritedRows
      simp only [(B.sizes hconf hC hi).Ac, (B.sizes hconf hC hi).Yc]
    constructor
    · rintro ⟨h1, h2⟩ i hi C hC
      rw [hold i hi C hC]
      have hn : (X.consClass i).isNone = false := by rw [hC]; rfl
      obtain ⟨t1, t2⟩ := P.inv.type hC hi
      intro t ht
      exact ⟨fun f => h1 i (t1.2 f) hn t ht, fun f => h2 i (t2.2 f) hn t ht⟩
    · intro H
      constructor
      · intro i hi hn t ht
        obtain ⟨C, hC⟩ := Option.isSome_iff_exists.1 (by rw [← Option.not_isNone, hn]; rfl)
        have hm := (reg i).2 (Or.inl hi)
        exact ((hold i hm C hC).1 (H i hm C hC) t ht).1 ((P.inv.type hC hm).1.1 hi)
      · intro i hi hn t ht
        obtain ⟨C, hC⟩ := Option.isSome_iff_exists.1 (by rw [← Option.not_isNone, hn]; rfl)
        have hm := (reg i).2 (Or.inr (Or.inl hi))
        exact ((hold i hm C hC).1 (H i hm C hC) t ht).2 ((P.inv.type hC hm).2.1 hi)
  unfold Feasible
  rw [e1, e2, B.lb, B.ub, ← key]
  tauto

/-! ## The claims -/

/-- C91, the rest of the program: whatever user-defined objects a program has (whatever their functions do to them), the
library's systems, objects and controller are at every moment those of a program that does not have them. -/
theorem c91_undisturbed (h : UHist d dmax X g) :
    ∃ w gw, Beside d dmax X g w gw ∧ Hist d dmax NoBoundSpan w gw ∧ WithoutUser X w := by
  obtain ⟨w, gw, P, B⟩ := projects h
  exact ⟨w, gw, B, P.hist, P.without⟩

/-- C91, what a solve does to user-defined objects: it calls `update` of each, once for each time it is registered, with
the up-to-date system. -/
theorem c91_updated (h : UHist d dmax X g) (hconf : Conforming d X) (ho : UOk d X g (.api (.solve env)))
    (hs : X.solve env = some (X', b, q)) (hp : X.world.ctl.ps = some p) :
    (∀ i C, X.consClass i = some C →
      ConstrClass.Updates C (X'.world.pss p) (X.world.ctl.spConstr.count i) (constrObj X i) (constrObj X' i)) ∧
    (∀ i C, X.costClass i = some C →
      CostClass.Updates C (X'.world.pss p) (X.world.ctl.spCost.count i) (costObj X i) (costObj X' i)) ∧
    (X'.world.pss p).isUpdated = true ∧ (X'.world.pss p).A = (X.world.pss p).A ∧ (X'.world.pss p).B = (X.world.pss p).B ∧
    (X'.world.pss p).d = (X.world.pss p).d ∧ (X'.world.pss p).x0 = (X.world.pss p).x0 := by
  obtain ⟨w, gw, P, _⟩ := projects h
  obtain ⟨p', w', q', B⟩ := both P hconf ho.1 hs
  have := B.ps; rw [hp] at this; cases this
  have H := B.solved.heap
  rw [← B.without.pss, ← P.without.pss]
  refine ⟨?_, ?_, H.upd, H.A, H.B, H.bias, H.x0⟩
  · rw [B.without.pss]; exact B.user.cons
  · rw [B.without.pss]; exact B.user.costs

theorem solve_ok_lib (P : Projects d dmax X g w gw) (B : Both d p env X w X' w' b q q') :
    OpOk d w gw (.solve { env with answer := fun _ => env.answer q }) := by
  refine ⟨?_, B.contract⟩
  rw [P.without.ctl.ps, B.ps]; exact Option.some_ne_none _

/-- C91, the constraints of an `LMPC`: the problem handed to the solver imposes the registered constraints of the library
as declared (C30) and the rows of the registered user-defined ones, and nothing else. -/
theorem c91_feasible (h : UHist d dmax X g) (hconf : Conforming d X) (ho : UOk d X g (.api (.solve env)))
    (hi : X.world.ctl.isInit = false) (hb : X.world.ctl.spBoundConstr = [] → g.clean)
    (hh : ∀ i ∈ X.world.ctl.spConstr, X.consClass i = none → (X.world.cons i).userData.Honest)
    (hs : X.solve env = some (X', b, q)) (hp : X.world.ctl.ps = some p) (U : Nat → K) :
    Feasible q U ↔ AllHold d X X' p U ∧
      (X.world.ctl.spBoundConstr = [] → ∀ j < d.m * d.N, -dmax ≤ U j ∧ U j ≤ dmax) := by
  obtain ⟨w, gw, P, _⟩ := projects h
  obtain ⟨p', w', q', B⟩ := both P hconf ho.1 hs
  have := B.ps; rw [hp] at this; cases this
  have bs := bound_same P.without P.inv
  rw [B.feasible P hconf hi, World.c30_feasible_set P.hist (fun _ _ h => h) (solve_ok_lib P B) (P.without.ctl.isInit.trans hi)
    (by rw [bs]; exact fun h => P.ghost.clean.2 (hb h))
    (by intro i hm; obtain ⟨a, c⟩ := (P.without.mem i).1 hm; rw [P.without.cons i c]; exact hh i a c)
    B.solve (P.without.ctl.ps.trans hp) U, bs, P.without.traj]
  unfold AllHold
  constructor
  · rintro ⟨⟨h1, h2⟩, h3⟩
    refine ⟨fun i hm => ?_, h2⟩
    cases hC : X.consClass i with
    | none => have := h1 i ((P.without.mem i).2 ⟨hm, hC⟩); rw [P.without.cons i hC] at this; exact this
    | some C => exact h3 i hm C hC
  · rintro ⟨h1, h2⟩
    refine ⟨⟨fun i hm => ?_, h2⟩, fun i hm C hC => ?_⟩
    · obtain ⟨a, c⟩ := (P.without.mem i).1 hm
      have := h1 i a; rw [c] at this; rw [P.without.cons i c]; exact this
    · have := h1 i hm; rw [hC] at this; exact this

/-- C91, the constraints of an `InitialStateLMPC`. -/
theorem c91_feasible_from (h : UHist d dmax X g) (hconf : Conforming d X) (ho : UOk d X g (.api (.solve env)))
    (hi : X.world.ctl.isInit = true) (hb : X.world.ctl.spBoundConstr = [] → g.clean)
    (hh : ∀ i ∈ X.world.ctl.spConstr, X.consClass i = none → (X.world.cons i).userData.Honest)
    (hs : X.solve env = some (X', b, q)) (hp : X.world.ctl.ps = some p) (x U : Nat → K) :
    Feasible q (joined d x U) ↔ AllHoldFrom d X X' p x U ∧ InitBounds d X.world.ctl x ∧
      (X.world.ctl.spBoundConstr = [] → ∀ j < d.m * d.N, -dmax ≤ U j ∧ U j ≤ dmax) := by
  obtain ⟨w, gw, P, _⟩ := projects h
  obtain ⟨p', w', q', B⟩ := both P hconf ho.1 hs
  have := B.ps; rw [hp] at this; cases this
  have bs := bound_same P.without P.inv
  have ib : InitBounds d w.ctl x ↔ InitBounds d X.world.ctl x := by
    unfold InitBounds; rw [P.without.ctl.x0lb, P.without.ctl.x0ub]
  rw [B.feasibleInit P hconf hi, World.c44_joint_feasible P.hist (fun _ _ h => h) (solve_ok_lib P B) (P.without.ctl.isInit.trans hi)
    (by rw [bs]; exact fun h => P.ghost.clean.2 (hb h))
    (by intro i hm; obtain ⟨a, c⟩ := (P.without.mem i).1 hm; rw [P.without.cons i c]; exact hh i a c)
    B.solve (P.without.ctl.ps.trans hp) x U, bs, P.without.trajFrom, ib]
  unfold AllHoldFrom
  constructor
  · rintro ⟨⟨h1, h2⟩, h3⟩
    refine ⟨fun i hm => ?_, h2⟩
    cases hC : X.consClass i with
    | none => have := h1 i ((P.without.mem i).2 ⟨hm, hC⟩); rw [P.without.cons i hC] at this; exact this
    | some C => exact h3 i hm C hC
  · rintro ⟨h1, h2⟩
    refine ⟨⟨fun i hm => ?_, h2⟩, fun i hm C hC => ?_⟩
    · obtain ⟨a, c⟩ := (P.without.mem i).1 hm
      have := h1 i a; rw [c] at this; rw [P.without.cons i c]; exact this
    · have := h1 i hm; rw [hC] at this; exact this

/-! ### Costs -/

theorem sum_split {L : List Nat} {lk : Nat → Bool} {f : Nat → K} :
    (L.map f).sum = ((L.filter lk).map f).sum + ((L.filter fun i => !lk i).map f).sum := by
  induction L with
  | nil => simp
  | cons a L ih =>
    cases h : lk a
    · simp only [List.map_cons, List.sum_cons, ih, List.filter_cons, h, Bool.false_eq_true, if_false, Bool.not_false, if_true]; ring
    · simp only [List.map_cons, List.sum_cons, ih, List.filter_cons, h, Bool.not_true, Bool.false_eq_true, if_false, if_true]; ring

theorem sum_filter_congr {L : List Nat} {lk : Nat → Bool} {f f' : Nat → K} (h : ∀ i ∈ L, lk i = true → f i = f' i) :
    ((L.filter lk).map f).sum = ((L.filter lk).map f').sum := by
  congr 1
  apply List.map_congr_left
  intro i hi
  rw [List.mem_filter] at hi
  exact h i hi.1 hi.2

theorem Both.libCost (B : Both d p env X w X' w' b q q') : ∀ i, (X.costClass i).isNone = true → w'.costs i = X'.world.costs i := by
  intro i hi
  apply B.without.costs
  rw [B.user.costClass]
  exact Option.isNone_iff_eq_none.1 hi

theorem fresh_lib (P : Projects d dmax X g w gw)
    (hf : ∀ i ∈ X.world.ctl.spCost, X.costClass i = none → (X.world.costs i).userData.PerStepState d →
      g.fresh i ∧ X.world.ctl.spCost.count i = 1) : World.CostsFresh d w gw := by
  intro i hm ha
  rw [P.without.ctl.spCost, List.mem_filter] at hm
  have hn := Option.isNone_iff_eq_none.1 hm.2
  rw [P.without.costs i hn] at ha
  obtain ⟨a, c⟩ := hf i hm.1 hn ha
  refine ⟨(P.ghost.fresh i hn).2 a, ?_⟩
  rw [P.without.ctl.spCost, List.count_filter (by exact hm.2)]
  exact c

/-- C91, the objective of an `LMPC`: half the declared costs of the library (C32) plus the quadratic forms of the
registered user-defined costs plus the regularisation, up to a constant. -/
theorem c91_objective (h : UHist d dmax X g) (hconf : Conforming d X) (ho : UOk d X g (.api (.solve env)))
    (hi : X.world.ctl.isInit = false)
    (hf : ∀ i ∈ X.world.ctl.spCost, X.costClass i = none → (X.world.costs i).userData.PerStepState d →
      g.fresh i ∧ X.world.ctl.spCost.count i = 1)
    (hs : X.solve env = some (X', b, q)) (hp : X.world.ctl.ps = some p) :
    ∃ k : K, ∀ U : Nat → K, objective q U = totalWith d X X' p U + k := by
  obtain ⟨w, gw, P, _⟩ := projects h
  obtain ⟨p', w', q', B⟩ := both P hconf ho.1 hs
  have := B.ps; rw [hp] at this; cases this
  obtain ⟨k, hk⟩ := World.c32_objective P.hist (solve_ok_lib P B) (P.without.ctl.isInit.trans hi) (fresh_lib P hf) B.solve
    (P.without.ctl.ps.trans hp)
  refine ⟨k, fun U => ?_⟩
  have A := B.plain hi
  have A' := B.solved.plain (P.without.ctl.isInit.trans hi)
  have h1 : objective q U = (X.world.ctl.spCost.map fun i => quadValue (d.m * d.N) (X'.world.costs i).Q (X'.world.costs i).c U).sum
      + 1 / 2 * (1 / 1000000) * ∑ j ∈ Finset.range (d.m * d.N), U j ^ 2 := by
    unfold objective
    rw [A.cr, World.quadValue_sum (F := fun i => (X'.world.costs i).Q) (G := fun i => (X'.world.costs i).c) A.Q A.c U]
  have h2 : objective q' U = (w.ctl.spCost.map fun i => quadValue (d.m * d.N) (w'.costs i).Q (w'.costs i).c U).sum
      + 1 / 2 * (1 / 1000000) * ∑ j ∈ Finset.range (d.m * d.N), U j ^ 2 := by
    unfold objective
    rw [A'.cr, World.quadValue_sum (F := fun i => (w'.costs i).Q) (G := fun i => (w'.costs i).c) A'.Q A'.c U]
  have h3 := hk U
  rw [h2] at h3
  unfold World.totalCost at h3
  rw [World.list_sum_mul, P.without.ctl.spCost, P.without.traj] at h3
  rw [h1]
  unfold totalWith
  rw [sum_split (lk := fun i => (X.costClass i).isNone), sum_split (lk := fun i => (X.costClass i).isNone) (f := partOf d X X' p U)]
  have e1 : ((X.world.ctl.spCost.filter fun i => (X.costClass i).isNone).map fun i =>
      quadValue (d.m * d.N) (w'.costs i).Q (w'.costs i).c U).sum =
      ((X.world.ctl.spCost.filter fun i => (X.costClass i).isNone).map fun i =>
        quadValue (d.m * d.N) (X'.world.costs i).Q (X'.world.costs i).c U).sum :=
    sum_filter_congr fun i _ hn => by rw [B.libCost i hn]
  have e2 : ((X.world.ctl.spCost.filter fun i => (X.costClass i).isNone).map fun i =>
      1 / 2 * (w.costs i).userData.value d (traj d X.world p U) U).sum =
      ((X.world.ctl.spCost.filter fun i => (X.costClass i).isNone).map (partOf d X X' p U)).sum :=
    sum_filter_congr fun i _ hn => by
      have hn := Option.isNone_iff_eq_none.1 hn
      unfold partOf; rw [P.without.costs i hn, hn]
  have e3 : ((X.world.ctl.spCost.filter fun i => !(X.costClass i).isNone).map fun i =>
      quadValue (d.m * d.N) (X'.world.costs i).Q (X'.world.costs i).c U).sum =
      ((X.world.ctl.spCost.filter fun i => !(X.costClass i).isNone).map (partOf d X X' p U)).sum :=
    sum_filter_congr fun i _ hn => by
      obtain ⟨C, hC⟩ := Option.isSome_iff_exists.1 (by rw [← Option.not_isNone]; exact hn)
      unfold partOf; rw [hC]; rfl
  rw [e1, e2] at h3
  rw [e3]
  linarith

/-- C91, the objective of an `InitialStateLMPC` for each initial state (C58). -/
theorem c91_objective_from (h : UHist d dmax X g) (hconf : Conforming d X) (ho : UOk d X g (.api (.solve env)))
    (hi : X.world.ctl.isInit = true)
    (hf : ∀ i ∈ X.world.ctl.spCost, X.costClass i = none → (X.world.costs i).userData.PerStepState d →
      g.fresh i ∧ X.world.ctl.spCost.count i = 1)
    (hs : X.solve env = some (X', b, q)) (hp : X.world.ctl.ps = some p) (x : Nat → K) :
    ∃ k : K, ∀ U : Nat → K, objective q (joined d x U) = totalWithFrom d X X' p x U + k := by
  obtain ⟨w, gw, P, _⟩ := projects h
  obtain ⟨p', w', q', B⟩ := both P hconf ho.1 hs
  have := B.ps; rw [hp] at this; cases this
  obtain ⟨k, hk⟩ := World.c58_objective_per_state P.hist (solve_ok_lib P B) (P.without.ctl.isInit.trans hi) (fresh_lib P hf) B.solve
    (P.without.ctl.ps.trans hp) x
  have A := B.init hi
  have A' := B.solved.init (P.without.ctl.isInit.trans hi)
  have form : ∀ {L : List Nat} {costs : Nat → Cost K} {q : QP K}, q.c.rows = d.n + d.m * d.N →
      (∀ a < d.m * d.N, ∀ b < d.m * d.N, q.Q.e (d.n + a) (d.n + b) = (if a = b then 1 / 1000000 else 0)
        + (L.map fun i => (costs i).Q.e a b).sum) →
      (∀ a < d.n, ∀ b < d.m * d.N, q.Q.e a (d.n + b) = (L.map fun i => (costs i).E.e a b).sum) →
      (∀ a < d.n, ∀ b < d.m * d.N, q.Q.e (d.n + b) a = q.Q.e a (d.n + b)) →
      (∀ a < d.m * d.N, q.c.e (d.n + a) = (L.map fun i => (costs i).f.e a).sum) → ∀ U,
      objective q (joined d x U) = quadValue d.n q.Q q.c x +
        ((L.map fun i => Terms.valueFrom d (costs i).inheritedTerms x U).sum
          + 1 / 2 * (1 / 1000000) * ∑ j ∈ Finset.range (d.m * d.N), U j ^ 2) := by
    intro L costs q hc hUU hxU hUx hcU U
    unfold objective
    rw [hc, World.objective_joined (QU := ⟨d.m * d.N, d.m * d.N, fun a b => q.Q.e (d.n + a) (d.n + b)⟩)
      (cx := ⟨d.m * d.N, fun b => (∑ a ∈ Finset.range d.n, q.Q.e a (d.n + b) * x a) + q.c.e (d.n + b)⟩) rfl hUx
      (fun _ _ _ _ => rfl) (fun _ _ => rfl) U]
    congr 1
    rw [World.quadValue_sum (F := fun i => (costs i).Q)
      (G := fun i => ⟨d.m * d.N, fun b => (∑ a ∈ Finset.range d.n, (costs i).E.e a b * x a) + (costs i).f.e b⟩)
      (r := 1 / 1000000) hUU ?_ U]
    · rfl
    · intro b hb
      simp only
      rw [hcU b hb, World.list_sum_add]
      congr 1
      rw [← World.list_sum_comm]
      apply Finset.sum_congr rfl; intro a ha
      rw [hxU a (Finset.mem_range.1 ha) b hb, mul_comm, World.list_sum_mul]
      congr 1
      apply List.map_congr_left; intro i _; ring
  refine ⟨quadValue d.n q.Q q.c x + k - quadValue d.n q'.Q q'.c x, fun U => ?_⟩
  have h1 := form A.cr A.QUU A.QxU A.QUx A.cU U
  have h2 := form A'.cr A'.QUU A'.QxU A'.QUx A'.cU U
  have h3 := hk U
  rw [h2] at h3
  unfold totalCostFrom at h3
  rw [World.list_sum_mul, P.without.ctl.spCost, P.without.trajFrom] at h3
  rw [h1]
  unfold totalWithFrom
  rw [sum_split (lk := fun i => (X.costClass i).isNone), sum_split (lk := fun i => (X.costClass i).isNone) (f := partFrom d X X' p x U)]
  have e1 : ((X.world.ctl.spCost.filter fun i => (X.costClass i).isNone).map fun i =>
      Terms.valueFrom d (w'.costs i).inheritedTerms x U).sum =
      ((X.world.ctl.spCost.filter fun i => (X.costClass i).isNone).map fun i =>
        Terms.valueFrom d (X'.world.costs i).inheritedTerms x U).sum :=
    sum_filter_congr fun i _ hn => by rw [B.libCost i hn]
  have e2 : ((X.world.ctl.spCost.filter fun i => (X.costClass i).isNone).map fun i =>
      1 / 2 * (w.costs i).userData.value d (trajFrom d X.world p x U) U).sum =
      ((X.world.ctl.spCost.filter fun i => (X.costClass i).isNone).map (partFrom d X X' p x U)).sum :=
    sum_filter_congr fun i _ hn => by
      have hn := Option.isNone_iff_eq_none.1 hn
      unfold partFrom; rw [P.without.costs i hn, hn]
  have e3 : ((X.world.ctl.spCost.filter fun i => !(X.costClass i).isNone).map fun i =>
      Terms.valueFrom d (X'.world.costs i).inheritedTerms x U).sum =
      ((X.world.ctl.spCost.filter fun i => !(X.costClass i).isNone).map (partFrom d X X' p x U)).sum :=
    sum_filter_congr fun i _ hn => by
      obtain ⟨C, hC⟩ := Option.isSome_iff_exists.1 (by rw [← Option.not_isNone]; exact hn)
      unfold partFrom; rw [hC]; rfl
  rw [e1, e2] at h3
  rw [e3]
  linarith

end UWorld
end
end Copra
