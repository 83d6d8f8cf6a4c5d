import Verif.Proofs.HistInv

/-! # Properties C29, C30, C32-C34, C38, C40, C50-C52: the problem handed to the solver -/

namespace Copra
open Spec

set_option linter.unusedSectionVars false
set_option linter.unusedSimpArgs false

variable {K : Type} [Field K] [LinearOrder K] [IsStrictOrderedRing K]

/-- What a registered constraint imposes as built: like `Holds`, except that the finite lower entries of a
trajectory bound are imposed as upper bounds (the defect recorded under C17). -/
def Spec.ConstrData.AsBuilt (d : Dims) (X : Nat → Nat → K) (U : Nat → K) : ConstrData K → Prop
  | .trajBound l u => Constr.TrajBoundAsBuilt d l u X
  | D => D.Holds d X U

/-- Data on which copra does what the user declared: everything except trajectory bounds with a lower
entry other than `-infinity`. -/
def Spec.ConstrData.Honest : ConstrData K → Prop
  | .trajBound l _ => ∀ i < l.rows, l.e i = .ninf
  | _ => True

/-- The lower vector of a trajectory bound has one of the two documented lengths. -/
def Spec.ConstrData.BoundSize (d : Dims) : ConstrData K → Prop
  | .trajBound l _ => l.rows = d.n ∨ l.rows = d.n * (d.N + 1)
  | _ => True

theorem Spec.ConstrData.Honest.iff {d : Dims} {X : Nat → Nat → K} {U : Nat → K} {D : ConstrData K} (h : D.Honest)
    (hs : D.BoundSize d) : D.AsBuilt d X U ↔ D.Holds d X U := by
  cases D with
  | trajBound l u =>
    unfold ConstrData.AsBuilt Constr.TrajBoundAsBuilt ConstrData.Holds
    unfold ConstrData.Honest at h
    unfold ConstrData.BoundSize at hs
    by_cases hn : l.rows = d.n
    · simp only [if_pos hn]
      unfold TrajBoundStep
      constructor
      · intro H k hk r hr; rw [h r (by omega)]; exact ⟨trivial, (H k hk r hr).2⟩
      · intro H k hk r hr; rw [h r (by omega)]; exact ⟨fun h => absurd rfl h, (H k hk r hr).2⟩
    · simp only [if_neg hn]
      have hl : l.rows = d.n * (d.N + 1) := hs.resolve_left hn
      have hin : ∀ k ≤ d.N, ∀ r < d.n, l.e (k * d.n + r) = .ninf := fun k hk r hr =>
        h _ (by rw [hl]; exact blk_lt' (by omega) hr)
      unfold TrajBoundFull
      constructor
      · intro H k hk r hr; rw [hin k hk r hr]; exact ⟨trivial, (H k hk r hr).2⟩
      · intro H k hk r hr; rw [hin k hk r hr]; exact ⟨fun h => absurd rfl h, (H k hk r hr).2⟩
  | _ => exact Iff.rfl

theorem Constr.Reg.boundSize {d : Dims} {c : Constr K} (h : Constr.Reg d c) : c.userData.BoundSize d := by
  unfold Constr.Reg at h
  unfold Constr.userData
  cases hk : c.kind <;> rw [hk] at h <;> simp only at h ⊢
  case trajBound =>
    have D := h.dims
    unfold ConstrData.BoundSize
    split at D
    · exact Or.inr D.2
    · exact Or.inl D
  all_goals first | trivial | (split <;> trivial)

namespace World

/-! ## C50 -/

theorem Good.solve_defined {d : Dims} {dmax : K} {w : World K} {g : Ghost} {env : SolveEnv K}
    (hg : Good d dmax w g) (ho : OpOk d w g (.solve env)) :
    ∃ w' b q, w.solve env = some (w', b, q) ∧ w.step dmax (.solve env) = .ok w' ∧ WellSized q ∧
      q.nrVar = numVars d w.ctl := by
  obtain ⟨p, hp⟩ := Option.ne_none_iff_exists'.1 ho.1
  obtain ⟨w', b, q, e, S⟩ := solve_ok (hg.canUpdate hp) ho.2
  refine ⟨w', b, q, e, ?_, ?_, S.nrVar⟩
  · simp only [World.step, e, Option.map_some]; rfl
  · have hv := S.nrVar
    unfold numVars at hv
    cases hi : w.ctl.isInit
    · obtain ⟨a0, a1, a2, a3, a4, a5, a6, a7, a8, a9, a10, a11, a12, a13⟩ := S.plain hi
      rw [hi] at hv
      simp only [Bool.false_eq_true, if_false] at hv
      refine ⟨a3.trans hv.symm, a4.trans hv.symm, a0.symm, ?_, a8.cols.trans hv.symm, ?_, ?_, a9.cols.trans hv.symm, ?_,
        a10.trans hv.symm, a11.trans hv.symm⟩
      · rw [a8.rows, a1]
      · rw [a8.brows, a1]
      · rw [a9.rows, a2]
      · rw [a9.brows, a2]
    · have A := S.init hi
      rw [hi] at hv
      simp only [if_true] at hv
      refine ⟨A.Qr.trans hv.symm, A.Qc.trans hv.symm, A.nrVar.symm, ?_, A.eq.cols.trans hv.symm, ?_, ?_,
        A.ineq.cols.trans hv.symm, ?_, A.lbr.trans hv.symm, A.ubr.trans hv.symm⟩
      · rw [A.eq.rows, A.nrEq]
      · rw [A.eq.brows, A.nrEq]
      · rw [A.ineq.rows, A.nrIneq]
      · rw [A.ineq.brows, A.nrIneq]

/-- C50: in every history with fixed dimensions a solve is defined (every matrix access is in range), it
does not throw, and the problem handed to the solver has consistent dimensions. -/
theorem c50_solve_defined {d : Dims} {dmax : K} {E : World K → Op K → Prop} {w : World K} {g : Ghost} {env : SolveEnv K}
    (h : Hist d dmax E w g) (ho : OpOk d w g (.solve env)) :
    ∃ w' b q, w.solve env = some (w', b, q) ∧ w.step dmax (.solve env) = .ok w' ∧ WellSized q ∧
      q.nrVar = numVars d w.ctl :=
  h.good.solve_defined ho

/-! ## C30 -/

theorem mem_registered {cons : Nat → Constr K} {l : LMPC K} (h : LMPC.Partition cons l) (i : Nat) :
    i ∈ l.spConstr ↔ i ∈ l.spEqConstr ∨ i ∈ l.spIneqConstr ∨ i ∈ l.spBoundConstr := by
  rw [h.eq, h.ineq, h.bound]
  simp only [List.mem_filter, decide_eq_true_eq]
  constructor
  · intro hi
    cases hc : (cons i).constraintType
    · exact Or.inl ⟨hi, rfl⟩
    · exact Or.inr (Or.inl ⟨hi, rfl⟩)
    · exact Or.inr (Or.inr ⟨hi, rfl⟩)
  · rintro (h | h | h) <;> exact h.1

theorem Solved.traj {d : Dims} {p : Nat} {env : SolveEnv K} {w w' : World K} {b : Bool} {q : QP K}
    (S : Solved d p env w w' b q) (U : Nat → K) : traj d w' p U = traj d w p U := by
  unfold Spec.traj
  rw [S.heap.A, S.heap.B, S.heap.bias, S.heap.x0]

/-- The rows of the registered constraints after a solve. -/
theorem Solved.rows {d : Dims} {p : Nat} {env : SolveEnv K} {w w' : World K} {b : Bool} {q : QP K}
    (S : Solved d p env w w' b q) {i : Nat} (hi : i ∈ w.ctl.spConstr) (hk : (w.cons i).kind ≠ .ctrlBound) (U : Nat → K) :
    (∀ r < (w'.cons i).nrConstr, Rel (w.cons i).ineq
      (∑ j ∈ Finset.range (d.m * d.N), (w'.cons i).A.e r j * U j) ((w'.cons i).b.e r)) ↔
      (w.cons i).Sem d (Spec.traj d w p U) U := by
  obtain ⟨r, f, u⟩ := (S.heap.cons i).1 hi
  have hk' : (w'.cons i).kind ≠ .ctrlBound := by rw [f.kind]; exact hk
  have := Constr.update_rows hk' r S.heap.sys.dims.toSysShape S.heap.pred (u.rows hk') U
  have hq : (w'.cons i).ineq = (w.cons i).ineq := by
    unfold Constr.ineq; rw [f.kind, f.isIneq]
  rw [hq] at this
  rw [this, f.sem, ← S.traj]
  rfl

/-- The bounds of a registered control bound after a solve. -/
theorem Solved.bounds {d : Dims} {p : Nat} {env : SolveEnv K} {w w' : World K} {b : Bool} {q : QP K}
    (S : Solved d p env w w' b q) {i : Nat} (hi : i ∈ w.ctl.spConstr) (hk : (w.cons i).kind = .ctrlBound)
    (X : Nat → Nat → K) (U : Nat → K) :
    (w'.cons i).BoundsHold d U ↔ (w.cons i).userData.Holds d X U := by
  obtain ⟨r, f, u⟩ := (S.heap.cons i).1 hi
  have hk' : (w'.cons i).kind = .ctrlBound := by rw [f.kind]; exact hk
  unfold Constr.Reg at r
  rw [hk'] at r
  rw [Constr.bounds_sem hk' r (Constr.Frame.refl _) (u.bounds hk') X U, f.userData]

/-- The bounds of a registered control bound after a solve, whatever the prediction
matrices contained. -/
theorem SolvedRaw.bounds {d : Dims} {p : Nat} {env : SolveEnv K} {w w' : World K} {b : Bool} {q : QP K}
    (S : SolvedRaw d p env w w' b q) {i : Nat} (hi : i ∈ w.ctl.spConstr) (hk : (w.cons i).kind = .ctrlBound)
    (X : Nat → Nat → K) (U : Nat → K) :
    (w'.cons i).BoundsHold d U ↔ (w.cons i).userData.Holds d X U := by
  obtain ⟨r, f, u⟩ := (S.heap.cons i).1 hi
  have hk' : (w'.cons i).kind = .ctrlBound := by rw [f.kind]; exact hk
  unfold Constr.Reg at r
  rw [hk'] at r
  rw [Constr.bounds_sem hk' r (Constr.Frame.refl _) ((u fun e => by rw [hk'] at e; cases e).bounds hk') X U, f.userData]

theorem sem_asBuilt {d : Dims} {X : Nat → Nat → K} {U : Nat → K} {c : Constr K} (hr : Constr.Reg d c)
    (hl : LinesCurrent c) : c.Sem d X U ↔ c.userData.AsBuilt d X U := by
  unfold Constr.Sem
  unfold Constr.Reg at hr
  cases hk : c.kind <;> rw [hk] at hr
  case trajBound =>
    simp only
    obtain ⟨l1, l2⟩ := hl hk
    rw [Constr.boundRows_lines hr l1 l2]
    unfold Constr.userData
    rw [hk]
    exact Iff.rfl
  all_goals
    simp only
    unfold Constr.userData
    rw [hk]
    simp only
    try split
  all_goals exact Iff.rfl

/-- The feasible set of the problem handed to the solver by an `LMPC`, for any description `X` of the predicted
trajectory. -/
theorem GoodRaw.feasible {d : Dims} {dmax : K} {p : Nat} {w w' : World K} {g : Ghost} {q : QP K}
    (hg : GoodRaw d dmax w g) (hp : w.ctl.ps = some p) (A : LMPC.Assembled d w'.cons w'.costs w.ctl q) (hi : w.ctl.isInit = false)
    (hc : w.ctl.spBoundConstr = [] → g.clean) (hl : ∀ i ∈ w.ctl.spConstr, LinesCurrent (w.cons i)) {X : Nat → Nat → K} {U : Nat → K}
    (hX : ∀ i ∈ w.ctl.spConstr, (w.cons i).kind ≠ .ctrlBound → ((∀ r < (w'.cons i).nrConstr, Rel (w.cons i).ineq
      (∑ j ∈ Finset.range (d.m * d.N), (w'.cons i).A.e r j * U j) ((w'.cons i).b.e r)) ↔ (w.cons i).Sem d X U))
    (hB : ∀ i ∈ w.ctl.spConstr, (w.cons i).kind = .ctrlBound →
      ((w'.cons i).BoundsHold d U ↔ (w.cons i).userData.Holds d X U)) :
    Feasible q U ↔
      (∀ i ∈ w.ctl.spConstr, (w.cons i).userData.AsBuilt d X U) ∧
      (w.ctl.spBoundConstr = [] → ∀ j < d.m * d.N, -dmax ≤ U j ∧ U j ≤ dmax) := by
  have C := hg.canRaw hp
  obtain ⟨t1, t2, t3⟩ := C.typed
  have hreg : ∀ i ∈ w.ctl.spConstr, Constr.Reg d (w.cons i) := C.cons
  have e1 : (∀ t < q.Aeq.rows, Ext.fin (rowValue q.Aeq U t) = q.beq.e t) ↔
      ∀ i ∈ w.ctl.spEqConstr, (w.cons i).userData.AsBuilt d X U := by
    rw [A.eq.forall (fun a b => Ext.fin a = b) U]
    apply forall_congr'; intro i
    apply forall_congr'; intro hi'
    obtain ⟨a1, a2, a3⟩ := t1 i hi'
    rw [← sem_asBuilt (hreg i a1) (hl i a1), ← hX _ a1 a2, a3]
    simp [Rel]
  have e2 : (∀ t < q.Aineq.rows, Ext.fin (rowValue q.Aineq U t) ≤ q.bineq.e t) ↔
      ∀ i ∈ w.ctl.spIneqConstr, (w.cons i).userData.AsBuilt d X U := by
    rw [A.ineq.forall (fun a b => Ext.fin a ≤ b) U]
    apply forall_congr'; intro i
    apply forall_congr'; intro hi'
    obtain ⟨a1, a2, a3⟩ := t2 i hi'
    rw [← sem_asBuilt (hreg i a1) (hl i a1), ← hX _ a1 a2, a3]
    simp [Rel]
  have e3 : ((∀ j < q.lb.rows, q.lb.e j ≤ Ext.fin (U j)) ∧ (∀ j < q.ub.rows, Ext.fin (U j) ≤ q.ub.e j)) ↔
      (∀ i ∈ w.ctl.spBoundConstr, (w.cons i).userData.AsBuilt d X U) ∧
      (w.ctl.spBoundConstr = [] → ∀ j < d.m * d.N, -dmax ≤ U j ∧ U j ≤ dmax) := by
    rw [A.lbr, A.ubr]
    have hlen := C.one
    rcases hb : w.ctl.spBoundConstr with _ | ⟨i, _ | ⟨i', r⟩⟩
    · obtain ⟨k1, k2⟩ := A.keep hb
      have cl := hg.clean (hc hb) (by rw [hp]; exact Option.some_ne_none _)
      have off0 : off d w.ctl = 0 := by unfold off; rw [hi]; rfl
      rw [off0] at cl
      simp only [Nat.zero_add] at cl
      rw [k1, k2]
      constructor
      · rintro ⟨h1, h2⟩
        refine ⟨fun i hi => absurd hi List.not_mem_nil, fun _ j hj => ⟨?_, ?_⟩⟩
        · have := h1 j hj; rw [(cl j hj).1] at this; exact this
        · have := h2 j hj; rw [(cl j hj).2] at this; exact this
      · rintro ⟨_, h2⟩
        constructor
        · intro j hj; rw [(cl j hj).1]; exact (h2 rfl j hj).1
        · intro j hj; rw [(cl j hj).2]; exact (h2 rfl j hj).2
    · have hq := A.bound i hb
      obtain ⟨a1, a2⟩ := t3 i (by rw [hb]; exact List.mem_singleton_self _)
      have := hB _ a1 a2
      have hU : (w.cons i).userData.AsBuilt d X U ↔ (w.cons i).userData.Holds d X U := by
        unfold Constr.userData; rw [a2]; simp only
        split <;> exact Iff.rfl
      simp only [List.mem_singleton, forall_eq, List.cons_ne_nil, false_implies, and_true]
      rw [hU, ← this]
      unfold Constr.BoundsHold
      constructor
      · rintro ⟨h1, h2⟩ j hj
        rw [← (hq j hj).1, ← (hq j hj).2]; exact ⟨h1 j hj, h2 j hj⟩
      · intro h
        constructor
        · intro j hj; rw [(hq j hj).1]; exact (h j hj).1
        · intro j hj; rw [(hq j hj).2]; exact (h j hj).2
    · rw [hb] at hlen; simp at hlen
  unfold Feasible
  rw [e1, e2, e3]
  constructor
  · rintro ⟨h1, h2, h3, h4⟩
    refine ⟨?_, h4⟩
    intro i hi
    rcases (mem_registered C.part i).1 hi with h | h | h
    · exact h1 i h
    · exact h2 i h
    · exact h3 i h
  · rintro ⟨h1, h4⟩
    exact ⟨fun i h => h1 i ((mem_registered C.part i).2 (Or.inl h)),
      fun i h => h1 i ((mem_registered C.part i).2 (Or.inr (Or.inl h))),
      fun i h => h1 i ((mem_registered C.part i).2 (Or.inr (Or.inr h))), h4⟩

/-- The feasible set of the problem handed to the solver by an `LMPC`. -/
theorem Solved.feasible {d : Dims} {dmax : K} {p : Nat} {env : SolveEnv K} {w w' : World K} {g : Ghost} {b : Bool} {q : QP K}
    (hg : Good d dmax w g) (hp : w.ctl.ps = some p) (S : Solved d p env w w' b q) (hi : w.ctl.isInit = false)
    (hc : w.ctl.spBoundConstr = [] → g.clean) (hl : ∀ i ∈ w.ctl.spConstr, LinesCurrent (w.cons i)) (U : Nat → K) :
    Feasible q U ↔
      (∀ i ∈ w.ctl.spConstr, (w.cons i).userData.AsBuilt d (Spec.traj d w p U) U) ∧
      (w.ctl.spBoundConstr = [] → ∀ j < d.m * d.N, -dmax ≤ U j ∧ U j ≤ dmax) :=
  hg.toGoodRaw.feasible hp (S.plain hi) hi hc hl (fun _ h1 h2 => S.rows h1 h2 U) (fun _ h1 h2 => S.bounds h1 h2 _ U)

/-- C30: a control vector is feasible for the problem handed to the solver exactly when it and the
trajectory simulated from the current initial state satisfy every registered constraint (and, when no
control bound is registered, the entries are representable, i.e. not larger than `DBL_MAX`).
`hb`: when no control bound is registered now, none was registered during an earlier solve (C37).
`hh`: the registered trajectory bounds have no lower entry other than `-infinity` (C17). -/
theorem c30_feasible_set {d : Dims} {dmax : K} {E : World K → Op K → Prop} {w w' : World K} {g : Ghost} {env : SolveEnv K}
    {b : Bool} {q : QP K} {p : Nat} (h : Hist d dmax E w g) (hE : ∀ w op, E w op → NoBoundSpan w op)
    (ho : OpOk d w g (.solve env)) (hi : w.ctl.isInit = false) (hb : w.ctl.spBoundConstr = [] → g.clean)
    (hh : ∀ i ∈ w.ctl.spConstr, (w.cons i).userData.Honest)
    (hs : w.solve env = some (w', b, q)) (hp : w.ctl.ps = some p) (U : Nat → K) :
    Feasible q U ↔
      (∀ i ∈ w.ctl.spConstr, (w.cons i).userData.Holds d (Spec.traj d w p U) U) ∧
      (w.ctl.spBoundConstr = [] → ∀ j < d.m * d.N, -dmax ≤ U j ∧ U j ≤ dmax) := by
  obtain ⟨p', hp', S⟩ := h.good.solved ho.2 hs
  rw [hp] at hp'
  cases hp'
  rw [S.feasible h.good hp hi hb (fun i _ => h.lines hE i)]
  refine and_congr_left fun _ => forall_congr' fun i => forall_congr' fun hm =>
    (hh i hm).iff ((h.good.canUpdate hp).cons i hm).boundSize

/-- C30, as built: the same without a condition on trajectory bounds, for what they impose as built. -/
theorem c30_feasible_set_as_built {d : Dims} {dmax : K} {E : World K → Op K → Prop} {w w' : World K} {g : Ghost}
    {env : SolveEnv K} {b : Bool} {q : QP K} {p : Nat} (h : Hist d dmax E w g)
    (hE : ∀ w op, E w op → NoBoundSpan w op)
    (ho : OpOk d w g (.solve env)) (hi : w.ctl.isInit = false) (hb : w.ctl.spBoundConstr = [] → g.clean)
    (hs : w.solve env = some (w', b, q)) (hp : w.ctl.ps = some p) (U : Nat → K) :
    Feasible q U ↔
      (∀ i ∈ w.ctl.spConstr, (w.cons i).userData.AsBuilt d (Spec.traj d w p U) U) ∧
      (w.ctl.spBoundConstr = [] → ∀ j < d.m * d.N, -dmax ≤ U j ∧ U j ≤ dmax) := by
  obtain ⟨p', hp', S⟩ := h.good.solved ho.2 hs
  rw [hp] at hp'
  cases hp'
  exact S.feasible h.good hp hi hb (fun i _ => h.lines hE i) U

/-! ## C32 -/

/-- Half the sum of the declared costs plus the regularisation `0.5e-6 |U|^2`. -/
def totalCost (d : Dims) (w : World K) (p : Nat) (U : Nat → K) : K :=
  1 / 2 * (w.ctl.spCost.map fun i => (w.costs i).userData.value d (Spec.traj d w p U) U).sum
    + 1 / 2 * (1 / 1000000) * ∑ j ∈ Finset.range (d.m * d.N), U j ^ 2

/-- Every registered per-step trajectory or mixed cost is registered once and was not updated since it was
accepted. -/
def CostsFresh (d : Dims) (w : World K) (g : Ghost) : Prop :=
  ∀ i ∈ w.ctl.spCost, (w.costs i).userData.PerStepState d → g.fresh i ∧ w.ctl.spCost.count i = 1

theorem _root_.Copra.Cost.Pre.acc {d : Dims} {c : Cost K} (h : Cost.Pre d c) : Cost.Accumulates c → c.userData.PerStepState d := by
  rintro ⟨hk, hf⟩
  have D := h.data
  unfold Cost.DataOk at D
  unfold Cost.userData
  rcases hk with hk | hk <;> rw [hk] at D ⊢ <;> simp only [hf] at D ⊢
  · exact D.2
  · exact D.2.2

theorem list_sum_add {α : Type} {f g : α → K} {L : List α} :
    (L.map fun i => f i + g i).sum = (L.map f).sum + (L.map g).sum := by
  induction L with
  | nil => simp
  | cons a L ih => simp only [List.map_cons, List.sum_cons, ih]; ring

theorem list_sum_mul {α : Type} {f : α → K} {L : List α} (a : K) :
    a * (L.map f).sum = (L.map fun i => a * f i).sum := by
  induction L with
  | nil => simp
  | cons b L ih => simp only [List.map_cons, List.sum_cons, mul_add, ih]

theorem list_sum_comm {α : Type} {s : Finset Nat} {f : Nat → α → K} {L : List α} :
    ∑ i ∈ s, (L.map fun a => f i a).sum = (L.map fun a => ∑ i ∈ s, f i a).sum := by
  induction L with
  | nil => simp
  | cons b L ih => simp only [List.map_cons, List.sum_cons, Finset.sum_add_distrib, ih]

/-- A quadratic form assembled from a list of forms. -/
theorem quadValue_sum {n : Nat} {Q : Mat K} {c : Vec K} {L : List Nat} {F : Nat → Mat K} {G : Nat → Vec K} {r : K}
    (hQ : ∀ a < n, ∀ b < n, Q.e a b = (if a = b then r else 0) + (L.map fun i => (F i).e a b).sum)
    (hc : ∀ a < n, c.e a = (L.map fun i => (G i).e a).sum) (x : Nat → K) :
    quadValue n Q c x = (L.map fun i => quadValue n (F i) (G i) x).sum
      + 1 / 2 * r * ∑ j ∈ Finset.range n, x j ^ 2 := by
  unfold quadValue
  have e1 : ∑ i ∈ Finset.range n, ∑ j ∈ Finset.range n, x i * Q.e i j * x j =
      (L.map fun t => ∑ i ∈ Finset.range n, ∑ j ∈ Finset.range n, x i * (F t).e i j * x j).sum
        + r * ∑ j ∈ Finset.range n, x j ^ 2 := by
    rw [← list_sum_comm, Finset.mul_sum, ← Finset.sum_add_distrib]
    apply Finset.sum_congr rfl; intro i hi
    rw [← list_sum_comm]
    have : r * x i ^ 2 = ∑ j ∈ Finset.range n, x i * (if i = j then r else 0) * x j := by
      rw [Finset.sum_eq_single i]
      · rw [if_pos rfl]; ring
      · intro j _ hj; rw [if_neg (Ne.symm hj)]; ring
      · intro h; exact absurd hi h
    rw [this, ← Finset.sum_add_distrib]
    apply Finset.sum_congr rfl; intro j hj
    rw [hQ i (Finset.mem_range.1 hi) j (Finset.mem_range.1 hj)]
    have : (L.map fun t => x i * (F t).e i j * x j).sum = x i * (L.map fun t => (F t).e i j).sum * x j := by
      rw [mul_comm (x i * _) (x j), ← mul_assoc, list_sum_mul]
      congr 1
      apply List.map_congr_left; intro t _; ring
    rw [this]; ring
  have e2 : ∑ i ∈ Finset.range n, c.e i * x i = (L.map fun t => ∑ i ∈ Finset.range n, (G t).e i * x i).sum := by
    rw [← list_sum_comm]
    apply Finset.sum_congr rfl; intro i hi
    rw [hc i (Finset.mem_range.1 hi), mul_comm, list_sum_mul]
    congr 1
    apply List.map_congr_left; intro t _; ring
  rw [e1, e2, list_sum_add, mul_add, list_sum_mul]
  ring

theorem Solved.entries {d : Dims} {dmax : K} {p : Nat} {env : SolveEnv K} {w w' : World K} {g : Ghost} {b : Bool} {q : QP K}
    (hg : Good d dmax w g) (S : Solved d p env w w' b q) (hf : CostsFresh d w g) :
    ∀ i ∈ w.ctl.spCost, Cost.Entries d (w'.pss p) (w'.costs i) ∧ Cost.Reg d (w'.costs i) ∧
      (w'.costs i).userData = (w.costs i).userData := by
  intro i hm
  obtain ⟨r, s, e⟩ := (S.heap.costs i).1 hm
  have r0 := hg.costReg i (hg.subK i hm)
  refine ⟨e ?_ ?_, r, ?_⟩
  · intro ha
    exact (hg.fresh i (hf i hm (r0.acc ha)).1).2 ha
  · intro ha
    exact le_of_eq (hf i hm (r0.acc ha)).2
  · unfold Cost.userData; rw [s.kind, s.M, s.N, s.p, s.weights]

theorem SolvedRaw.entries {d : Dims} {dmax : K} {p : Nat} {env : SolveEnv K} {w w' : World K} {g : Ghost} {b : Bool} {q : QP K}
    (hg : GoodRaw d dmax w g) (S : SolvedRaw d p env w w' b q) (hf : CostsFresh d w g) :
    ∀ i ∈ w.ctl.spCost, Cost.Entries d (w'.pss p) (w'.costs i) ∧ Cost.Reg d (w'.costs i) ∧
      (w'.costs i).userData = (w.costs i).userData := by
  intro i hm
  obtain ⟨r, s, e⟩ := (S.heap.costs i).1 hm
  have r0 := hg.costReg i (hg.subK i hm)
  refine ⟨e ?_ ?_, r, ?_⟩
  · intro ha
    exact (hg.fresh i (hf i hm (r0.acc ha)).1).2 ha
  · intro ha
    exact le_of_eq (hf i hm (r0.acc ha)).2
  · unfold Cost.userData; rw [s.kind, s.M, s.N, s.p, s.weights]

/-- The objective handed to the solver by an `LMPC`, for any description `X` of the predicted trajectory. -/
theorem objective_of {d : Dims} {w w' : World K} {q : QP K} (A : LMPC.Assembled d w'.cons w'.costs w.ctl q)
    {X : (Nat → K) → Nat → Nat → K}
    (hV : ∀ i ∈ w.ctl.spCost, ∀ U, quadValue (d.m * d.N) (w'.costs i).Q (w'.costs i).c U =
      1 / 2 * ((w.costs i).userData.value d (X U) U - (w.costs i).userData.value d (X fun _ => 0) fun _ => 0)) :
    ∃ k : K, ∀ U : Nat → K, objective q U =
      1 / 2 * (w.ctl.spCost.map fun i => (w.costs i).userData.value d (X U) U).sum
        + 1 / 2 * (1 / 1000000) * ∑ j ∈ Finset.range (d.m * d.N), U j ^ 2 + k := by
  refine ⟨- (1 / 2 * (w.ctl.spCost.map fun i => (w.costs i).userData.value d (X fun _ => 0) fun _ => 0).sum), ?_⟩
  intro U
  unfold objective
  rw [A.cr, quadValue_sum (F := fun i => (w'.costs i).Q) (G := fun i => (w'.costs i).c) A.Q A.c U, list_sum_mul, list_sum_mul]
  have : (w.ctl.spCost.map fun i => quadValue (d.m * d.N) (w'.costs i).Q (w'.costs i).c U) =
      w.ctl.spCost.map fun i => 1 / 2 * (w.costs i).userData.value d (X U) U +
        - (1 / 2 * (w.costs i).userData.value d (X fun _ => 0) fun _ => 0) := by
    apply List.map_congr_left
    intro i hm
    rw [hV i hm U]
    ring
  rw [this, list_sum_add]
  have neg : (w.ctl.spCost.map fun i => -(1 / 2 * (w.costs i).userData.value d (X fun _ => 0) fun _ => 0)).sum
      = -(w.ctl.spCost.map fun i => 1 / 2 * (w.costs i).userData.value d (X fun _ => 0) fun _ => 0).sum := by
    generalize w.ctl.spCost = L
    induction L with
    | nil => simp
    | cons a L ih => simp only [List.map_cons, List.sum_cons, ih]; ring
  rw [neg]
  ring

/-- C32: the objective handed to the solver is half the sum of the declared costs plus `0.5e-6 |U|^2`, up
to a constant. -/
theorem c32_objective {d : Dims} {dmax : K} {E : World K → Op K → Prop} {w w' : World K} {g : Ghost} {env : SolveEnv K}
    {b : Bool} {q : QP K} {p : Nat} (h : Hist d dmax E w g) (ho : OpOk d w g (.solve env)) (hi : w.ctl.isInit = false)
    (hf : CostsFresh d w g) (hs : w.solve env = some (w', b, q)) (hp : w.ctl.ps = some p) :
    ∃ k : K, ∀ U : Nat → K, objective q U = totalCost d w p U + k := by
  have hg := h.good
  obtain ⟨p', hp', S⟩ := hg.solved ho.2 hs
  rw [hp] at hp'
  cases hp'
  have A := S.plain hi
  have V := S.entries hg hf
  refine objective_of A fun i hm U => ?_
  obtain ⟨e, r, u⟩ := V i hm
  have := (e.exact two_ne_zero r S.heap.pred).value U
  rw [this, u, ← S.traj U, ← S.traj fun _ => 0]
  rfl

/-! ## C33 -/

/-- C33: if the solver reports success and its answer is a minimiser of the problem it was given, then
`control()` satisfies every registered constraint under the simulated dynamics and no other admissible
control sequence (with representable entries) has a smaller total cost. -/
theorem c33_optimum {d : Dims} {dmax : K} {E : World K → Op K → Prop} {w w' : World K} {g : Ghost} {env : SolveEnv K}
    {q : QP K} {p : Nat} (h : Hist d dmax E w g) (hE : ∀ w op, E w op → NoBoundSpan w op)
    (ho : OpOk d w g (.solve env)) (hi : w.ctl.isInit = false) (hb : w.ctl.spBoundConstr = [] → g.clean)
    (hh : ∀ i ∈ w.ctl.spConstr, (w.cons i).userData.Honest) (hf : CostsFresh d w g)
    (hs : w.solve env = some (w', true, q)) (hp : w.ctl.ps = some p) (hopt : IsOptimal q (env.answer q).2.e) :
    (∀ i ∈ w.ctl.spConstr, (w.cons i).userData.Holds d (Spec.traj d w p w'.ctl.control.e) w'.ctl.control.e) ∧
    ∀ V : Nat → K, (∀ i ∈ w.ctl.spConstr, (w.cons i).userData.Holds d (Spec.traj d w p V) V) →
      (∀ j < d.m * d.N, -dmax ≤ V j ∧ V j ≤ dmax) →
      totalCost d w p w'.ctl.control.e ≤ totalCost d w p V := by
  have F := c30_feasible_set h hE ho hi hb hh hs hp
  obtain ⟨k, O⟩ := c32_objective h ho hi hf hs hp
  have hc : w'.ctl.control = (env.answer q).2 := by
    obtain ⟨p', hp', S⟩ := h.good.solved ho.2 hs
    obtain ⟨w1, p1, l, s, l', h1, hp1, hl, hsl, rfl, hbb, hl', rfl⟩ := solve_inv hs
    rw [← hbb] at hl'
    simp only [if_true] at hl'
    unfold LMPC.updateResults at hl'
    simp only [Option.bind_eq_bind, Option.bind_eq_some_iff] at hl'
    obtain ⟨s', hs', hl'⟩ := hl'
    have hinit : l.isInit = false := by
      obtain ⟨_, _, _, _, _, _, _, _, _, _, _, _, rfl, f⟩ := updateSystem_inv h1
      rw [(LMPC.makeQPForm_fixed hl).isInit]
      exact f.isInit.trans hi
    have hinit' : (LMPC.checkDelete w1.extCons w1.extCosts
      { l with sol := some { s with result := (env.answer l.qp).2 }, solveTime := some (env.t2 - env.t1) }).isInit = false := hinit
    rw [hinit'] at hl'
    simp only [Bool.false_eq_true, if_false, Option.bind_eq_some_iff, Option.pure_def, Option.some.injEq] at hl'
    obtain ⟨t, _, rfl⟩ := hl'
    have : some { s with result := (env.answer l.qp).2 } = some s' := hs'
    cases this
    rfl
  rw [hc]
  refine ⟨((F _).1 hopt.1).1, ?_⟩
  intro V h1 h2
  have := hopt.2 V ((F V).2 ⟨h1, fun _ => h2⟩)
  rw [O, O] at this
  exact le_of_add_le_add_right this

/-! ## C29 -/

theorem psd_list {n : Nat} {L : List Nat} {F : Nat → Mat K} (h : ∀ i ∈ L, PSD n (F i)) (x : Nat → K) :
    0 ≤ (L.map fun t => ∑ i ∈ Finset.range n, ∑ j ∈ Finset.range n, x i * (F t).e i j * x j).sum := by
  induction L with
  | nil => simp
  | cons a L ih =>
    simp only [List.map_cons, List.sum_cons]
    exact add_nonneg ((h a List.mem_cons_self).2 x) (ih fun i hi => h i (List.mem_cons_of_mem _ hi))

theorem sum_sq_pos {n : Nat} {x : Nat → K} (h : ∃ i < n, x i ≠ 0) : 0 < ∑ j ∈ Finset.range n, x j ^ 2 := by
  obtain ⟨i, hi, hx⟩ := h
  exact Finset.sum_pos' (fun j _ => sq_nonneg _) ⟨i, Finset.mem_range.2 hi, by positivity⟩

/-- A regularised sum of positive semidefinite matrices is positive definite. -/
theorem pd_of_sum {n : Nat} {Q : Mat K} {L : List Nat} {F : Nat → Mat K} {r : K} (hr : 0 < r)
    (hQ : ∀ a < n, ∀ b < n, Q.e a b = (if a = b then r else 0) + (L.map fun i => (F i).e a b).sum)
    (h : ∀ i ∈ L, PSD n (F i)) : PD n Q := by
  constructor
  · intro i hi j hj
    rw [hQ i hi j hj, hQ j hj i hi]
    congr 1
    · by_cases e : i = j
      · subst e; rfl
      · rw [if_neg e, if_neg (Ne.symm e)]
    · congr 1
      apply List.map_congr_left
      intro t ht
      exact (h t ht).1 i hi j hj
  · intro x hx
    have q := quadValue_sum (c := Vec.zero n) (G := fun _ => Vec.zero n) hQ (by
      intro a _; simp [Vec.zero]) x
    have z : ∀ M : Mat K, quadValue n M (Vec.zero n) x =
        1 / 2 * ∑ i ∈ Finset.range n, ∑ j ∈ Finset.range n, x i * M.e i j * x j := by
      intro M
      unfold quadValue
      rw [Finset.sum_eq_zero (s := Finset.range n) (f := fun i => (Vec.zero n : Vec K).e i * x i)]
      · rw [add_zero]
      · intro i _; simp [Vec.zero]
    simp only [z] at q
    rw [← list_sum_mul] at q
    have h1 := psd_list h x
    have h2 := sum_sq_pos hx
    have h3 : 0 < r * ∑ j ∈ Finset.range n, x j ^ 2 := mul_pos hr h2
    nlinarith

/-- C29: with nonnegative weights the Hessian handed to the solver by an `LMPC` is symmetric positive
definite, whatever happened before. -/
theorem c29_hessian {d : Dims} {dmax : K} {E : World K → Op K → Prop} {w w' : World K} {g : Ghost} {env : SolveEnv K}
    {b : Bool} {q : QP K} (h : Hist d dmax E w g) (hE : ∀ w op, E w op → NonnegWeights w op)
    (ho : OpOk d w g (.solve env)) (hi : w.ctl.isInit = false) (hs : w.solve env = some (w', b, q)) :
    PD q.nrVar q.Q := by
  obtain ⟨p, hp, S⟩ := h.good.solved ho.2 hs
  have A := S.plain hi
  rw [A.nrVar, A.cr]
  exact pd_of_sum (F := fun i => (w'.costs i).Q) (by norm_num) A.Q (h.solve_psd hE ho hs)

theorem Ext.fin_le_mid {a b : K} {t : Ext K} (h1 : Ext.fin a ≤ t) (h2 : Ext.fin b ≤ t) : Ext.fin ((a + b) / 2) ≤ t := by
  cases t with
  | fin t =>
    have h1' : a ≤ t := h1
    have h2' : b ≤ t := h2
    show (a + b) / 2 ≤ t
    linarith
  | pinf => trivial
  | ninf => exact h1

theorem Ext.mid_le_fin {a b : K} {t : Ext K} (h1 : t ≤ Ext.fin a) (h2 : t ≤ Ext.fin b) : t ≤ Ext.fin ((a + b) / 2) := by
  cases t with
  | fin t =>
    have h1' : t ≤ a := h1
    have h2' : t ≤ b := h2
    show t ≤ (a + b) / 2
    linarith
  | ninf => trivial
  | pinf => exact h1

theorem Ext.mid_eq {a b : K} {t : Ext K} (h1 : Ext.fin a = t) (h2 : Ext.fin b = t) : Ext.fin ((a + b) / 2) = t := by
  subst h1
  injection h2 with h2
  rw [h2]
  congr 1
  ring

theorem rowValue_mid (A : Mat K) (x y : Nat → K) (i : Nat) :
    rowValue A (fun j => (x j + y j) / 2) i = (rowValue A x i + rowValue A y i) / 2 := by
  unfold rowValue
  rw [← Finset.sum_add_distrib, div_eq_mul_inv, Finset.sum_mul]
  apply Finset.sum_congr rfl; intro j _; ring

/-- The feasible set of every problem contains midpoints. -/
theorem feasible_mid {q : QP K} {x y : Nat → K} (hx : Feasible q x) (hy : Feasible q y) :
    Feasible q fun j => (x j + y j) / 2 := by
  obtain ⟨a1, a2, a3, a4⟩ := hx
  obtain ⟨b1, b2, b3, b4⟩ := hy
  refine ⟨?_, ?_, ?_, ?_⟩
  · intro i hi; rw [rowValue_mid]; exact Ext.mid_eq (a1 i hi) (b1 i hi)
  · intro i hi; rw [rowValue_mid]; exact Ext.fin_le_mid (a2 i hi) (b2 i hi)
  · intro j hj; exact Ext.mid_le_fin (a3 j hj) (b3 j hj)
  · intro j hj; exact Ext.fin_le_mid (a4 j hj) (b4 j hj)

theorem quadValue_mid {n : Nat} {Q : Mat K} (c : Vec K) (x y : Nat → K) :
    quadValue n Q c x + quadValue n Q c y = 2 * quadValue n Q c (fun j => (x j + y j) / 2)
      + 1 / 4 * ∑ i ∈ Finset.range n, ∑ j ∈ Finset.range n, (x i - y i) * Q.e i j * (x j - y j) := by
  unfold quadValue
  have lin : ∑ i ∈ Finset.range n, c.e i * x i + ∑ i ∈ Finset.range n, c.e i * y i =
      2 * ∑ i ∈ Finset.range n, c.e i * ((x i + y i) / 2) := by
    rw [← Finset.sum_add_distrib, Finset.mul_sum]
    apply Finset.sum_congr rfl; intro j _; ring
  have quad : 1 / 2 * (∑ i ∈ Finset.range n, ∑ j ∈ Finset.range n, x i * Q.e i j * x j) +
      1 / 2 * (∑ i ∈ Finset.range n, ∑ j ∈ Finset.range n, y i * Q.e i j * y j) =
      2 * (1 / 2 * ∑ i ∈ Finset.range n, ∑ j ∈ Finset.range n, ((x i + y i) / 2) * Q.e i j * ((x j + y j) / 2))
      + 1 / 4 * ∑ i ∈ Finset.range n, ∑ j ∈ Finset.range n, (x i - y i) * Q.e i j * (x j - y j) := by
    simp only [Finset.mul_sum, ← Finset.sum_add_distrib]
    apply Finset.sum_congr rfl; intro i _
    apply Finset.sum_congr rfl; intro j _
    ring
  linear_combination lin + quad

/-- C29, consequence: the problem handed to the solver has at most one minimiser, so the answer of a correct
solver does not depend on the solver. -/
theorem c29_unique_minimiser {d : Dims} {dmax : K} {E : World K → Op K → Prop} {w w' : World K} {g : Ghost}
    {env : SolveEnv K} {b : Bool} {q : QP K} (h : Hist d dmax E w g) (hE : ∀ w op, E w op → NonnegWeights w op)
    (ho : OpOk d w g (.solve env)) (hi : w.ctl.isInit = false) (hs : w.solve env = some (w', b, q)) {x y : Nat → K}
    (hx : IsOptimal q x) (hy : IsOptimal q y) : ∀ j < q.nrVar, x j = y j := by
  have P := c29_hessian h hE ho hi hs
  have hn : q.nrVar = q.c.rows := by
    obtain ⟨p, hp, S⟩ := h.good.solved ho.2 hs
    exact (S.plain hi).nrVar
  rw [hn] at P ⊢
  by_contra hne
  push Not at hne
  obtain ⟨j, hj, hne⟩ := hne
  have pos := P.2 (fun j => x j - y j) ⟨j, hj, sub_ne_zero.2 hne⟩
  have m := feasible_mid hx.1 hy.1
  have h1 := hx.2 _ m
  have h2 := hy.2 _ m
  have e := quadValue_mid (n := q.c.rows) (Q := q.Q) q.c x y
  unfold objective at h1 h2
  linarith

end World
end Copra
