import Verif.Props.Same

/-! # Properties C44-C46, C58: the problem of an `InitialStateLMPC` -/

namespace Copra
open Spec

set_option linter.unusedSectionVars false
set_option linter.unusedSimpArgs false

variable {K : Type} [Field K]

theorem joined_lt {d : Dims} {x U : Nat → K} {j : Nat} (h : j < d.n) : joined d x U j = x j := if_pos h

theorem joined_add {d : Dims} {x U : Nat → K} (j : Nat) : joined d x U (d.n + j) = U j := by
  unfold joined
  rw [if_neg (by omega), Nat.add_sub_cancel_left]

/-- A row of the joint problem. -/
theorem sum_joined {d : Dims} {M : Nat} (Y A : Nat → K) (x U : Nat → K) :
    ∑ j ∈ Finset.range (d.n + M), (if j < d.n then Y j else A (j - d.n)) * joined d x U j =
      (∑ j ∈ Finset.range d.n, Y j * x j) + ∑ j ∈ Finset.range M, A j * U j := by
  rw [Finset.sum_range_add]
  congr 1
  · apply Finset.sum_congr rfl; intro j hj
    rw [joined_lt (Finset.mem_range.1 hj), if_pos (Finset.mem_range.1 hj)]
  · apply Finset.sum_congr rfl; intro j _
    rw [joined_add, if_neg (by omega), Nat.add_sub_cancel_left]

variable [LinearOrder K] [IsStrictOrderedRing K]

namespace World

/-! ## C44 -/

theorem Solved.trajFrom {d : Dims} {p : Nat} {env : SolveEnv K} {w w' : World K} {b : Bool} {q : QP K}
    (S : Solved d p env w w' b q) (x U : Nat → K) : trajFrom d w' p x U = trajFrom d w p x U := by
  unfold Spec.trajFrom
  rw [S.heap.A, S.heap.B, S.heap.bias]

/-- The rows of the registered constraints after a solve, initial state free. -/
theorem Solved.rowsJoint {d : Dims} {p : Nat} {env : SolveEnv K} {w w' : World K} {b : Bool} {q : QP K}
    (S : Solved d p env w w' b q) {i : Nat} (hi : i ∈ w.ctl.spConstr) (hk : (w.cons i).kind ≠ .ctrlBound) (x U : Nat → K) :
    (∀ r < (w'.cons i).nrConstr, Rel (w.cons i).ineq
      (∑ j ∈ Finset.range (d.n + d.m * d.N), (if j < d.n then (w'.cons i).Y.e r j else (w'.cons i).A.e r (j - d.n))
        * joined d x U j) ((w'.cons i).z.e r)) ↔
      (w.cons i).Sem d (Spec.trajFrom d w p x U) U := by
  obtain ⟨r, f, u⟩ := (S.heap.cons i).1 hi
  have hk' : (w'.cons i).kind ≠ .ctrlBound := by rw [f.kind]; exact hk
  have := Constr.update_rows_joint hk' r S.heap.sys.dims.toSysShape S.heap.pred (u.rows hk') x U
  have hq : (w'.cons i).ineq = (w.cons i).ineq := by
    unfold Constr.ineq; rw [f.kind, f.isIneq]
  rw [hq] at this
  rw [← S.trajFrom, ← f.sem, Spec.trajFrom, ← this]
  unfold Constr.rowXU
  apply forall_congr'; intro t
  apply forall_congr'; intro _
  rw [sum_joined (fun j => (w'.cons i).Y.e t j) (fun j => (w'.cons i).A.e t j)]

/-- The feasible set of the problem handed to the solver by an `InitialStateLMPC`, for any description `X` of the
predicted trajectory. -/
theorem GoodRaw.feasibleInit {d : Dims} {dmax : K} {p : Nat} {inv : Mat K → Mat K} {w w' : World K} {g : Ghost}
    {q : QP K} (hg : GoodRaw d dmax w g) (hp : w.ctl.ps = some p) (A : LMPC.AssembledInit d inv w'.cons w'.costs w.ctl q)
    (hi : w.ctl.isInit = true) (hc : w.ctl.spBoundConstr = [] → g.clean) (hl : ∀ i ∈ w.ctl.spConstr, LinesCurrent (w.cons i))
    {X : Nat → Nat → K} {x U : Nat → K}
    (hX : ∀ i ∈ w.ctl.spConstr, (w.cons i).kind ≠ .ctrlBound → ((∀ r < (w'.cons i).nrConstr, Rel (w.cons i).ineq
      (∑ j ∈ Finset.range (d.n + d.m * d.N), (if j < d.n then (w'.cons i).Y.e r j else (w'.cons i).A.e r (j - d.n))
        * joined d x U j) ((w'.cons i).z.e r)) ↔ (w.cons i).Sem d X U))
    (hB : ∀ i ∈ w.ctl.spConstr, (w.cons i).kind = .ctrlBound →
      ((w'.cons i).BoundsHold d U ↔ (w.cons i).userData.Holds d X U)) :
    Feasible q (joined d x U) ↔
      (∀ i ∈ w.ctl.spConstr, (w.cons i).userData.AsBuilt d X U) ∧
      InitBounds d w.ctl x ∧
      (w.ctl.spBoundConstr = [] → ∀ j < d.m * d.N, -dmax ≤ U j ∧ U j ≤ dmax) := by
  have C := hg.canRaw hp
  obtain ⟨t1, t2, t3⟩ := C.typed
  have hreg : ∀ i ∈ w.ctl.spConstr, Constr.Reg d (w.cons i) := C.cons
  have e1 : (∀ t < q.Aeq.rows, Ext.fin (rowValue q.Aeq (joined d x U) t) = q.beq.e t) ↔
      ∀ i ∈ w.ctl.spEqConstr, (w.cons i).userData.AsBuilt d X U := by
    rw [A.eq.forall (fun a b => Ext.fin a = b) (joined d x U)]
    apply forall_congr'; intro i
    apply forall_congr'; intro hi'
    obtain ⟨a1, a2, a3⟩ := t1 i hi'
    rw [← sem_asBuilt (hreg i a1) (hl i a1), ← hX i a1 a2, a3]
    simp [Rel]
  have e2 : (∀ t < q.Aineq.rows, Ext.fin (rowValue q.Aineq (joined d x U) t) ≤ q.bineq.e t) ↔
      ∀ i ∈ w.ctl.spIneqConstr, (w.cons i).userData.AsBuilt d X U := by
    rw [A.ineq.forall (fun a b => Ext.fin a ≤ b) (joined d x U)]
    apply forall_congr'; intro i
    apply forall_congr'; intro hi'
    obtain ⟨a1, a2, a3⟩ := t2 i hi'
    rw [← sem_asBuilt (hreg i a1) (hl i a1), ← hX i a1 a2, a3]
    simp [Rel]
  have split : ∀ P : Nat → Prop, (∀ j < d.n + d.m * d.N, P j) ↔ (∀ j < d.n, P j) ∧ ∀ j < d.m * d.N, P (d.n + j) := by
    intro P
    constructor
    · intro h; exact ⟨fun j hj => h j (by omega), fun j hj => h _ (by omega)⟩
    · rintro ⟨h1, h2⟩ j hj
      by_cases hn : j < d.n
      · exact h1 j hn
      · have := h2 (j - d.n) (by omega)
        rwa [show d.n + (j - d.n) = j by omega] at this
  have e3 : ((∀ j < q.lb.rows, q.lb.e j ≤ Ext.fin (joined d x U j)) ∧ (∀ j < q.ub.rows, Ext.fin (joined d x U j) ≤ q.ub.e j)) ↔
      InitBounds d w.ctl x ∧
      (∀ i ∈ w.ctl.spBoundConstr, (w.cons i).userData.AsBuilt d X U) ∧
      (w.ctl.spBoundConstr = [] → ∀ j < d.m * d.N, -dmax ≤ U j ∧ U j ≤ dmax) := by
    rw [A.lbr, A.ubr, split, split]
    have hx : ((∀ j < d.n, q.lb.e j ≤ Ext.fin (joined d x U j)) ∧ ∀ j < d.n, Ext.fin (joined d x U j) ≤ q.ub.e j) ↔
        InitBounds d w.ctl x := by
      unfold InitBounds
      constructor
      · rintro ⟨h1, h2⟩ j hj
        have a := h1 j hj
        have b := h2 j hj
        rw [joined_lt hj] at a b
        rw [(A.bx j hj).1] at a
        rw [(A.bx j hj).2] at b
        exact ⟨a, b⟩
      · intro h
        constructor
        · intro j hj; rw [joined_lt hj, (A.bx j hj).1]; exact (h j hj).1
        · intro j hj; rw [joined_lt hj, (A.bx j hj).2]; exact (h j hj).2
    have hU : ((∀ j < d.m * d.N, q.lb.e (d.n + j) ≤ Ext.fin (joined d x U (d.n + j))) ∧
        ∀ j < d.m * d.N, Ext.fin (joined d x U (d.n + j)) ≤ q.ub.e (d.n + j)) ↔
        (∀ i ∈ w.ctl.spBoundConstr, (w.cons i).userData.AsBuilt d X U) ∧
        (w.ctl.spBoundConstr = [] → ∀ j < d.m * d.N, -dmax ≤ U j ∧ U j ≤ dmax) := by
      simp only [joined_add]
      have hlen := C.one
      rcases hb : w.ctl.spBoundConstr with _ | ⟨i, _ | ⟨i', r⟩⟩
      · have k := A.keep hb
        have cl := hg.clean (hc hb) (by rw [hp]; exact Option.some_ne_none _)
        have off0 : off d w.ctl = d.n := by unfold off; rw [hi]; rfl
        rw [off0] at cl
        constructor
        · rintro ⟨h1, h2⟩
          refine ⟨fun i hi => absurd hi List.not_mem_nil, fun _ j hj => ⟨?_, ?_⟩⟩
          · have := h1 j hj; rw [(k j hj).1, (cl j hj).1] at this; exact this
          · have := h2 j hj; rw [(k j hj).2, (cl j hj).2] at this; exact this
        · rintro ⟨_, h2⟩
          constructor
          · intro j hj; rw [(k j hj).1, (cl j hj).1]; exact (h2 rfl j hj).1
          · intro j hj; rw [(k j hj).2, (cl j hj).2]; exact (h2 rfl j hj).2
      · have hq := A.bound i hb
        obtain ⟨a1, a2⟩ := t3 i (by rw [hb]; exact List.mem_singleton_self _)
        have := hB i a1 a2
        have hU : (w.cons i).userData.AsBuilt d X U ↔
            (w.cons i).userData.Holds d X U := by
          unfold Constr.userData; rw [a2]; simp only
          split <;> exact Iff.rfl
        simp only [List.mem_singleton, forall_eq, List.cons_ne_nil, false_implies, and_true]
        rw [hU, ← this]
        unfold Constr.BoundsHold
        constructor
        · rintro ⟨h1, h2⟩ j hj
          rw [← (hq j hj).1, ← (hq j hj).2]; exact ⟨h1 j hj, h2 j hj⟩
        · intro h
          constructor
          · intro j hj; rw [(hq j hj).1]; exact (h j hj).1
          · intro j hj; rw [(hq j hj).2]; exact (h j hj).2
      · rw [hb] at hlen; simp at hlen
    rw [← hx, ← hU]
    tauto
  unfold Feasible
  rw [e1, e2, e3]
  constructor
  · rintro ⟨h1, h2, h5, h3, h4⟩
    refine ⟨?_, h5, h4⟩
    intro i hi
    rcases (mem_registered C.part i).1 hi with h | h | h
    · exact h1 i h
    · exact h2 i h
    · exact h3 i h
  · rintro ⟨h1, h5, h4⟩
    exact ⟨fun i h => h1 i ((mem_registered C.part i).2 (Or.inl h)),
      fun i h => h1 i ((mem_registered C.part i).2 (Or.inr (Or.inl h))), h5,
      fun i h => h1 i ((mem_registered C.part i).2 (Or.inr (Or.inr h))), h4⟩

/-- The feasible set of the problem handed to the solver by an `InitialStateLMPC`. -/
theorem Solved.feasibleInit {d : Dims} {dmax : K} {p : Nat} {env : SolveEnv K} {w w' : World K} {g : Ghost} {b : Bool}
    {q : QP K} (hg : Good d dmax w g) (hp : w.ctl.ps = some p) (S : Solved d p env w w' b q) (hi : w.ctl.isInit = true)
    (hc : w.ctl.spBoundConstr = [] → g.clean) (hl : ∀ i ∈ w.ctl.spConstr, LinesCurrent (w.cons i)) (x U : Nat → K) :
    Feasible q (joined d x U) ↔
      (∀ i ∈ w.ctl.spConstr, (w.cons i).userData.AsBuilt d (Spec.trajFrom d w p x U) U) ∧
      InitBounds d w.ctl x ∧
      (w.ctl.spBoundConstr = [] → ∀ j < d.m * d.N, -dmax ≤ U j ∧ U j ≤ dmax) :=
  hg.toGoodRaw.feasibleInit hp (S.init hi) hi hc hl (fun _ h1 h2 => S.rowsJoint h1 h2 x U)
    (fun _ h1 h2 => S.bounds h1 h2 _ U)

/-- C44: for an `InitialStateLMPC`, the pair of an initial state `x` and controls `U` is feasible for the
problem handed to the solver exactly when the trajectory simulated from that `x` under `U` satisfies every
registered constraint and `x` satisfies the initial-state bounds (and, when no control bound is registered,
the controls are representable).  `hb`, `hh`, `hE` as in C30. -/
theorem c44_joint_feasible {d : Dims} {dmax : K} {E : World K → Op K → Prop} {w w' : World K} {g : Ghost} {env : SolveEnv K}
    {b : Bool} {q : QP K} {p : Nat} (h : Hist d dmax E w g) (hE : ∀ w op, E w op → NoBoundSpan w op)
    (ho : OpOk d w g (.solve env)) (hi : w.ctl.isInit = true) (hb : w.ctl.spBoundConstr = [] → g.clean)
    (hh : ∀ i ∈ w.ctl.spConstr, (w.cons i).userData.Honest)
    (hs : w.solve env = some (w', b, q)) (hp : w.ctl.ps = some p) (x U : Nat → K) :
    Feasible q (joined d x U) ↔
      (∀ i ∈ w.ctl.spConstr, (w.cons i).userData.Holds d (Spec.trajFrom d w p x U) U) ∧
      InitBounds d w.ctl x ∧
      (w.ctl.spBoundConstr = [] → ∀ j < d.m * d.N, -dmax ≤ U j ∧ U j ≤ dmax) := by
  obtain ⟨p', hp', S⟩ := h.good.solved ho.2 hs
  rw [hp] at hp'
  cases hp'
  rw [S.feasibleInit h.good hp hi hb (fun i _ => h.lines hE i)]
  refine and_congr_left fun _ => forall_congr' fun i => forall_congr' fun hm =>
    (hh i hm).iff ((h.good.canUpdate hp).cons i hm).boundSize

/-- C44, as built: the same without a condition on trajectory bounds, for what they impose as built. -/
theorem c44_joint_feasible_as_built {d : Dims} {dmax : K} {E : World K → Op K → Prop} {w w' : World K} {g : Ghost}
    {env : SolveEnv K} {b : Bool} {q : QP K} {p : Nat} (h : Hist d dmax E w g) (hE : ∀ w op, E w op → NoBoundSpan w op)
    (ho : OpOk d w g (.solve env)) (hi : w.ctl.isInit = true) (hb : w.ctl.spBoundConstr = [] → g.clean)
    (hs : w.solve env = some (w', b, q)) (hp : w.ctl.ps = some p) (x U : Nat → K) :
    Feasible q (joined d x U) ↔
      (∀ i ∈ w.ctl.spConstr, (w.cons i).userData.AsBuilt d (Spec.trajFrom d w p x U) U) ∧
      InitBounds d w.ctl x ∧
      (w.ctl.spBoundConstr = [] → ∀ j < d.m * d.N, -dmax ≤ U j ∧ U j ≤ dmax) := by
  obtain ⟨p', hp', S⟩ := h.good.solved ho.2 hs
  rw [hp] at hp'
  cases hp'
  exact S.feasibleInit h.good hp hi hb (fun i _ => h.lines hE i) x U

/-! ## C45 -/

/-- Completing the square: `H = [[R + E W E', E], [E', QU]]` with `QU W = I`. -/
theorem schur {n M : Nat} {H R QU W Ex : Mat K} (sym : Symmetric M QU)
    (hW : ∀ a < M, ∀ b < M, ∑ k ∈ Finset.range M, QU.e a k * W.e k b = if a = b then 1 else 0)
    (hUU : ∀ a < M, ∀ b < M, H.e (n + a) (n + b) = QU.e a b)
    (hxU : ∀ a < n, ∀ b < M, H.e a (n + b) = Ex.e a b) (hUx : ∀ a < n, ∀ b < M, H.e (n + b) a = Ex.e a b)
    (hxx : ∀ a < n, ∀ b < n, H.e a b = R.e a b +
      ∑ k ∈ Finset.range M, (∑ l ∈ Finset.range M, Ex.e a l * W.e l k) * Ex.e b k) (y : Nat → K) :
    ∑ i ∈ Finset.range (n + M), ∑ j ∈ Finset.range (n + M), y i * H.e i j * y j =
      (∑ a ∈ Finset.range n, ∑ b ∈ Finset.range n, y a * R.e a b * y b) +
      ∑ k ∈ Finset.range M, ∑ l ∈ Finset.range M,
        ((∑ t ∈ Finset.range M, W.e k t * ∑ a ∈ Finset.range n, Ex.e a t * y a) + y (n + k)) * QU.e k l *
        ((∑ t ∈ Finset.range M, W.e l t * ∑ a ∈ Finset.range n, Ex.e a t * y a) + y (n + l)) := by
  generalize hgd : (fun t => ∑ a ∈ Finset.range n, Ex.e a t * y a) = gv
  have hg : ∀ t, ∑ a ∈ Finset.range n, Ex.e a t * y a = gv t := fun t => congrFun hgd t
  simp only [hg]
  generalize hvd : (fun k => ∑ t ∈ Finset.range M, W.e k t * gv t) = v
  have hv : ∀ k, ∑ t ∈ Finset.range M, W.e k t * gv t = v k := fun k => congrFun hvd k
  simp only [hv]
  -- `QU v = g`
  have f1 : ∀ k < M, ∑ l ∈ Finset.range M, QU.e k l * v l = gv k := by
    intro k hk
    calc ∑ l ∈ Finset.range M, QU.e k l * v l
        = ∑ l ∈ Finset.range M, ∑ t ∈ Finset.range M, QU.e k l * (W.e l t * gv t) := by
          apply Finset.sum_congr rfl; intro l _; rw [← hv, Finset.mul_sum]
      _ = ∑ t ∈ Finset.range M, (∑ l ∈ Finset.range M, QU.e k l * W.e l t) * gv t := by
          rw [Finset.sum_comm]
          apply Finset.sum_congr rfl; intro t _
          rw [Finset.sum_mul]
          apply Finset.sum_congr rfl; intro l _; ring
      _ = ∑ t ∈ Finset.range M, (if k = t then 1 else 0) * gv t := by
          apply Finset.sum_congr rfl; intro t ht; rw [hW k hk t (Finset.mem_range.1 ht)]
      _ = gv k := by
          rw [Finset.sum_eq_single k]
          · rw [if_pos rfl, one_mul]
          · intro t _ ht; rw [if_neg (Ne.symm ht), zero_mul]
          · intro h; exact absurd (Finset.mem_range.2 hk) h
  -- `x' E W E' x = g' v`
  have f2 : ∑ a ∈ Finset.range n, ∑ b ∈ Finset.range n, y a *
      (∑ k ∈ Finset.range M, (∑ l ∈ Finset.range M, Ex.e a l * W.e l k) * Ex.e b k) * y b =
      ∑ l ∈ Finset.range M, gv l * v l := by
    have r : ∀ l, gv l * v l = ∑ a ∈ Finset.range n, ∑ b ∈ Finset.range n, ∑ k ∈ Finset.range M,
        y a * Ex.e a l * W.e l k * Ex.e b k * y b := by
      intro l
      rw [← hv, ← hg l, Finset.sum_mul]
      apply Finset.sum_congr rfl; intro a _
      rw [Finset.mul_sum, Finset.sum_comm]
      apply Finset.sum_congr rfl; intro k _
      rw [← hg k, Finset.mul_sum, Finset.mul_sum]
      apply Finset.sum_congr rfl; intro b _; ring
    rw [Finset.sum_congr rfl fun l _ => r l]
    symm
    rw [Finset.sum_comm]
    apply Finset.sum_congr rfl; intro a _
    rw [Finset.sum_comm]
    apply Finset.sum_congr rfl; intro b _
    rw [Finset.sum_comm, Finset.mul_sum, Finset.sum_mul]
    apply Finset.sum_congr rfl; intro k _
    rw [Finset.sum_mul, Finset.mul_sum, Finset.sum_mul]
    apply Finset.sum_congr rfl; intro l _; ring
  -- the right-hand square
  have f3 : ∑ k ∈ Finset.range M, ∑ l ∈ Finset.range M, (v k + y (n + k)) * QU.e k l * (v l + y (n + l)) =
      (∑ k ∈ Finset.range M, gv k * v k) + 2 * (∑ k ∈ Finset.range M, gv k * y (n + k)) +
      ∑ k ∈ Finset.range M, ∑ l ∈ Finset.range M, y (n + k) * QU.e k l * y (n + l) := by
    have a : ∀ (u : Nat → K), ∑ k ∈ Finset.range M, ∑ l ∈ Finset.range M, u k * QU.e k l * v l =
        ∑ k ∈ Finset.range M, gv k * u k := by
      intro u
      apply Finset.sum_congr rfl; intro k hk
      rw [← f1 k (Finset.mem_range.1 hk), Finset.sum_mul]
      apply Finset.sum_congr rfl; intro l _; ring
    have b : ∑ k ∈ Finset.range M, ∑ l ∈ Finset.range M, v k * QU.e k l * y (n + l) =
        ∑ k ∈ Finset.range M, gv k * y (n + k) := by
      rw [Finset.sum_comm, ← a fun k => y (n + k)]
      apply Finset.sum_congr rfl; intro k hk
      apply Finset.sum_congr rfl; intro l hl
      rw [sym l (Finset.mem_range.1 hl) k (Finset.mem_range.1 hk)]; ring
    have e : ∀ k l, (v k + y (n + k)) * QU.e k l * (v l + y (n + l)) = v k * QU.e k l * v l + y (n + k) * QU.e k l * v l +
        v k * QU.e k l * y (n + l) + y (n + k) * QU.e k l * y (n + l) := by intros; ring
    simp only [e, Finset.sum_add_distrib]
    rw [a v, a fun k => y (n + k), b]
    ring
  rw [f3, ← f2]
  -- the left-hand side, block by block
  rw [Finset.sum_range_add]
  have b1 : ∀ i, ∑ j ∈ Finset.range (n + M), y i * H.e i j * y j =
      (∑ b ∈ Finset.range n, y i * H.e i b * y b) + ∑ l ∈ Finset.range M, y i * H.e i (n + l) * y (n + l) := by
    intro i; rw [Finset.sum_range_add]
  simp only [b1, Finset.sum_add_distrib]
  have c1 : ∑ a ∈ Finset.range n, ∑ b ∈ Finset.range n, y a * H.e a b * y b =
      (∑ a ∈ Finset.range n, ∑ b ∈ Finset.range n, y a * R.e a b * y b) +
      ∑ a ∈ Finset.range n, ∑ b ∈ Finset.range n, y a *
        (∑ k ∈ Finset.range M, (∑ l ∈ Finset.range M, Ex.e a l * W.e l k) * Ex.e b k) * y b := by
    rw [← Finset.sum_add_distrib]
    apply Finset.sum_congr rfl; intro a ha
    rw [← Finset.sum_add_distrib]
    apply Finset.sum_congr rfl; intro b hb
    rw [hxx a (Finset.mem_range.1 ha) b (Finset.mem_range.1 hb)]; ring
  have c2 : ∑ a ∈ Finset.range n, ∑ l ∈ Finset.range M, y a * H.e a (n + l) * y (n + l) =
      ∑ k ∈ Finset.range M, gv k * y (n + k) := by
    rw [Finset.sum_comm]
    apply Finset.sum_congr rfl; intro k hk
    rw [← hg k, Finset.sum_mul]
    apply Finset.sum_congr rfl; intro a ha
    rw [hxU a (Finset.mem_range.1 ha) k (Finset.mem_range.1 hk)]; ring
  have c3 : ∑ k ∈ Finset.range M, ∑ b ∈ Finset.range n, y (n + k) * H.e (n + k) b * y b =
      ∑ k ∈ Finset.range M, gv k * y (n + k) := by
    apply Finset.sum_congr rfl; intro k hk
    rw [← hg k, Finset.sum_mul]
    apply Finset.sum_congr rfl; intro a ha
    rw [hUx a (Finset.mem_range.1 ha) k (Finset.mem_range.1 hk)]; ring
  have c4 : ∑ k ∈ Finset.range M, ∑ l ∈ Finset.range M, y (n + k) * H.e (n + k) (n + l) * y (n + l) =
      ∑ k ∈ Finset.range M, ∑ l ∈ Finset.range M, y (n + k) * QU.e k l * y (n + l) := by
    apply Finset.sum_congr rfl; intro k hk
    apply Finset.sum_congr rfl; intro l hl
    rw [hUU k (Finset.mem_range.1 hk) l (Finset.mem_range.1 hl)]
  rw [c1, c2, c3, c4]
  ring

/-- The right inverse of a symmetric matrix is symmetric. -/
theorem inverse_symm {M : Nat} {QU W : Mat K} (sym : Symmetric M QU)
    (hW : ∀ a < M, ∀ b < M, ∑ k ∈ Finset.range M, QU.e a k * W.e k b = if a = b then 1 else 0) : Symmetric M W := by
  have pick : ∀ (a : Nat), a < M → ∀ f : Nat → K, ∑ t ∈ Finset.range M, (if t = a then 1 else 0) * f t = f a := by
    intro a ha f
    rw [Finset.sum_eq_single a]
    · rw [if_pos rfl, one_mul]
    · intro t _ ht; rw [if_neg ht, zero_mul]
    · intro h; exact absurd (Finset.mem_range.2 ha) h
  intro i hi j hj
  -- both sides are `W' QU W`
  have h1 : ∑ s ∈ Finset.range M, W.e s i * ∑ t ∈ Finset.range M, QU.e s t * W.e t j = W.e j i := by
    rw [← pick j hj fun s => W.e s i]
    apply Finset.sum_congr rfl; intro s hs
    rw [hW s (Finset.mem_range.1 hs) j hj, mul_comm]
  have h2 : ∑ s ∈ Finset.range M, W.e s j * ∑ t ∈ Finset.range M, QU.e s t * W.e t i = W.e i j := by
    rw [← pick i hi fun s => W.e s j]
    apply Finset.sum_congr rfl; intro s hs
    rw [hW s (Finset.mem_range.1 hs) i hi, mul_comm]
  rw [← h1, ← h2]
  simp only [Finset.mul_sum]
  rw [Finset.sum_comm]
  apply Finset.sum_congr rfl; intro s hs
  apply Finset.sum_congr rfl; intro t ht
  rw [sym t (Finset.mem_range.1 ht) s (Finset.mem_range.1 hs)]; ring

/-- The pieces of the Hessian of an `InitialStateLMPC`. -/
theorem hessian_blocks {d : Dims} {dmax : K} {E : World K → Op K → Prop} {w w' : World K} {g : Ghost} {env : SolveEnv K}
    {b : Bool} {q : QP K} (h : Hist d dmax E w g) (hE : ∀ w op, E w op → NonnegWeights w op)
    (ho : OpOk d w g (.solve env)) (hi : w.ctl.isInit = true) (hinv : TrueInverse d env)
    (hs : w.solve env = some (w', b, q)) :
    q.nrVar = d.n + d.m * d.N ∧ ∃ QU W Ex : Mat K, PD (d.m * d.N) QU ∧
      (∀ a < d.m * d.N, ∀ b < d.m * d.N, ∑ k ∈ Finset.range (d.m * d.N), QU.e a k * W.e k b = if a = b then 1 else 0) ∧
      (∀ a < d.m * d.N, ∀ b < d.m * d.N, q.Q.e (d.n + a) (d.n + b) = QU.e a b) ∧
      (∀ a < d.n, ∀ b < d.m * d.N, q.Q.e a (d.n + b) = Ex.e a b) ∧
      (∀ a < d.n, ∀ b < d.m * d.N, q.Q.e (d.n + b) a = Ex.e a b) ∧
      ∀ a < d.n, ∀ b < d.n, q.Q.e a b = w.ctl.R.e a b + ∑ k ∈ Finset.range (d.m * d.N),
        (∑ l ∈ Finset.range (d.m * d.N), Ex.e a l * W.e l k) * Ex.e b k := by
  obtain ⟨p, hp, S⟩ := h.good.solved ho.2 hs
  have A := S.init hi
  obtain ⟨QU, Ex, r1, r2, r3, r4, hQ, hEx, hxx⟩ := A.Qxx
  have hpd : PD (d.m * d.N) QU := by
    apply pd_of_sum (F := fun i => (w'.costs i).Q) (L := w.ctl.spCost) (r := 1 / 1000000) (by norm_num)
    · intro a ha b hb; rw [hQ, A.QUU a ha b hb]
    · exact h.solve_psd hE ho hs
  have hc := ((ho.2.init hi).2.2.2.2.2 QU r1 r2).2
  refine ⟨by rw [A.nrVar, A.cr], QU, env.inverse QU, Ex, hpd, hinv QU r1 r2 hpd, fun a _ b _ => (hQ a b).symm,
    fun a _ b _ => (hEx a b).symm, fun a ha b hb => by rw [A.QUx a ha b hb, hEx], ?_⟩
  intro a ha b hb
  rw [hxx a ha b hb]
  congr 1
  show ∑ k ∈ Finset.range (env.inverse QU).cols, (∑ l ∈ Finset.range Ex.cols, Ex.e a l * (env.inverse QU).e l k) * Ex.e b k = _
  rw [hc, r4]

/-- C45, the true part: with nonnegative weights the Hessian handed to the solver by an `InitialStateLMPC`
is symmetric positive semidefinite whenever `R` is, and positive definite whenever `R` is.  `hinv` is the
contract of Eigen's `inverse()`. -/
theorem c45_hessian_partial {d : Dims} {dmax : K} {E : World K → Op K → Prop} {w w' : World K} {g : Ghost}
    {env : SolveEnv K} {b : Bool} {q : QP K} (h : Hist d dmax E w g) (hE : ∀ w op, E w op → NonnegWeights w op)
    (ho : OpOk d w g (.solve env)) (hi : w.ctl.isInit = true) (hinv : TrueInverse d env)
    (hs : w.solve env = some (w', b, q)) :
    (PSD d.n w.ctl.R → PSD q.nrVar q.Q) ∧ (PD d.n w.ctl.R → PD q.nrVar q.Q) := by
  obtain ⟨hn, QU, W, Ex, hpd, hW, hUU, hxU, hUx, hxx⟩ := hessian_blocks h hE ho hi hinv hs
  rw [hn]
  have wsym := inverse_symm hpd.1 hW
  have sym : Symmetric d.n w.ctl.R → Symmetric (d.n + d.m * d.N) q.Q := by
    intro hR i hi j hj
    by_cases h1 : i < d.n <;> by_cases h2 : j < d.n
    · rw [hxx i h1 j h2, hxx j h2 i h1, hR i h1 j h2]
      congr 1
      simp only [Finset.sum_mul]
      rw [Finset.sum_comm]
      apply Finset.sum_congr rfl; intro k hk
      apply Finset.sum_congr rfl; intro l hl
      rw [wsym k (Finset.mem_range.1 hk) l (Finset.mem_range.1 hl)]; ring
    · obtain ⟨k, rfl⟩ := Nat.exists_eq_add_of_le (not_lt.1 h2)
      rw [hxU i h1 k (by omega), hUx i h1 k (by omega)]
    · obtain ⟨k, rfl⟩ := Nat.exists_eq_add_of_le (not_lt.1 h1)
      rw [hxU j h2 k (by omega), hUx j h2 k (by omega)]
    · obtain ⟨k, rfl⟩ := Nat.exists_eq_add_of_le (not_lt.1 h1)
      obtain ⟨l, rfl⟩ := Nat.exists_eq_add_of_le (not_lt.1 h2)
      rw [hUU k (by omega) l (by omega), hUU l (by omega) k (by omega)]
      exact hpd.1 k (by omega) l (by omega)
  have nonneg : ∀ x : Nat → K, 0 ≤ ∑ k ∈ Finset.range (d.m * d.N), ∑ l ∈ Finset.range (d.m * d.N), x k * QU.e k l * x l := by
    intro x
    by_cases hx : ∃ i < d.m * d.N, x i ≠ 0
    · exact le_of_lt (hpd.2 x hx)
    · push Not at hx
      apply le_of_eq
      symm
      apply Finset.sum_eq_zero; intro k hk
      apply Finset.sum_eq_zero; intro l _
      rw [hx k (Finset.mem_range.1 hk)]; ring
  refine ⟨fun hR => ⟨sym hR.1, ?_⟩, fun hR => ⟨sym hR.1, ?_⟩⟩
  · intro y
    rw [schur hpd.1 hW hUU hxU hUx hxx y]
    exact add_nonneg (hR.2 y) (nonneg _)
  · intro y hy
    rw [schur hpd.1 hW hUU hxU hUx hxx y]
    by_cases hx : ∃ a < d.n, y a ≠ 0
    · exact add_pos_of_pos_of_nonneg (hR.2 y hx) (nonneg _)
    · push Not at hx
      have z1 : ∑ a ∈ Finset.range d.n, ∑ b ∈ Finset.range d.n, y a * w.ctl.R.e a b * y b = 0 := by
        apply Finset.sum_eq_zero; intro a ha
        apply Finset.sum_eq_zero; intro b _
        rw [hx a (Finset.mem_range.1 ha)]; ring
      have z2 : ∀ t, ∑ a ∈ Finset.range d.n, Ex.e a t * y a = 0 := by
        intro t
        apply Finset.sum_eq_zero; intro a ha
        rw [hx a (Finset.mem_range.1 ha)]; ring
      rw [z1, zero_add]
      simp only [z2, mul_zero, Finset.sum_const_zero, zero_add]
      apply hpd.2 fun k => y (d.n + k)
      obtain ⟨i, hi, hne⟩ := hy
      by_cases h1 : i < d.n
      · exact absurd (hx i h1) hne
      · obtain ⟨k, rfl⟩ := Nat.exists_eq_add_of_le (not_lt.1 h1)
        exact ⟨k, by omega, hne⟩

/-- C45, the false part: with a zero `R` (which is what the constructor sets, whatever the documentation of
`R_` says) and a non-trivial state the Hessian is never positive definite: there is a nonzero direction in
which it vanishes. -/
theorem c45_zero_R_not_pd {d : Dims} {dmax : K} {E : World K → Op K → Prop} {w w' : World K} {g : Ghost}
    {env : SolveEnv K} {b : Bool} {q : QP K} (h : Hist d dmax E w g) (hE : ∀ w op, E w op → NonnegWeights w op)
    (ho : OpOk d w g (.solve env)) (hi : w.ctl.isInit = true) (hinv : TrueInverse d env)
    (hs : w.solve env = some (w', b, q)) (hR : ∀ a < d.n, ∀ b < d.n, w.ctl.R.e a b = 0) (hn : 0 < d.n) :
    ¬ PD q.nrVar q.Q := by
  obtain ⟨hv, QU, W, Ex, hpd, hW, hUU, hxU, hUx, hxx⟩ := hessian_blocks h hE ho hi hinv hs
  rw [hv]
  intro hP
  have hx : ∀ j, ∑ a ∈ Finset.range d.n, Ex.e a j * joined d (fun _ => 1)
      (fun k => -∑ t ∈ Finset.range (d.m * d.N), W.e k t * ∑ a ∈ Finset.range d.n, Ex.e a t) a =
      ∑ a ∈ Finset.range d.n, Ex.e a j := by
    intro j
    apply Finset.sum_congr rfl; intro a ha
    rw [joined_lt (Finset.mem_range.1 ha), mul_one]
  have := hP.2 (joined d (fun _ => 1) fun k => -∑ t ∈ Finset.range (d.m * d.N), W.e k t * ∑ a ∈ Finset.range d.n, Ex.e a t)
    ⟨0, by omega, by rw [joined_lt hn]; exact one_ne_zero⟩
  rw [schur hpd.1 hW hUU hxU hUx hxx] at this
  simp only [hx, joined_add, add_neg_cancel, zero_mul, Finset.sum_const_zero, add_zero] at this
  apply lt_irrefl (0 : K)
  apply lt_of_lt_of_eq this
  apply Finset.sum_eq_zero; intro a ha
  apply Finset.sum_eq_zero; intro b hb
  rw [hR a (Finset.mem_range.1 ha) b (Finset.mem_range.1 hb)]; ring

/-! ## C58 -/

/-- The objective of a joint problem for a fixed initial state. -/
theorem objective_joined {n M : Nat} {d : Dims} (hn : d.n = n) {Q QU : Mat K} {c cx : Vec K} {x : Nat → K}
    (sym : ∀ a < n, ∀ b < M, Q.e (n + b) a = Q.e a (n + b))
    (hQ : ∀ a < M, ∀ b < M, QU.e a b = Q.e (n + a) (n + b))
    (hc : ∀ b < M, cx.e b = (∑ a ∈ Finset.range n, Q.e a (n + b) * x a) + c.e (n + b)) (U : Nat → K) :
    quadValue (n + M) Q c (joined d x U) = quadValue n Q c x + quadValue M QU cx U := by
  subst hn
  have j1 : ∀ f : Nat → K → K, ∑ j ∈ Finset.range d.n, f j (joined d x U j) = ∑ j ∈ Finset.range d.n, f j (x j) := by
    intro f; apply Finset.sum_congr rfl; intro j hj; rw [joined_lt (Finset.mem_range.1 hj)]
  unfold quadValue
  have hl : ∑ i ∈ Finset.range (d.n + M), c.e i * joined d x U i =
      (∑ i ∈ Finset.range d.n, c.e i * x i) + ∑ b ∈ Finset.range M, c.e (d.n + b) * U b := by
    rw [Finset.sum_range_add]
    simp only [joined_add]
    rw [j1 fun j t => c.e j * t]
  have hr : ∀ i t, ∑ j ∈ Finset.range (d.n + M), t * Q.e i j * joined d x U j =
      (∑ b ∈ Finset.range d.n, t * Q.e i b * x b) + ∑ b ∈ Finset.range M, t * Q.e i (d.n + b) * U b := by
    intro i t
    rw [Finset.sum_range_add]
    simp only [joined_add]
    rw [j1 fun j s => t * Q.e i j * s]
  have hq : ∑ i ∈ Finset.range (d.n + M), ∑ j ∈ Finset.range (d.n + M), joined d x U i * Q.e i j * joined d x U j =
      (∑ a ∈ Finset.range d.n, ∑ b ∈ Finset.range d.n, x a * Q.e a b * x b) +
      2 * (∑ b ∈ Finset.range M, (∑ a ∈ Finset.range d.n, Q.e a (d.n + b) * x a) * U b) +
      ∑ a ∈ Finset.range M, ∑ b ∈ Finset.range M, U a * QU.e a b * U b := by
    rw [Finset.sum_range_add]
    simp only [hr, joined_add]
    rw [j1 fun a t => (∑ b ∈ Finset.range d.n, t * Q.e a b * x b) + ∑ b ∈ Finset.range M, t * Q.e a (d.n + b) * U b]
    simp only [Finset.sum_add_distrib]
    have t1 : ∑ a ∈ Finset.range d.n, ∑ b ∈ Finset.range M, x a * Q.e a (d.n + b) * U b =
        ∑ b ∈ Finset.range M, (∑ a ∈ Finset.range d.n, Q.e a (d.n + b) * x a) * U b := by
      rw [Finset.sum_comm]
      apply Finset.sum_congr rfl; intro b _
      rw [Finset.sum_mul]
      apply Finset.sum_congr rfl; intro a _; ring
    have t2 : ∑ b ∈ Finset.range M, ∑ a ∈ Finset.range d.n, U b * Q.e (d.n + b) a * x a =
        ∑ b ∈ Finset.range M, (∑ a ∈ Finset.range d.n, Q.e a (d.n + b) * x a) * U b := by
      apply Finset.sum_congr rfl; intro b hb
      rw [Finset.sum_mul]
      apply Finset.sum_congr rfl; intro a ha
      rw [sym a (Finset.mem_range.1 ha) b (Finset.mem_range.1 hb)]; ring
    have t3 : ∑ a ∈ Finset.range M, ∑ b ∈ Finset.range M, U a * Q.e (d.n + a) (d.n + b) * U b =
        ∑ a ∈ Finset.range M, ∑ b ∈ Finset.range M, U a * QU.e a b * U b := by
      apply Finset.sum_congr rfl; intro a ha
      apply Finset.sum_congr rfl; intro b hb
      rw [hQ a (Finset.mem_range.1 ha) b (Finset.mem_range.1 hb)]
    rw [t1, t2, t3]; ring
  have hcx : ∑ b ∈ Finset.range M, cx.e b * U b =
      (∑ b ∈ Finset.range M, (∑ a ∈ Finset.range d.n, Q.e a (d.n + b) * x a) * U b) +
      ∑ b ∈ Finset.range M, c.e (d.n + b) * U b := by
    rw [← Finset.sum_add_distrib]
    apply Finset.sum_congr rfl; intro b hb
    rw [hc b (Finset.mem_range.1 hb)]; ring
  rw [hl, hq, hcx]
  ring

/-- The controls' part of the objective of an initial-state controller, for a fixed initial state `x`. -/
theorem objectiveInit {d : Dims} {inv : Mat K → Mat K} {w w' : World K} {q : QP K}
    (A : LMPC.AssembledInit d inv w'.cons w'.costs w.ctl q) (x U : Nat → K) :
    objective q (joined d x U) = quadValue d.n q.Q q.c x +
      quadValue (d.m * d.N) ⟨d.m * d.N, d.m * d.N, fun a b => q.Q.e (d.n + a) (d.n + b)⟩
        ⟨d.m * d.N, fun b => (∑ a ∈ Finset.range d.n, q.Q.e a (d.n + b) * x a) + q.c.e (d.n + b)⟩ U := by
  unfold objective
  rw [A.cr]
  exact objective_joined rfl A.QUx (fun _ _ _ _ => rfl) (fun _ _ => rfl) U

theorem Solved.objectiveInit {d : Dims} {p : Nat} {env : SolveEnv K} {w w' : World K} {b : Bool} {q : QP K}
    (S : Solved d p env w w' b q) (hi : w.ctl.isInit = true) (x U : Nat → K) :
    objective q (joined d x U) = quadValue d.n q.Q q.c x +
      quadValue (d.m * d.N) ⟨d.m * d.N, d.m * d.N, fun a b => q.Q.e (d.n + a) (d.n + b)⟩
        ⟨d.m * d.N, fun b => (∑ a ∈ Finset.range d.n, q.Q.e a (d.n + b) * x a) + q.c.e (d.n + b)⟩ U :=
  World.objectiveInit (S.init hi) x U

/-- The objective handed to the solver by an `InitialStateLMPC` for a fixed initial state `x`, for any description `X`
of the predicted trajectory from `x`. -/
theorem objectiveInit_of {d : Dims} {inv : Mat K → Mat K} {w w' : World K} {q : QP K}
    (A : LMPC.AssembledInit d inv w'.cons w'.costs w.ctl q) {x : Nat → K} {X : (Nat → K) → Nat → Nat → K}
    (hV : ∀ i ∈ w.ctl.spCost, ∀ U, (w'.costs i).formValue d x U =
      1 / 2 * ((w.costs i).userData.value d (X U) U - (w.costs i).userData.value d (X fun _ => 0) fun _ => 0)) :
    ∃ k : K, ∀ U : Nat → K, objective q (joined d x U) =
      1 / 2 * (w.ctl.spCost.map fun i => (w.costs i).userData.value d (X U) U).sum
        + 1 / 2 * (1 / 1000000) * ∑ j ∈ Finset.range (d.m * d.N), U j ^ 2 + k := by
  refine ⟨quadValue d.n q.Q q.c x + (w.ctl.spCost.map fun i =>
    -(1 / 2 * (w.costs i).userData.value d (X fun _ => 0) fun _ => 0)).sum, ?_⟩
  intro U
  rw [World.objectiveInit A x U, quadValue_sum (L := w.ctl.spCost) (F := fun i => (w'.costs i).Q)
    (G := fun i => ⟨d.m * d.N, fun b => (∑ a ∈ Finset.range d.n, (w'.costs i).E.e a b * x a) + (w'.costs i).f.e b⟩)
    (r := 1 / 1000000) A.QUU ?_ U]
  · rw [list_sum_mul]
    have : (w.ctl.spCost.map fun i => quadValue (d.m * d.N) (w'.costs i).Q
        ⟨d.m * d.N, fun b => (∑ a ∈ Finset.range d.n, (w'.costs i).E.e a b * x a) + (w'.costs i).f.e b⟩ U) =
        w.ctl.spCost.map fun i => 1 / 2 * (w.costs i).userData.value d (X U) U +
          - (1 / 2 * (w.costs i).userData.value d (X fun _ => 0) fun _ => 0) := by
      apply List.map_congr_left
      intro i hm
      have : quadValue (d.m * d.N) (w'.costs i).Q
        ⟨d.m * d.N, fun b => (∑ a ∈ Finset.range d.n, (w'.costs i).E.e a b * x a) + (w'.costs i).f.e b⟩ U =
          (w'.costs i).formValue d x U := rfl
      rw [this, hV i hm U]
      ring
    rw [this, list_sum_add]
    ring
  · intro b hb
    simp only
    rw [list_sum_add, A.cU b hb, ← list_sum_comm]
    congr 1
    apply Finset.sum_congr rfl; intro a ha
    rw [A.QxU a (Finset.mem_range.1 ha) b hb, mul_comm, list_sum_mul]
    congr 1
    apply List.map_congr_left; intro i _; ring

/-- C58: for each initial state `x`, the objective handed to the solver by an `InitialStateLMPC` is, up to a
constant that does not depend on the controls, half the sum of the declared costs of the trajectory simulated
from `x` under the controls, plus the regularisation. -/
theorem c58_objective_per_state {d : Dims} {dmax : K} {E : World K → Op K → Prop} {w w' : World K} {g : Ghost}
    {env : SolveEnv K} {b : Bool} {q : QP K} {p : Nat} (h : Hist d dmax E w g) (ho : OpOk d w g (.solve env))
    (hi : w.ctl.isInit = true) (hf : CostsFresh d w g) (hs : w.solve env = some (w', b, q)) (hp : w.ctl.ps = some p)
    (x : Nat → K) : ∃ k : K, ∀ U : Nat → K, objective q (joined d x U) = totalCostFrom d w p x U + k := by
  have hg := h.good
  obtain ⟨p', hp', S⟩ := hg.solved ho.2 hs
  rw [hp] at hp'
  cases hp'
  have V := S.entries hg hf
  refine objectiveInit_of (S.init hi) fun i hm U => ?_
  obtain ⟨e, r, u⟩ := V i hm
  have := (e.exact two_ne_zero r S.heap.pred).joint x U
  have e2 : (w'.costs i).formValue d x U = _ := this
  rw [e2, u, ← S.trajFrom x U, ← S.trajFrom x fun _ => 0]
  rfl

/-! ## C46 -/

theorem joined_self {d : Dims} (y : Nat → K) : joined d y (fun j => y (d.n + j)) = y := by
  funext j
  by_cases h : j < d.n
  · rw [joined_lt h]
  · obtain ⟨k, rfl⟩ := Nat.exists_eq_add_of_le (not_lt.1 h)
    rw [joined_add]

theorem joined_congr {d : Dims} {x x' U : Nat → K} (h : ∀ j < d.n, x j = x' j) : joined d x U = joined d x' U := by
  funext j
  unfold joined
  split
  · next hj => exact h j hj
  · rfl

theorem forall_forall₂ {P Q : Nat → Prop} {L L' : List Nat} (h : List.Forall₂ (fun i j => P i ↔ Q j) L L') :
    (∀ i ∈ L, P i) ↔ ∀ j ∈ L', Q j := by
  induction h with
  | nil => simp
  | cons h _ ih => simp only [List.mem_cons, forall_eq_or_imp, h, ih]

theorem Ext.pinned {a b : K} {l u : Ext K} (hl : l = Ext.fin a) (hu : u = Ext.fin a) (h1 : l ≤ Ext.fin b)
    (h2 : Ext.fin b ≤ u) : b = a := by
  subst hl hu
  have h1 : a ≤ b := h1
  have h2 : b ≤ a := h2
  exact le_antisymm h2 h1

/-- C46: an `InitialStateLMPC` whose initial-state bounds both equal the system's initial state `x0`, and an
`LMPC` with the same system, costs and constraints (in the same order), whatever happened before in the two
programs: (a) every feasible point of the first has `x0` as its initial state and feasible controls for the
second, (b) conversely, (c) the objectives differ by a constant on those points, so that (d), (e) their
optimal controls are the same. -/
theorem c46_pinned {d : Dims} {dmax : K} {E1 E2 : World K → Op K → Prop} {w1 w2 w1' w2' : World K} {g1 g2 : Ghost}
    {env1 env2 : SolveEnv K} {b1 b2 : Bool} {q1 q2 : QP K} {p1 p2 : Nat}
    (h1 : Hist d dmax E1 w1 g1) (h2 : Hist d dmax E2 w2 g2)
    (hE1 : ∀ w op, E1 w op → NoBoundSpan w op) (hE2 : ∀ w op, E2 w op → NoBoundSpan w op)
    (o1 : OpOk d w1 g1 (.solve env1)) (o2 : OpOk d w2 g2 (.solve env2))
    (hp1 : w1.ctl.ps = some p1) (hp2 : w2.ctl.ps = some p2)
    (i1 : w1.ctl.isInit = true) (i2 : w2.ctl.isInit = false) (same : SameDeclared w1 p1 w2 p2)
    (pin : ∀ j < d.n, w1.ctl.x0lb.e j = Ext.fin ((w1.pss p1).x0.e j) ∧ w1.ctl.x0ub.e j = Ext.fin ((w1.pss p1).x0.e j))
    (f1 : CostsFresh d w1 g1) (f2 : CostsFresh d w2 g2)
    (c1 : w1.ctl.spBoundConstr = [] → g1.clean) (c2 : w2.ctl.spBoundConstr = [] → g2.clean)
    (s1 : w1.solve env1 = some (w1', b1, q1)) (s2 : w2.solve env2 = some (w2', b2, q2)) :
    (∀ y, Feasible q1 y → (∀ j < d.n, y j = (w1.pss p1).x0.e j) ∧ Feasible q2 fun j => y (d.n + j)) ∧
    (∀ U, Feasible q2 U → Feasible q1 (joined d (w1.pss p1).x0.e U)) ∧
    (∃ k : K, ∀ U, objective q1 (joined d (w1.pss p1).x0.e U) = objective q2 U + k) ∧
    (∀ y, IsOptimal q1 y → IsOptimal q2 fun j => y (d.n + j)) ∧
    ∀ U, IsOptimal q2 U → IsOptimal q1 (joined d (w1.pss p1).x0.e U) := by
  have G1 := h1.good
  have G2 := h2.good
  obtain ⟨p, hp, S1⟩ := G1.solved o1.2 s1
  rw [hp1] at hp; cases hp
  obtain ⟨p, hp, S2⟩ := G2.solved o2.2 s2
  rw [hp2] at hp; cases hp
  have C1 := G1.canUpdate hp1
  have C2 := G2.canUpdate hp2
  have D : SameDet d w1 p1 w2 p2 := by
    refine ⟨same.A, same.B, same.bias, fun j hj => same.x0.2 j (by rw [C1.x0]; exact hj), ?_⟩
    exact (forall₂_mem same.cons).imp fun i j h => ⟨h.1, h.2.1,
      Constr.determined (C1.cons i h.1) (C2.cons j h.2.1) (h1.lines hE1 i) (h2.lines hE2 j) h.2.2⟩
  have s := sysEq S1.heap S2.heap D.A D.B D.bias D.x0
  have V1 := S1.entries G1 f1
  have V2 := S2.entries G2 f2
  have A1 := S1.init i1
  have A2 := S2.plain i2
  obtain ⟨t1, t2, t3, t4⟩ := stacks_agree C1 C2 S1.heap S2.heap D
  obtain ⟨ty1, ty2, _⟩ := C2.typed
  generalize hx0 : (w1.pss p1).x0.e = x0 at pin ⊢
  -- one row
  have row : ∀ i j, j ∈ w2.ctl.spConstr → (w2.cons j).kind ≠ .ctrlBound → ((w1'.cons i).nrConstr = (w2'.cons j).nrConstr ∧
      ∀ r < (w1'.cons i).nrConstr, (∀ k < d.m * d.N, (w1'.cons i).A.e r k = (w2'.cons j).A.e r k) ∧
      (∀ k < d.n, (w1'.cons i).Y.e r k = (w2'.cons j).Y.e r k) ∧
      (w1'.cons i).z.e r = (w2'.cons j).z.e r ∧ (w1'.cons i).b.e r = (w2'.cons j).b.e r) → ∀ U : Nat → K, ∀ ineq : Bool,
      (∀ r < (w1'.cons i).nrConstr, Rel ineq (∑ k ∈ Finset.range (d.n + d.m * d.N),
        (if k < d.n then (w1'.cons i).Y.e r k else (w1'.cons i).A.e r (k - d.n)) * joined d x0 U k) ((w1'.cons i).z.e r)) ↔
      (∀ r < (w2'.cons j).nrConstr, Rel ineq (∑ k ∈ Finset.range (d.m * d.N), (w2'.cons j).A.e r k * U k) ((w2'.cons j).b.e r)) := by
    rintro i j hj hk ⟨hnr, hrow⟩ U ineq
    rw [← hnr]
    apply forall_congr'; intro r
    apply forall_congr'; intro hr
    obtain ⟨ra, ry, rz, _⟩ := hrow r hr
    obtain ⟨_, f, u⟩ := (S2.heap.cons j).1 hj
    have hb := (u.rows (by rw [f.kind]; exact hk) r (by rw [← hnr]; exact hr)).b
    rw [sum_joined (fun k => (w1'.cons i).Y.e r k) (fun k => (w1'.cons i).A.e r k), hb, rel_sub, rz, add_comm]
    have e1 : ∑ k ∈ Finset.range (d.m * d.N), (w1'.cons i).A.e r k * U k = ∑ k ∈ Finset.range (d.m * d.N), (w2'.cons j).A.e r k * U k := by
      apply Finset.sum_congr rfl; intro k hk; rw [ra k (Finset.mem_range.1 hk)]
    have e2 : ∑ k ∈ Finset.range d.n, (w1'.cons i).Y.e r k * x0 k = ∑ k ∈ Finset.range d.n, (w2'.cons j).Y.e r k * (w2'.pss p2).x0.e k := by
      apply Finset.sum_congr rfl; intro k hk
      rw [ry k (Finset.mem_range.1 hk), S2.heap.x0, ← D.x0 k (Finset.mem_range.1 hk), hx0]
    rw [e1, e2]
  -- feasible sets
  have FE : ∀ U, (∀ t < q1.Aeq.rows, Ext.fin (rowValue q1.Aeq (joined d x0 U) t) = q1.beq.e t) ↔
      ∀ t < q2.Aeq.rows, Ext.fin (rowValue q2.Aeq U t) = q2.beq.e t := by
    intro U
    rw [A1.eq.forall (fun a b => Ext.fin a = b), A2.eq.forall (fun a b => Ext.fin a = b)]
    apply forall_forall₂
    exact (forall₂_mem t1).imp fun i j h => by
      have := row i j (ty1 j h.2.1).1 (ty1 j h.2.1).2.1 h.2.2 U false
      simpa [Rel] using this
  have FI : ∀ U, (∀ t < q1.Aineq.rows, Ext.fin (rowValue q1.Aineq (joined d x0 U) t) ≤ q1.bineq.e t) ↔
      ∀ t < q2.Aineq.rows, Ext.fin (rowValue q2.Aineq U t) ≤ q2.bineq.e t := by
    intro U
    rw [A1.ineq.forall (fun a b => Ext.fin a ≤ b), A2.ineq.forall (fun a b => Ext.fin a ≤ b)]
    apply forall_forall₂
    exact (forall₂_mem t2).imp fun i j h => by
      have := row i j (ty2 j h.2.1).1 (ty2 j h.2.1).2.1 h.2.2 U true
      simpa [Rel] using this
  have B : ∀ j < d.m * d.N, q1.lb.e (d.n + j) = q2.lb.e j ∧ q1.ub.e (d.n + j) = q2.ub.e j := by
    intro j hj
    have hlen := C1.one
    rcases hl : w1.ctl.spBoundConstr with _ | ⟨i, _ | ⟨i', r⟩⟩
    · have hl2 := t3.1 hl
      rw [(A1.keep hl j hj).1, (A1.keep hl j hj).2, (A2.keep hl2).1, (A2.keep hl2).2]
      have k1 := G1.clean (c1 hl) (by rw [hp1]; exact Option.some_ne_none _) j hj
      have k2 := G2.clean (c2 hl2) (by rw [hp2]; exact Option.some_ne_none _) j hj
      unfold off at k1 k2
      rw [i1] at k1; rw [i2] at k2
      simp only [Bool.false_eq_true, if_false, if_true, Nat.zero_add] at k1 k2
      rw [k1.1, k1.2, k2.1, k2.2]
      exact ⟨rfl, rfl⟩
    · obtain ⟨j', hj', e⟩ := t4 i hl
      rw [(A1.bound i hl j hj).1, (A1.bound i hl j hj).2, (A2.bound j' hj' j hj).1, (A2.bound j' hj' j hj).2]
      exact e j hj
    · rw [hl] at hlen; simp at hlen
  have ab : ∀ y, Feasible q1 y → (∀ j < d.n, y j = x0 j) ∧ Feasible q2 fun j => y (d.n + j) := by
    rintro y ⟨a1, a2, a3, a4⟩
    rw [A1.lbr] at a3
    rw [A1.ubr] at a4
    have hy : ∀ j < d.n, y j = x0 j := by
      intro j hj
      refine Ext.pinned (pin j hj).1 (pin j hj).2 ?_ ?_
      · rw [← (A1.bx j hj).1]; exact a3 j (by omega)
      · rw [← (A1.bx j hj).2]; exact a4 j (by omega)
    have hyj : y = joined d x0 fun j => y (d.n + j) := by
      rw [← joined_congr hy, joined_self]
    refine ⟨hy, ?_, ?_, ?_, ?_⟩
    · rw [← FE, ← hyj]; exact a1
    · rw [← FI, ← hyj]; exact a2
    · intro j hj; rw [A2.lbr] at hj; rw [← (B j hj).1]; exact a3 _ (by omega)
    · intro j hj; rw [A2.ubr] at hj; rw [← (B j hj).2]; exact a4 _ (by omega)
  have ba : ∀ U, Feasible q2 U → Feasible q1 (joined d x0 U) := by
    rintro U ⟨a1, a2, a3, a4⟩
    rw [A2.lbr] at a3
    rw [A2.ubr] at a4
    refine ⟨(FE U).2 a1, (FI U).2 a2, ?_, ?_⟩
    · intro j hj
      rw [A1.lbr] at hj
      by_cases hn : j < d.n
      · rw [joined_lt hn, (A1.bx j hn).1, (pin j hn).1]; exact le_refl (x0 j)
      · obtain ⟨k, rfl⟩ := Nat.exists_eq_add_of_le (not_lt.1 hn)
        rw [joined_add, (B k (by omega)).1]; exact a3 k (by omega)
    · intro j hj
      rw [A1.ubr] at hj
      by_cases hn : j < d.n
      · rw [joined_lt hn, (A1.bx j hn).2, (pin j hn).2]; exact le_refl (x0 j)
      · obtain ⟨k, rfl⟩ := Nat.exists_eq_add_of_le (not_lt.1 hn)
        rw [joined_add, (B k (by omega)).2]; exact a4 k (by omega)
  -- objectives
  have R : List.Forall₂ (fun i j => Cost.ResEq d (w1'.costs i) (w2'.costs j) ∧
      ∀ b < d.m * d.N, (w2'.costs j).c.e b = (∑ a ∈ Finset.range d.n, (w1'.costs i).E.e a b * x0 a) + (w1'.costs i).f.e b)
      w1.ctl.spCost w2.ctl.spCost := by
    refine (forall₂_mem same.costs).imp ?_
    rintro i j ⟨hi, hj, h⟩
    obtain ⟨e1, r1, u1⟩ := V1 i hi
    obtain ⟨e2, r2, u2⟩ := V2 j hj
    have re := (Cost.determined r1.pre r2.pre (by rw [u1, u2]; exact h)).resEq s e1 e2
    refine ⟨re, fun b hb => ?_⟩
    rw [← re.c b hb, e1.c b hb, S1.heap.x0, hx0]
  have ob : ∀ U, objective q1 (joined d x0 U) = objective q2 U + quadValue d.n q1.Q q1.c x0 := by
    intro U
    rw [S1.objectiveInit i1 x0 U, add_comm]
    congr 1
    unfold objective
    rw [A2.cr]
    have hQ : ∀ a < d.m * d.N, ∀ b < d.m * d.N, q1.Q.e (d.n + a) (d.n + b) = q2.Q.e a b := by
      intro a ha b hb
      rw [A1.QUU a ha b hb, A2.Q a ha b hb]
      congr 1
      exact sum_forall₂ (R.imp fun i j h => h.1.Q a ha b hb)
    have hc : ∀ b < d.m * d.N, (∑ a ∈ Finset.range d.n, q1.Q.e a (d.n + b) * x0 a) + q1.c.e (d.n + b) = q2.c.e b := by
      intro b hb
      rw [A2.c b hb, ← sum_forall₂ (f := fun i => (∑ a ∈ Finset.range d.n, (w1'.costs i).E.e a b * x0 a) + (w1'.costs i).f.e b)
        (R.imp fun i j h => (h.2 b hb).symm), list_sum_add, A1.cU b hb, ← list_sum_comm]
      congr 1
      apply Finset.sum_congr rfl; intro a ha
      rw [A1.QxU a (Finset.mem_range.1 ha) b hb, mul_comm, list_sum_mul]
      congr 1
      apply List.map_congr_left; intro i _; ring
    unfold quadValue
    congr 1
    · congr 1
      apply Finset.sum_congr rfl; intro a ha
      apply Finset.sum_congr rfl; intro b hb
      rw [← hQ a (Finset.mem_range.1 ha) b (Finset.mem_range.1 hb)]
    · apply Finset.sum_congr rfl; intro b hb
      rw [← hc b (Finset.mem_range.1 hb)]
  refine ⟨ab, ba, ⟨_, ob⟩, ?_, ?_⟩
  · rintro y ⟨hy, hmin⟩
    obtain ⟨hy0, hyU⟩ := ab y hy
    refine ⟨hyU, fun V hV => ?_⟩
    have hyj : y = joined d x0 fun j => y (d.n + j) := by
      rw [← joined_congr hy0, joined_self]
    have := hmin _ (ba V hV)
    rw [hyj, ob, ob] at this
    exact le_of_add_le_add_right this
  · rintro U ⟨hU, hmin⟩
    refine ⟨ba U hU, fun y hy => ?_⟩
    obtain ⟨hy0, hyU⟩ := ab y hy
    have hyj : y = joined d x0 fun j => y (d.n + j) := by
      rw [← joined_congr hy0, joined_self]
    rw [hyj, ob, ob]
    have := hmin _ hyU
    linarith

end World
end Copra
