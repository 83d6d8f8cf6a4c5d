import Verif.Proofs.ConstrHist
import Verif.Props.PreviewSystem

/-! # Properties C14-C18, C21: rows of registered constraints

The life of a constraint object: it is constructed, possibly `autoSpan`ned, accepted by
`initializeConstraint` for a system of dimensions `d` (this is what `addConstraint` calls), then
`update`d (this is what every `solve` calls), `autoSpan`ned or re-initialised any number of times with
any systems of the same dimensions. -/

namespace Copra
open Spec

set_option linter.unusedSectionVars false

variable {K : Type} [Field K]

/-- A preview system obtained from a default constructed one by any history of API calls, the last
accepted `system` call of which had dimensions `d`. -/
def Accepted (d : Dims) (ps : PreviewSystem K) : Prop :=
  Relation.ReflTransGen PsStep (PreviewSystem.default : PreviewSystem K) ps ∧
  0 < ps.nrUStep ∧ ps.xDim = d.n ∧ ps.uDim = d.m ∧ ps.nrUStep = d.N

/-- ... whose prediction matrices are up to date and whose initial state has the right size. -/
def Current (d : Dims) (ps : PreviewSystem K) : Prop :=
  Accepted d ps ∧ ps.isUpdated = true ∧ ps.x0.rows = d.n

theorem Accepted.any {d : Dims} {ps : PreviewSystem K} (h : Accepted d ps) : SysAny d ps := by
  obtain ⟨hh, h0, h1, h2, h3⟩ := h
  rcases hist_of_history hh with h | ⟨d', h⟩
  · omega
  · have : d' = d := by
      have e1 := h.shape.xDim
      have e2 := h.shape.uDim
      have e3 := h.shape.nrU
      cases d; cases d'
      simp only [Dims.mk.injEq]
      exact ⟨e1.symm.trans h1, e2.symm.trans h2, e3.symm.trans h3⟩
    rw [← this]; exact h

theorem Accepted.shape {d : Dims} {ps : PreviewSystem K} (h : Accepted d ps) : SysShape d ps := h.any.shape

theorem Current.pred {d : Dims} {ps : PreviewSystem K} (h : Current d ps) : SysPred d ps :=
  (h.1.any.upd h.2.1).2

namespace Constr

/-- One thing that can happen to a registered constraint. -/
inductive Step (d : Dims) : Constr K → Constr K → Prop
  | update {c c' ps} : Current d ps → c.update ps = some c' → Step d c c'
  | span {c c' junk} : c.autoSpan junk = .ok c' → Step d c c'
  | reinit {c c' ps junk} : Accepted d ps → c.initializeConstraint junk ps = .ok c' → Step d c c'
  | rejected {c c' ps junk e} : Accepted d ps → c.initializeConstraint junk ps = .thrown e c' → Step d c c'

/-- Any history of a registered constraint. -/
def History (d : Dims) : Constr K → Constr K → Prop := Relation.ReflTransGen (Step d)

theorem Step.reg {d : Dims} {c c' : Constr K} (h : Step d c c') (hr : Reg d c) : Reg d c' ∧ Frame c c' := by
  cases h with
  | update hp hu =>
    obtain ⟨h1, h2, _⟩ := (update_ok hr hp.1.shape hp.pred hp.2.2).of_eq hu
    exact ⟨h1, h2⟩
  | @span junk hs =>
    rw [autoSpan_rowsAgree junk hr.rowsAgree] at hs
    cases hs
    exact ⟨hr, Frame.refl c⟩
  | reinit hp hi =>
    obtain ⟨h1, h2⟩ := init_reg hp.shape hr hi
    exact ⟨h2, h1⟩
  | rejected hp hi =>
    rw [init_thrown hi]
    exact ⟨hr, Frame.refl c⟩

theorem History.reg {d : Dims} {c c' : Constr K} (h : History d c c') (hr : Reg d c) :
    Reg d c' ∧ Frame c c' := by
  induction h with
  | refl => exact ⟨hr, Frame.refl c⟩
  | tail _ hs ih =>
    obtain ⟨h1, h2⟩ := hs.reg ih.1
    exact ⟨h1, ih.2.trans h2⟩

/-- Acceptance of a never initialised constraint. -/
theorem init_unreg {d : Dims} {ps : PreviewSystem K} {c c1 : Constr K} {junk : Junk K} (hu : Unreg c)
    (hp : Accepted d ps) (hi : c.initializeConstraint junk ps = .ok c1) :
    Reg d c1 ∧ c1.userData = c.userData ∧ c1.kind = c.kind ∧ c1.isIneq = c.isIneq ∧
    c1.nrConstr = rowsNeeded d c ∧ c1.lowerLines = c.lowerLines ∧ c1.upperLines = c.upperLines := by
  have H := initializeConstraint_spec (c := c) junk hp.shape
  obtain ⟨ho, hf, hn⟩ := init_ok hp.shape hi
  obtain ⟨c', e, h2, h3, h4, h5, h6, h7, h8⟩ := H.accept ho hf hn
  rw [hi] at e
  cases e
  obtain ⟨a, b⟩ := h8 (Or.inl hu)
  exact ⟨a, b, h2, h3, h4, h6, h7⟩

section ordered
variable [LinearOrder K] [IsStrictOrderedRing K]

/-- What the trajectory bound rows impose depends on the data and the recorded lines only. -/
theorem Frame.sem {d : Dims} {X : Nat → Nat → K} {U : Nat → K} {c c' : Constr K} (h : Frame c c') :
    c'.Sem d X U ↔ c.Sem d X U := by
  have hud := h.userData
  unfold Sem
  rw [h.kind, hud]
  cases c.kind <;> try exact Iff.rfl
  simp only
  unfold BoundRowsHold boundSteps
  rw [h.full, h.lowerLines, h.upperLines, h.lower, h.upper]

theorem sem_congr {d : Dims} {X X' : Nat → Nat → K} {U : Nat → K} {c : Constr K} (hk : c.kind ≠ .ctrlBound)
    (hr : Reg d c) (h : ∀ k ≤ d.N, ∀ r < d.n, X k r = X' k r) : c.Sem d X U ↔ c.Sem d X' U := by
  rw [← rows_sem hk hr, ← rows_sem hk hr]
  constructor
  · intro H i hi
    have := H i hi
    rwa [Row.lhs_congr h] at this
  · intro H i hi
    rw [Row.lhs_congr h]
    exact H i hi

/-- Rows of an updated constraint, initial state free. -/
theorem update_rows_joint {d : Dims} {ps : PreviewSystem K} {c c' : Constr K} (hk : c.kind ≠ .ctrlBound)
    (hr : Reg d c) (S : SysShape d ps) (P : SysPred d ps)
    (hrows : ∀ i < c.nrConstr, RowIs d ps c' i (c.row d i)) (x U : Nat → K) :
    (∀ i < c.nrConstr, Rel c.ineq (c'.rowXU d x U i) (c'.z.e i)) ↔
      c.Sem d (sim d ps.A ps.B ps.d x U) U := by
  rw [← sem_congr hk hr (predC_eq_sim P x U), ← rows_sem hk hr]
  constructor
  · intro H i hi; rw [← (hrows i hi).rel_z]; exact H i hi
  · intro H i hi; rw [(hrows i hi).rel_z]; exact H i hi

/-- Rows of an updated constraint, for the initial state of the system. -/
theorem update_rows {d : Dims} {ps : PreviewSystem K} {c c' : Constr K} (hk : c.kind ≠ .ctrlBound)
    (hr : Reg d c) (S : SysShape d ps) (P : SysPred d ps)
    (hrows : ∀ i < c.nrConstr, RowIs d ps c' i (c.row d i)) (U : Nat → K) :
    (∀ i < c.nrConstr, Rel c.ineq (∑ j ∈ Finset.range (d.m * d.N), c'.A.e i j * U j) (c'.b.e i)) ↔
      c.Sem d (sim d ps.A ps.B ps.d ps.x0.e U) U := by
  rw [← sem_congr hk hr (predC_eq_sim P ps.x0.e U), ← rows_sem hk hr]
  constructor
  · intro H i hi; rw [← (hrows i hi).rel_b]; exact H i hi
  · intro H i hi; rw [(hrows i hi).rel_b]; exact H i hi

theorem Reg.sizes {d : Dims} {c : Constr K} (h : Reg d c) (hk : c.kind ≠ .ctrlBound) : RowSizes d c := by
  unfold Reg at h
  cases hkk : c.kind <;> rw [hkk] at h
  · exact h.sizes
  · exact h.sizes
  · exact h.sizes
  · exact h.sizes
  · exact absurd hkk hk

/-- The matrices of an updated constraint hold exactly on the controls (and, with a free initial state,
on the pairs of initial state and controls) whose simulated trajectory satisfies `S`. -/
structure RowsExact (d : Dims) (ps : PreviewSystem K) (c : Constr K) (q : Bool) (nr : Nat)
    (S : (Nat → Nat → K) → (Nat → K) → Prop) : Prop where
  count : c.nrConstr = nr
  type : c.constraintType = if q then .inequality else .equality
  sizes : c.A.rows = nr ∧ c.A.cols = d.m * d.N ∧ c.b.rows = nr ∧ c.Y.rows = nr ∧ c.Y.cols = d.n ∧ c.z.rows = nr
  rows : ∀ U : Nat → K, (∀ i < nr, Rel q (rowValue c.A U i) (c.b.e i)) ↔
    S (sim d ps.A ps.B ps.d ps.x0.e U) U
  joint : ∀ x U : Nat → K, (∀ i < nr, Rel q (rowValue c.Y x i + rowValue c.A U i) (c.z.e i)) ↔
    S (sim d ps.A ps.B ps.d x U) U

/-- Everything about the next `update` of a registered constraint that hands rows to the solver. -/
theorem history_rows {d : Dims} {ps0 ps : PreviewSystem K} {c c1 c2 : Constr K} {junk : Junk K}
    (hu : Unreg c) (hk : c.kind ≠ .ctrlBound) (h0 : Accepted d ps0)
    (hi : c.initializeConstraint junk ps0 = .ok c1) (hh : History d c1 c2) (hp : Current d ps) :
    ∃ c3, c2.update ps = some c3 ∧ RowsExact d ps c3 c.ineq (rowsNeeded d c) (fun X U => c1.Sem d X U) := by
  obtain ⟨r1, hud, k1, q1, n1, _, _⟩ := init_unreg hu h0 hi
  obtain ⟨r2, f2⟩ := hh.reg r1
  obtain ⟨c3, e3, r3, f3, rows3, _⟩ := update_ok r2 hp.1.shape hp.pred hp.2.2
  have f13 := f2.trans f3
  have hk1 : c1.kind ≠ .ctrlBound := by rw [k1]; exact hk
  have hk2 : c2.kind ≠ .ctrlBound := by rw [f2.kind]; exact hk1
  have hk3 : c3.kind ≠ .ctrlBound := by rw [f3.kind]; exact hk2
  have Z := r3.sizes hk3
  have hn3 : c3.nrConstr = rowsNeeded d c := by rw [f13.nr, n1]
  have hn2 : c2.nrConstr = rowsNeeded d c := by rw [f2.nr, n1]
  have hq : c2.ineq = c.ineq := by
    unfold ineq
    rw [f2.kind, k1, f2.isIneq, q1]
  refine ⟨c3, e3, hn3, ?_, ?_, ?_, ?_⟩
  · unfold constraintType ineq
    rw [f13.kind, k1, f13.isIneq, q1]
    cases hkk : c.kind
    · rfl
    · rfl
    · rfl
    · rfl
    · exact absurd hkk hk
  · rw [← hn3]; exact ⟨Z.Ar, Z.Ac, Z.br, Z.Yr, Z.Yc, Z.zr⟩
  · intro U
    have := update_rows hk2 r2 hp.1.shape hp.pred (rows3 hk2) U
    rw [hn2, hq, f2.sem] at this
    unfold rowValue
    rw [Z.Ac]
    exact this
  · intro x U
    have := update_rows_joint hk2 r2 hp.1.shape hp.pred (rows3 hk2) x U
    rw [hn2, hq, f2.sem] at this
    unfold rowValue
    rw [Z.Ac, Z.Yc]
    exact this

theorem sem_data {d : Dims} {X : Nat → Nat → K} {U : Nat → K} {c : Constr K} (hk : c.kind ≠ .trajBound) :
    c.Sem d X U ↔ c.userData.Holds d X U := by
  unfold Sem
  cases hkk : c.kind <;> first | exact Iff.rfl | exact absurd hkk hk

theorem RowsExact.congr {d : Dims} {ps : PreviewSystem K} {c : Constr K} {q : Bool} {nr : Nat}
    {S S' : (Nat → Nat → K) → (Nat → K) → Prop} (h : RowsExact d ps c q nr S)
    (hS : ∀ X U, S X U ↔ S' X U) : RowsExact d ps c q nr S' :=
  ⟨h.count, h.type, h.sizes, fun U => (h.rows U).trans (hS _ _), fun x U => (h.joint x U).trans (hS _ _)⟩

/-- C14: rows of a registered `TrajectoryConstraint(E, f, q)` after any history. -/
theorem c14_trajectory_rows_exact {d : Dims} {E : Mat K} {f : Vec (Ext K)} {q : Bool} {junk : Junk K}
    {ps0 ps : PreviewSystem K} {c1 c2 : Constr K} (h0 : Accepted d ps0)
    (hi : (mkTrajectory E f q).initializeConstraint junk ps0 = .ok c1) (hh : History d c1 c2)
    (hp : Current d ps) :
    ∃ c3, c2.update ps = some c3 ∧ RowsExact d ps c3 q (if E.cols = d.n then E.rows * (d.N + 1) else E.rows)
      ((ConstrData.trajectory q E f).Holds d) := by
  have hu : Unreg (mkTrajectory E f q) := fresh_unreg (Or.inl ⟨E, f, q, rfl⟩)
  obtain ⟨c3, e, H⟩ := history_rows hu (by simp [mkTrajectory, fresh]) h0 hi hh hp
  obtain ⟨_, hud, k1, _⟩ := init_unreg hu h0 hi
  refine ⟨c3, e, H.congr ?_⟩
  intro X U
  rw [sem_data (by rw [k1]; simp [mkTrajectory, fresh]), hud]
  rfl

/-- C15: rows of a registered `ControlConstraint(G, f, q)` after any history. -/
theorem c15_control_rows_exact {d : Dims} {G : Mat K} {f : Vec (Ext K)} {q : Bool} {junk : Junk K}
    {ps0 ps : PreviewSystem K} {c1 c2 : Constr K} (h0 : Accepted d ps0)
    (hi : (mkControl G f q).initializeConstraint junk ps0 = .ok c1) (hh : History d c1 c2)
    (hp : Current d ps) :
    ∃ c3, c2.update ps = some c3 ∧ RowsExact d ps c3 q (if G.cols = d.m then G.rows * d.N else G.rows)
      ((ConstrData.control q G f).Holds d) := by
  have hu : Unreg (mkControl G f q) := fresh_unreg (Or.inr (Or.inl ⟨G, f, q, rfl⟩))
  obtain ⟨c3, e, H⟩ := history_rows hu (by simp [mkControl, fresh]) h0 hi hh hp
  obtain ⟨_, hud, k1, _⟩ := init_unreg hu h0 hi
  refine ⟨c3, e, H.congr ?_⟩
  intro X U
  rw [sem_data (by rw [k1]; simp [mkControl, fresh]), hud]
  rfl

/-- C16: rows of a registered `MixedConstraint(E, G, f, q)` after any history. -/
theorem c16_mixed_rows_exact {d : Dims} {E G : Mat K} {f : Vec (Ext K)} {q : Bool} {junk : Junk K}
    {ps0 ps : PreviewSystem K} {c1 c2 : Constr K} (h0 : Accepted d ps0)
    (hi : (mkMixed E G f q).initializeConstraint junk ps0 = .ok c1) (hh : History d c1 c2)
    (hp : Current d ps) :
    ∃ c3, c2.update ps = some c3 ∧
      RowsExact d ps c3 q (if E.cols = d.n ∧ G.cols = d.m then E.rows * d.N else E.rows)
      ((ConstrData.mixed q E G f).Holds d) := by
  have hu : Unreg (mkMixed E G f q) := fresh_unreg (Or.inr (Or.inr (Or.inl ⟨E, G, f, q, rfl⟩)))
  obtain ⟨c3, e, H⟩ := history_rows hu (by simp [mkMixed, fresh]) h0 hi hh hp
  obtain ⟨_, hud, k1, _⟩ := init_unreg hu h0 hi
  refine ⟨c3, e, H.congr ?_⟩
  intro X U
  rw [sem_data (by rw [k1]; simp [mkMixed, fresh]), hud]
  rfl

/-! ## C17: trajectory bounds -/

/-- What a trajectory bound constraint imposes as built: finite lower bounds are imposed as *upper*
bounds. -/
def TrajBoundAsBuilt (d : Dims) (l u : Vec (Ext K)) (X : Nat → Nat → K) : Prop :=
  ∀ k ≤ d.N, ∀ r < d.n,
    (l.e (if l.rows = d.n then r else k * d.n + r) ≠ .ninf →
      Ext.fin (X k r) ≤ l.e (if l.rows = d.n then r else k * d.n + r)) ∧
    Ext.fin (X k r) ≤ u.e (if l.rows = d.n then r else k * d.n + r)

theorem mem_lines_ninf {v : Vec (Ext K)} {l : Nat} :
    l ∈ finiteLines Ext.isNinf v ↔ l < v.rows ∧ v.e l ≠ .ninf := by
  unfold finiteLines
  simp only [List.mem_filter, List.mem_range, Bool.not_eq_true', and_congr_right_iff]
  intro _
  cases v.e l <;> simp [Ext.isNinf]

theorem mem_lines_pinf {v : Vec (Ext K)} {l : Nat} :
    l ∈ finiteLines Ext.isPinf v ↔ l < v.rows ∧ v.e l ≠ .pinf := by
  unfold finiteLines
  simp only [List.mem_filter, List.mem_range, Bool.not_eq_true', and_congr_right_iff]
  intro _
  cases v.e l <;> simp [Ext.isPinf]

theorem Ext.le_pinf (a : Ext K) : a ≤ Ext.pinf := by cases a <;> trivial

/-- Reading of the rows when the recorded lines are the finite entries of the bounds. -/
theorem boundRows_lines {d : Dims} {c : Constr K} (hr : RegTrajBound d c)
    (hl : c.lowerLines = finiteLines Ext.isNinf c.lower) (hu : c.upperLines = finiteLines Ext.isPinf c.upper)
    (X : Nat → Nat → K) :
    BoundRowsHold d X c ↔ TrajBoundAsBuilt d c.lower c.upper X := by
  have D := hr.dims
  unfold BoundRowsHold TrajBoundAsBuilt
  rw [hl, hu]
  by_cases hf : c.fullSizeEntry
  · rw [if_pos hf] at D
    have hb : boundSteps d c = 1 := by unfold boundSteps; rw [if_pos hf]
    rw [hb]
    simp only [if_neg D.1]
    constructor
    · intro H k hk r hr'
      have hlt : k * d.n + r < d.n * (d.N + 1) := blk_lt' (by omega) hr'
      obtain ⟨H1, H2⟩ := H 0 (by omega)
      constructor
      · intro hne
        have := H1 (k * d.n + r) (mem_lines_ninf.2 ⟨by rw [D.2]; exact hlt, hne⟩)
        rwa [Nat.mul_zero, Nat.add_zero, blk_div hr', blk_mod hr'] at this
      · by_cases hp : c.upper.e (k * d.n + r) = .pinf
        · rw [hp]; exact Ext.le_pinf _
        · have := H2 (k * d.n + r) (mem_lines_pinf.2 ⟨by rw [hr.rows, D.2]; exact hlt, hp⟩)
          rwa [Nat.mul_zero, Nat.add_zero, blk_div hr', blk_mod hr'] at this
    · intro H t ht
      have : t = 0 := by omega
      subst this
      constructor
      · intro l hl
        obtain ⟨h1, h2⟩ := mem_lines_ninf.1 hl
        rw [D.2, Nat.mul_comm] at h1
        obtain ⟨k, r, hk, hr', rfl⟩ := blk_split h1
        rw [Nat.mul_zero, Nat.add_zero, blk_div hr', blk_mod hr']
        exact (H k (by omega) r hr').1 h2
      · intro l hl
        obtain ⟨h1, h2⟩ := mem_lines_pinf.1 hl
        rw [hr.rows, D.2, Nat.mul_comm] at h1
        obtain ⟨k, r, hk, hr', rfl⟩ := blk_split h1
        rw [Nat.mul_zero, Nat.add_zero, blk_div hr', blk_mod hr']
        exact (H k (by omega) r hr').2
  · rw [if_neg hf] at D
    have hb : boundSteps d c = d.N + 1 := by unfold boundSteps; rw [if_neg hf]
    rw [hb]
    simp only [if_pos D]
    have idx : ∀ l k, l + d.n * k = k * d.n + l := fun l k => by rw [Nat.mul_comm, Nat.add_comm]
    constructor
    · intro H k hk r hr'
      obtain ⟨H1, H2⟩ := H k (by omega)
      constructor
      · intro hne
        have := H1 r (mem_lines_ninf.2 ⟨by rw [D]; exact hr', hne⟩)
        rwa [idx, blk_div hr', blk_mod hr'] at this
      · by_cases hp : c.upper.e r = .pinf
        · rw [hp]; exact Ext.le_pinf _
        · have := H2 r (mem_lines_pinf.2 ⟨by rw [hr.rows, D]; exact hr', hp⟩)
          rwa [idx, blk_div hr', blk_mod hr'] at this
    · intro H k hk
      constructor
      · intro r hl
        obtain ⟨h1, h2⟩ := mem_lines_ninf.1 hl
        rw [D] at h1
        rw [idx, blk_div h1, blk_mod h1]
        exact (H k (by omega) r h1).1 h2
      · intro r hl
        obtain ⟨h1, h2⟩ := mem_lines_pinf.1 hl
        rw [hr.rows, D] at h1
        rw [idx, blk_div h1, blk_mod h1]
        exact (H k (by omega) r h1).2

/-- C17, what is true of every trajectory bound constraint: the rows are exactly the upper bounds
together with the lower bounds *read as upper bounds*. -/
theorem c17_rows_as_built {d : Dims} {l u : Vec (Ext K)} {junk : Junk K}
    {ps0 ps : PreviewSystem K} {c1 c2 : Constr K} (h0 : Accepted d ps0)
    (hi : (mkTrajBound l u).initializeConstraint junk ps0 = .ok c1) (hh : History d c1 c2)
    (hp : Current d ps) :
    ∃ c3 nr, c2.update ps = some c3 ∧ RowsExact d ps c3 true nr (fun X _ => TrajBoundAsBuilt d l u X) := by
  have hu : Unreg (mkTrajBound l u) := fresh_unreg (Or.inr (Or.inr (Or.inr (Or.inl ⟨l, u, rfl⟩))))
  obtain ⟨c3, e, H⟩ := history_rows hu (by simp [mkTrajBound, fresh]) h0 hi hh hp
  obtain ⟨r1, hud, k1, _, _, l1, u1⟩ := init_unreg hu h0 hi
  have hk : c1.kind = .trajBound := by rw [k1]; rfl
  have hl : c1.lower = l ∧ c1.upper = u := by
    have e : c1.userData = .trajBound c1.lower c1.upper := by unfold userData; rw [hk]
    rw [e] at hud
    have e2 : (mkTrajBound l u).userData = .trajBound l u := rfl
    rw [e2] at hud
    injection hud with a b
    exact ⟨a, b⟩
  refine ⟨c3, _, e, H.congr ?_⟩
  intro X U
  unfold Sem
  rw [hk]
  simp only
  unfold Reg at r1
  rw [hk] at r1
  rw [boundRows_lines r1 (by rw [l1, hl.1]; rfl) (by rw [u1, hl.2]; rfl), hl.1, hl.2]

/-- C17 (partial): without finite lower bounds (every lower entry is `-infinity`) the rows are exact.
Missing: finite lower bounds, for which the property is false, see `c17_false`. -/
theorem c17_trajBound_rows_exact_partial {d : Dims} {l u : Vec (Ext K)} {junk : Junk K}
    {ps0 ps : PreviewSystem K} {c1 c2 : Constr K} (h0 : Accepted d ps0)
    (hl : ∀ i < l.rows, l.e i = .ninf)
    (hi : (mkTrajBound l u).initializeConstraint junk ps0 = .ok c1) (hh : History d c1 c2)
    (hp : Current d ps) :
    ∃ c3 nr, c2.update ps = some c3 ∧ RowsExact d ps c3 true nr ((ConstrData.trajBound l u).Holds d) := by
  obtain ⟨c3, nr, e, H⟩ := c17_rows_as_built h0 hi hh hp
  have hf : l.rows = u.rows ∧ (l.rows = d.n ∨ l.rows = d.n * (d.N + 1)) := (init_ok h0.shape hi).2.1
  refine ⟨c3, nr, e, H.congr ?_⟩
  intro X U
  unfold TrajBoundAsBuilt ConstrData.Holds
  by_cases hn : l.rows = d.n
  · simp only [if_pos hn]
    unfold TrajBoundStep
    constructor
    · intro H k hk r hr
      exact ⟨by rw [hl r (by omega)]; trivial, (H k hk r hr).2⟩
    · intro H k hk r hr
      exact ⟨fun h => absurd (hl r (by omega)) h, (H k hk r hr).2⟩
  · simp only [if_neg hn]
    unfold TrajBoundFull
    have hb : ∀ k ≤ d.N, ∀ r < d.n, k * d.n + r < l.rows := fun k hk r hr => by
      rw [hf.2.resolve_left hn, Nat.mul_comm d.n (d.N + 1)]
      exact blk_lt (by omega) hr
    constructor
    · intro H k hk r hr
      exact ⟨by rw [hl _ (hb k hk r hr)]; trivial, (H k hk r hr).2⟩
    · intro H k hk r hr
      exact ⟨fun h => absurd (hl _ (hb k hk r hr)) h, (H k hk r hr).2⟩

/-! ## C18: control bounds -/

/-- C18: bounds of a registered `ControlBoundConstraint(l, u)` after any history. -/
theorem c18_control_bounds_exact {d : Dims} {l u : Vec (Ext K)} {junk : Junk K}
    {ps0 ps : PreviewSystem K} {c1 c2 : Constr K} (h0 : Accepted d ps0)
    (hi : (mkCtrlBound l u).initializeConstraint junk ps0 = .ok c1) (hh : History d c1 c2)
    (hp : Current d ps) :
    ∃ c3, c2.update ps = some c3 ∧ c3.constraintType = .bound ∧ c3.nrConstr = d.m * d.N ∧
      c3.lb.rows = d.m * d.N ∧ c3.ub.rows = d.m * d.N ∧
      (∀ k < d.N, ∀ r < d.m,
        c3.lb.e (k * d.m + r) = l.e (if l.rows = d.m then r else k * d.m + r) ∧
        c3.ub.e (k * d.m + r) = u.e (if l.rows = d.m then r else k * d.m + r)) ∧
      ∀ (X : Nat → Nat → K) (U : Nat → K),
        (∀ j < d.m * d.N, c3.lb.e j ≤ Ext.fin (U j) ∧ Ext.fin (U j) ≤ c3.ub.e j) ↔
          (ConstrData.ctrlBound l u).Holds d X U := by
  have hu : Unreg (mkCtrlBound l u) := fresh_unreg (Or.inr (Or.inr (Or.inr (Or.inr ⟨l, u, rfl⟩))))
  obtain ⟨r1, hud, k1, q1, n1, _, _⟩ := init_unreg hu h0 hi
  obtain ⟨r2, f2⟩ := hh.reg r1
  obtain ⟨c3, e3, r3, f3, _, b3⟩ := update_ok r2 hp.1.shape hp.pred hp.2.2
  have f13 := f2.trans f3
  have hk1 : c1.kind = .ctrlBound := by rw [k1]; rfl
  have hk2 : c2.kind = .ctrlBound := by rw [f2.kind]; exact hk1
  have hk3 : c3.kind = .ctrlBound := by rw [f3.kind]; exact hk2
  have r2' := r2
  have r3' := r3
  unfold Reg at r2 r3
  rw [hk2] at r2
  rw [hk3] at r3
  have hud2 : c2.userData = .ctrlBound l u := by rw [f2.userData, hud]; rfl
  have sem := bounds_sem hk2 r2 f3 (b3 hk2)
  rw [hud2] at sem
  refine ⟨c3, e3, by unfold constraintType; rw [hk3], r3.nr, r3.lbr, r3.ubr, ?_, sem⟩
  intro k hkN r hr
  have D := r2.dims
  unfold userData at hud2
  simp only [hk2] at hud2
  by_cases hf : c2.fullSizeEntry
  · rw [if_pos hf] at D hud2
    injection hud2 with a b
    obtain ⟨e1, e2⟩ := f3.movedB hf hk2
    have : ¬ l.rows = d.m := by rw [← a, r2.lbr]; exact D
    rw [e1, e2, a, b, if_neg this]
    exact ⟨rfl, rfl⟩
  · rw [if_neg hf] at D hud2
    injection hud2 with a b
    have : l.rows = d.m := by rw [← a]; exact D
    rw [if_pos this, ← a, ← b]
    exact b3 hk2 (by simpa using hf) k hkN r hr

/-! ## C21: rows do not depend on history -/

/-- C21: two copies of the same constraint, each accepted, updated, spanned and re-initialised along its
own history (other systems of the same dimensions, other initial states, other uninitialised memory),
have the same rows and bounds after an update with systems that agree on the dynamics and on the
initial state. -/
theorem c21_rows_history_independent {d : Dims} {c c1 c2 c1' c2' : Constr K} {junk junk' : Junk K}
    {ps0 ps ps0' ps' : PreviewSystem K} (hu : Unreg c) (h0 : Accepted d ps0) (h0' : Accepted d ps0')
    (hi : c.initializeConstraint junk ps0 = .ok c1) (hi' : c.initializeConstraint junk' ps0' = .ok c1')
    (hh : History d c1 c2) (hh' : History d c1' c2') (hp : Current d ps) (hp' : Current d ps')
    (hA : ps'.A = ps.A) (hB : ps'.B = ps.B) (hd : ps'.d = ps.d) (hx : VecEq ps.x0 ps'.x0) :
    ∃ c3 c3', c2.update ps = some c3 ∧ c2'.update ps' = some c3' ∧ c3.nrConstr = c3'.nrConstr ∧
      (c.kind ≠ .ctrlBound → MatEq c3.A c3'.A ∧ VecEq c3.b c3'.b ∧ MatEq c3.Y c3'.Y ∧ VecEq c3.z c3'.z) ∧
      (c.kind = .ctrlBound → VecEq c3.lb c3'.lb ∧ VecEq c3.ub c3'.ub) := by
  obtain ⟨r1, _, k1, _, n1, _⟩ := init_unreg hu h0 hi
  obtain ⟨r1', _, k1', _, n1', _⟩ := init_unreg hu h0' hi'
  have f11 : Frame c1 c1' := init_frame h0.shape h0'.shape (fun _ => hu.1) hi hi'
  obtain ⟨r2, f2⟩ := hh.reg r1
  obtain ⟨r2', f2'⟩ := hh'.reg r1'
  obtain ⟨c3, e3, r3, f3, rows3, b3⟩ := update_ok r2 hp.1.shape hp.pred hp.2.2
  obtain ⟨c3', e3', r3', f3', rows3', b3'⟩ := update_ok r2' hp'.1.shape hp'.pred hp'.2.2
  have nreq : c3.nrConstr = c3'.nrConstr := by
    rw [(f2.trans f3).nr, (f2'.trans f3').nr, n1, n1']
  have hk3 : c3.kind = c.kind := by rw [f3.kind, f2.kind, k1]
  have hk3' : c3'.kind = c.kind := by rw [f3'.kind, f2'.kind, k1']
  refine ⟨c3, c3', e3, e3', nreq, ?_, ?_⟩
  · intro hk
    have Z := r3.sizes (by rw [hk3]; exact hk)
    have Z' := r3'.sizes (by rw [hk3']; exact hk)
    obtain ⟨p1, p2, p3⟩ := hp.pred.unique hp'.pred hp.1.shape hp'.1.shape hA.symm hB.symm hd.symm
    have key : ∀ i < c3.nrConstr, _ := fun i hi => by
      have a := rows3 (by rw [f2.kind, k1]; exact hk) i (by rw [← f3.nr]; exact hi)
      have b := rows3' (by rw [f2'.kind, k1']; exact hk) i (by rw [← f3'.nr, ← nreq]; exact hi)
      rw [f2'.row, f11.row, ← f2.row] at b
      exact RowIs.congr a b hp.1.shape hp'.1.shape p1 p2 p3 hx hp.2.2
    refine ⟨⟨?_, ?_, ?_⟩, ⟨?_, ?_⟩, ⟨?_, ?_, ?_⟩, ⟨?_, ?_⟩⟩
    · rw [Z.Ar, Z'.Ar, nreq]
    · rw [Z.Ac, Z'.Ac]
    · intro i hi j hj
      rw [Z.Ar] at hi; rw [Z.Ac] at hj
      exact (key i hi).1 j hj
    · rw [Z.br, Z'.br, nreq]
    · intro i hi
      rw [Z.br] at hi
      exact (key i hi).2.2.2
    · rw [Z.Yr, Z'.Yr, nreq]
    · rw [Z.Yc, Z'.Yc]
    · intro i hi j hj
      rw [Z.Yr] at hi; rw [Z.Yc] at hj
      exact (key i hi).2.1 j hj
    · rw [Z.zr, Z'.zr, nreq]
    · intro i hi
      rw [Z.zr] at hi
      exact (key i hi).2.2.1
  · intro hk
    have hk2 : c2.kind = .ctrlBound := by rw [f2.kind, k1]; exact hk
    have hk2' : c2'.kind = .ctrlBound := by rw [f2'.kind, k1']; exact hk
    unfold Reg at r3 r3'
    rw [hk3, hk] at r3
    rw [hk3', hk] at r3'
    have full : c2'.fullSizeEntry = c2.fullSizeEntry := by rw [f2'.full, f11.full, ← f2.full]
    have all : ∀ j < d.m * d.N, c3.lb.e j = c3'.lb.e j ∧ c3.ub.e j = c3'.ub.e j := by
      by_cases hf : c2.fullSizeEntry
      · obtain ⟨a1, a2⟩ := f3.movedB hf hk2
        obtain ⟨a1', a2'⟩ := f3'.movedB (by rw [full]; exact hf) hk2'
        have hf1 : c1.fullSizeEntry = true := by rw [← f2.full]; exact hf
        have hf1' : c1'.fullSizeEntry = true := by rw [f11.full]; exact hf1
        have hkc1 : c1.kind = .ctrlBound := by rw [k1]; exact hk
        have hkc1' : c1'.kind = .ctrlBound := by rw [k1']; exact hk
        obtain ⟨b1, b2⟩ := f2.movedB hf1 hkc1
        obtain ⟨b1', b2'⟩ := f2'.movedB hf1' hkc1'
        obtain ⟨d1, d2⟩ := f11.movedB hf1 hkc1
        intro j _
        rw [a1, a2, a1', a2', b1, b2, b1', b2', d1, d2]
        exact ⟨rfl, rfl⟩
      · simp only [Bool.not_eq_true] at hf
        rw [forall_blk]
        intro k hk r hr
        obtain ⟨a1, a2⟩ := b3 hk2 hf k hk r hr
        obtain ⟨a1', a2'⟩ := b3' hk2' (by rw [full]; exact hf) k hk r hr
        rw [a1, a2, a1', a2', f2.lower, f2.upper, f2'.lower, f2'.upper, f11.lower, f11.upper]
        exact ⟨rfl, rfl⟩
    refine ⟨⟨by rw [r3.lbr, r3'.lbr], ?_⟩, ⟨by rw [r3.ubr, r3'.ubr], ?_⟩⟩
    · intro j hj; rw [r3.lbr] at hj; exact (all j hj).1
    · intro j hj; rw [r3.ubr] at hj; exact (all j hj).2

end ordered
end Constr
end Copra
