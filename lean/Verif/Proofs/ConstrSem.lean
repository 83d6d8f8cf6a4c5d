import Verif.Proofs.Constraints

/-! # Meaning of registered constraints: initialisation, update, rows versus declared data -/

namespace Copra
open Spec

set_option linter.unusedSectionVars false
set_option linter.unusedSimpArgs false

variable {K : Type} [Field K]

namespace Constr

/-- What `update` leaves alone. -/
structure Frame (c c' : Constr K) : Prop where
  kind : c'.kind = c.kind
  isIneq : c'.isIneq = c.isIneq
  nr : c'.nrConstr = c.nrConstr
  full : c'.fullSizeEntry = c.fullSizeEntry
  hbi : c'.hasBeenInitialized = c.hasBeenInitialized
  E : c'.E = c.E
  G : c'.G = c.G
  f : c'.f = c.f
  lower : c'.lower = c.lower
  upper : c'.upper = c.upper
  lowerLines : c'.lowerLines = c.lowerLines
  upperLines : c'.upperLines = c.upperLines
  movedC : c.fullSizeEntry = true → c.kind = .control → c'.A = c.A ∧ c'.b = c.b
  movedB : c.fullSizeEntry = true → c.kind = .ctrlBound → c'.lb = c.lb ∧ c'.ub = c.ub

theorem Frame.refl (c : Constr K) : Frame c c :=
  ⟨rfl, rfl, rfl, rfl, rfl, rfl, rfl, rfl, rfl, rfl, rfl, rfl, fun _ _ => ⟨rfl, rfl⟩, fun _ _ => ⟨rfl, rfl⟩⟩

theorem Frame.trans {a b c : Constr K} (h : Frame a b) (g : Frame b c) : Frame a c where
  kind := g.kind.trans h.kind
  isIneq := g.isIneq.trans h.isIneq
  nr := g.nr.trans h.nr
  full := g.full.trans h.full
  hbi := g.hbi.trans h.hbi
  E := g.E.trans h.E
  G := g.G.trans h.G
  f := g.f.trans h.f
  lower := g.lower.trans h.lower
  upper := g.upper.trans h.upper
  lowerLines := g.lowerLines.trans h.lowerLines
  upperLines := g.upperLines.trans h.upperLines
  movedC := fun hf hk => by
    obtain ⟨h1, h2⟩ := h.movedC hf hk
    obtain ⟨g1, g2⟩ := g.movedC (by rw [h.full]; exact hf) (by rw [h.kind]; exact hk)
    exact ⟨g1.trans h1, g2.trans h2⟩
  movedB := fun hf hk => by
    obtain ⟨h1, h2⟩ := h.movedB hf hk
    obtain ⟨g1, g2⟩ := g.movedB (by rw [h.full]; exact hf) (by rw [h.kind]; exact hk)
    exact ⟨g1.trans h1, g2.trans h2⟩

theorem Same.frame {c c' : Constr K} (h : Same c c')
    (hm : c.fullSizeEntry = true → c.kind = .control → c' = c) : Frame c c' where
  kind := h.kind
  isIneq := h.isIneq
  nr := h.nrConstr
  full := h.full
  hbi := h.hbi
  E := h.E
  G := h.G
  f := h.f
  lower := h.lower
  upper := h.upper
  lowerLines := h.lowerLines
  upperLines := h.upperLines
  movedC := fun hf hk => by rw [hm hf hk]; exact ⟨rfl, rfl⟩
  movedB := fun _ _ => ⟨h.lb, h.ub⟩

theorem Frame.userData {c c' : Constr K} (h : Frame c c') : c'.userData = c.userData := by
  unfold Constr.userData
  rw [h.kind]
  cases hk : c.kind with
  | trajectory => simp only [h.isIneq, h.E, h.f]
  | mixed => simp only [h.isIneq, h.E, h.G, h.f]
  | trajBound => simp only [h.lower, h.upper]
  | control =>
    simp only [h.full, h.isIneq, h.G, h.f]
    by_cases hf : c.fullSizeEntry
    · simp only [hf, if_true, (h.movedC hf hk).1, (h.movedC hf hk).2]
    · simp [hf]
  | ctrlBound =>
    simp only [h.full, h.lower, h.upper]
    by_cases hf : c.fullSizeEntry
    · simp only [hf, if_true, (h.movedB hf hk).1, (h.movedB hf hk).2]
    · simp [hf]

theorem Frame.row {c c' : Constr K} {d : Dims} (h : Frame c c') (i : Nat) : c'.row d i = c.row d i := by
  unfold Constr.row
  rw [h.kind]
  cases hk : c.kind with
  | trajectory => simp only [h.full, h.E, h.f]
  | mixed => simp only [h.full, h.E, h.G, h.f]
  | trajBound =>
    have hb : boundSteps d c' = boundSteps d c := by unfold boundSteps; rw [h.full]
    simp only [h.lower, h.upper, h.lowerLines, h.upperLines, hb]
  | control =>
    simp only [h.full, h.G, h.f]
    by_cases hf : c.fullSizeEntry
    · simp only [hf, if_true, (h.movedC hf hk).1, (h.movedC hf hk).2]
    · simp [hf]
  | ctrlBound => rfl

/-- A constraint handed to the QP through rows with relation `<=` (as opposed to `=`). -/
def ineq (c : Constr K) : Bool := match c.kind with
  | .trajBound => true
  | _ => c.isIneq

/-- The prediction matrices suit the way the constraint computes its rows: no condition unless it is a per-step mixed
constraint. -/
def Suits (d : Dims) (ps : PreviewSystem K) (c : Constr K) : Prop :=
  c.kind = .mixed → c.fullSizeEntry = false → Shifts d ps

theorem Frame.suits {d : Dims} {ps : PreviewSystem K} {c c' : Constr K} (h : Frame c c') :
    Suits d ps c' ↔ Suits d ps c := by
  unfold Suits; rw [h.kind, h.full]

/-- `update` of a registered constraint, whatever the prediction matrices contain. -/
theorem update_raw {d : Dims} {ps : PreviewSystem K} {c : Constr K} (h : Reg d c) (S : SysShape d ps)
    (hx : ps.x0.rows = d.n) :
    Ok (c.update ps) fun c' => Reg d c' ∧ Frame c c' ∧
      (Suits d ps c → c.kind ≠ .ctrlBound → ∀ i < c.nrConstr, RowIs d ps c' i (c.row d i)) ∧
      (c.kind = .ctrlBound → c.fullSizeEntry = false → ∀ k < d.N, ∀ r < d.m,
        c'.lb.e (k * d.m + r) = c.lower.e r ∧ c'.ub.e (k * d.m + r) = c.upper.e r) := by
  unfold update
  unfold Reg at h
  cases hk : c.kind with
  | trajectory =>
    rw [hk] at h
    refine (updateTrajectory_ok hk h S hx).mono ?_
    rintro c' ⟨h1, h2, h3⟩
    refine ⟨?_, h2.frame (fun _ e => by rw [hk] at e; cases e), fun _ _ => h3, fun e => by cases e⟩
    unfold Reg; rw [h2.kind, hk]; exact h1
  | control =>
    rw [hk] at h
    refine (updateControl_ok hk h S).mono ?_
    rintro c' ⟨h1, h2, h3, h4⟩
    refine ⟨?_, h2.frame (fun e _ => h4 e), fun _ _ => h3, fun e => by cases e⟩
    unfold Reg; rw [h2.kind, hk]; exact h1
  | mixed =>
    rw [hk] at h
    refine (updateMixed_ok hk h S hx).mono ?_
    rintro c' ⟨h1, h2, h3⟩
    refine ⟨?_, h2.frame (fun _ e => by rw [hk] at e; cases e), fun hs _ => h3 (hs hk), fun e => by cases e⟩
    unfold Reg; rw [h2.kind, hk]; exact h1
  | trajBound =>
    rw [hk] at h
    refine (updateTrajBound_ok hk h S hx).mono ?_
    rintro c' ⟨h1, h2, h3⟩
    refine ⟨?_, h2.frame (fun _ e => by rw [hk] at e; cases e), fun _ _ => h3, fun e => by cases e⟩
    unfold Reg; rw [h2.kind, hk]; exact h1
  | ctrlBound =>
    rw [hk] at h
    refine (updateCtrlBound_ok h S).mono ?_
    rintro c' ⟨h1, h2, h3, h4⟩
    refine ⟨?_, ?_, fun _ e => absurd rfl e, fun _ => h4⟩
    · have : c'.kind = .ctrlBound := by rw [h2]; exact hk
      unfold Reg; rw [this]; exact h1
    · constructor
      case movedC => intro _ e; rw [hk] at e; cases e
      case movedB => intro e _; rw [h3 e]; exact ⟨rfl, rfl⟩
      all_goals rw [h2]

/-- `update` of a registered constraint: in bounds, keeps the data, rows in closed form. -/
theorem update_ok {d : Dims} {ps : PreviewSystem K} {c : Constr K} (h : Reg d c) (S : SysShape d ps)
    (P : SysPred d ps) (hx : ps.x0.rows = d.n) :
    Ok (c.update ps) fun c' => Reg d c' ∧ Frame c c' ∧
      (c.kind ≠ .ctrlBound → ∀ i < c.nrConstr, RowIs d ps c' i (c.row d i)) ∧
      (c.kind = .ctrlBound → c.fullSizeEntry = false → ∀ k < d.N, ∀ r < d.m,
        c'.lb.e (k * d.m + r) = c.lower.e r ∧ c'.ub.e (k * d.m + r) = c.upper.e r) :=
  (update_raw h S hx).mono fun _ ⟨a, b, c, e⟩ => ⟨a, b, c fun _ _ => P.shifts, e⟩

/-! ## Initialisation -/

/-- Never successfully initialised, or accepted for dimensions `d`. -/
def Usable (d : Dims) (c : Constr K) : Prop :=
  (c.fullSizeEntry = false ∧ (c.kind = .trajBound → LinesOk c) ∧ (c.kind = .control → c.A.rows = c.b.rows) ∧
    (c.kind = .ctrlBound → c.lb.rows = c.ub.rows)) ∨ Reg d c

/-- What a successful initialisation gives, and when it happens. -/
structure InitSpec (d : Dims) (c : Constr K) (r : Res (Constr K)) : Prop where
  once : Once c → c.hasBeenInitialized = true → r = .thrown .runtimeError c
  reject : ¬ (Once c ∧ c.hasBeenInitialized = true) → ¬ Fits d c → r = .thrown .domainError c
  overflow : ¬ (Once c ∧ c.hasBeenInitialized = true) → Fits d c → ¬ rowsNeeded d c ≤ intMax → r = .ub
  accept : ¬ (Once c ∧ c.hasBeenInitialized = true) → Fits d c → rowsNeeded d c ≤ intMax →
    ∃ c', r = .ok c' ∧ c'.kind = c.kind ∧ c'.isIneq = c.isIneq ∧ c'.nrConstr = rowsNeeded d c ∧
      (Once c → c'.hasBeenInitialized = true) ∧ c'.lowerLines = c.lowerLines ∧
      c'.upperLines = c.upperLines ∧
      (Usable d c → Reg d c' ∧ c'.userData = c.userData)

theorem chkInt_none {n : Nat} (h : ¬ n ≤ intMax) : Copra.chkInt n = none := by simp [Copra.chkInt, h]

theorem chkInt_some {n : Nat} (h : n ≤ intMax) : Copra.chkInt n = some n := by simp [Copra.chkInt, h]

theorem initTrajectory_spec {d : Dims} {ps : PreviewSystem K} {c : Constr K} (junk : Junk K)
    (hk : c.kind = .trajectory) (S : SysShape d ps) : InitSpec d c (c.initTrajectory junk ps) := by
  have honce : ¬ Once c := by unfold Once; rw [hk]; simp
  unfold initTrajectory
  rw [S.xDim, S.fullX, S.nrX]
  constructor
  · intro h; exact absurd h honce
  · intro _ hf
    unfold Fits at hf; rw [hk] at hf
    split
    · rfl
    · rw [if_neg, if_neg]
      · intro h; exact hf ⟨by tauto, Or.inr h⟩
      · intro h; exact hf ⟨by tauto, Or.inl h⟩
  · intro _ hf hn
    unfold Fits at hf; rw [hk] at hf
    unfold rowsNeeded at hn; rw [hk] at hn
    rw [if_neg (by simp [hf.1])]
    by_cases hc : c.E.cols = d.n
    · rw [if_pos hc] at hn ⊢
      unfold allocRows; rw [chkInt_none hn]; rfl
    · rw [if_neg hc] at hn ⊢
      have h2 : c.E.cols = d.n * (d.N + 1) := by tauto
      rw [if_pos h2]
      unfold allocRows; rw [chkInt_none hn]; rfl
  · intro _ hf hn
    unfold Fits at hf; rw [hk] at hf
    unfold rowsNeeded at hn ⊢; rw [hk] at hn ⊢
    rw [if_neg (by simp [hf.1])]
    by_cases hc : c.E.cols = d.n
    · simp only [if_pos hc] at hn ⊢
      unfold allocRows; rw [chkInt_some hn]
      refine ⟨_, rfl, by first | exact hk | rfl, rfl, rfl, fun h => absurd h honce, rfl, rfl, ?_⟩
      intro hu
      have hfull : c.fullSizeEntry = false := by
        rcases hu with hu | hu
        · exact hu.1
        · unfold Reg at hu; rw [hk] at hu
          have := hu.dims
          by_contra hcon
          simp only [Bool.not_eq_false] at hcon
          rw [hcon] at this
          exact this.1 hc
      refine ⟨?_, by unfold userData; simp only [hk]⟩
      unfold Reg; simp only [hk]
      refine ⟨⟨rfl, S.fullU, rfl, rfl, S.xDim, rfl⟩, hf.1.symm, ?_⟩
      rw [if_neg (by simp [hfull])]
      exact ⟨hc, rfl⟩
    · simp only [if_neg hc] at hn ⊢
      have h2 : c.E.cols = d.n * (d.N + 1) := by tauto
      rw [if_pos h2]
      unfold allocRows; simp only []; rw [chkInt_some hn]
      refine ⟨_, rfl, by first | exact hk | rfl, rfl, rfl, fun h => absurd h honce, rfl, rfl, ?_⟩
      intro _
      refine ⟨?_, by unfold userData; simp only [hk]⟩
      unfold Reg; simp only [hk]
      exact ⟨⟨rfl, S.fullU, rfl, rfl, S.xDim, rfl⟩, hf.1.symm, ⟨hc, h2, rfl⟩⟩

theorem initMixed_spec {d : Dims} {ps : PreviewSystem K} {c : Constr K} (junk : Junk K)
    (hk : c.kind = .mixed) (S : SysShape d ps) : InitSpec d c (c.initMixed junk ps) := by
  have honce : ¬ Once c := by unfold Once; rw [hk]; simp
  unfold initMixed
  rw [S.xDim, S.fullX, S.nrU, S.uDim, S.fullU]
  constructor
  · intro h; exact absurd h honce
  · intro _ hf
    unfold Fits at hf; rw [hk] at hf
    split
    · rfl
    split
    · rfl
    · rw [if_neg, if_neg]
      · intro h; exact hf ⟨by tauto, by tauto, Or.inr h⟩
      · intro h; exact hf ⟨by tauto, by tauto, Or.inl h⟩
  · intro _ hf hn
    unfold Fits at hf; rw [hk] at hf
    unfold rowsNeeded at hn; rw [hk] at hn
    rw [if_neg (by simp [hf.1]), if_neg (by simp [hf.2.1])]
    by_cases hc : c.E.cols = d.n ∧ c.G.cols = d.m
    · simp only [if_pos hc] at hn ⊢
      unfold allocRows; rw [chkInt_none hn]; rfl
    · simp only [if_neg hc] at hn ⊢
      have h2 : c.E.cols = d.n * (d.N + 1) ∧ c.G.cols = d.m * d.N := by tauto
      rw [if_pos h2]
      unfold allocRows; rw [chkInt_none hn]; rfl
  · intro _ hf hn
    unfold Fits at hf; rw [hk] at hf
    unfold rowsNeeded at hn ⊢; rw [hk] at hn ⊢
    rw [if_neg (by simp [hf.1]), if_neg (by simp [hf.2.1])]
    by_cases hc : c.E.cols = d.n ∧ c.G.cols = d.m
    · simp only [if_pos hc] at hn ⊢
      unfold allocRows; rw [chkInt_some hn]
      refine ⟨_, rfl, by first | exact hk | rfl, rfl, rfl, fun h => absurd h honce, rfl, rfl, ?_⟩
      intro hu
      have hfull : c.fullSizeEntry = false := by
        rcases hu with hu | hu
        · exact hu.1
        · unfold Reg at hu; rw [hk] at hu
          have := hu.dims
          by_contra hcon
          simp only [Bool.not_eq_false] at hcon
          rw [hcon] at this
          exact this.1 hc
      refine ⟨?_, by unfold userData; simp only [hk]⟩
      unfold Reg; simp only [hk]
      refine ⟨⟨rfl, rfl, rfl, rfl, rfl, rfl⟩, hf.1.symm, by show c.G.rows = c.E.rows; rw [hf.1, hf.2.1], ?_⟩
      rw [if_neg (by simp [hfull])]
      exact ⟨hc.1, hc.2, rfl, fun _ _ _ _ _ _ _ _ _ => rfl⟩
    · simp only [if_neg hc] at hn ⊢
      have h2 : c.E.cols = d.n * (d.N + 1) ∧ c.G.cols = d.m * d.N := by tauto
      rw [if_pos h2]
      unfold allocRows; simp only []; rw [chkInt_some hn]
      refine ⟨_, rfl, by first | exact hk | rfl, rfl, rfl, fun h => absurd h honce, rfl, rfl, ?_⟩
      intro _
      refine ⟨?_, by unfold userData; simp only [hk]⟩
      unfold Reg; simp only [hk]
      exact ⟨⟨rfl, rfl, rfl, rfl, rfl, rfl⟩, hf.1.symm, by show c.G.rows = c.E.rows; rw [hf.1, hf.2.1],
        ⟨hc, h2.1, h2.2, rfl⟩⟩

theorem initTrajBound_spec {d : Dims} {ps : PreviewSystem K} {c : Constr K} (junk : Junk K)
    (hk : c.kind = .trajBound) (S : SysShape d ps) : InitSpec d c (c.initTrajBound junk ps) := by
  have honce : ¬ Once c := by unfold Once; rw [hk]; simp
  unfold initTrajBound
  rw [S.xDim, S.fullX, S.nrX]
  constructor
  · intro h; exact absurd h honce
  · intro _ hf
    unfold Fits at hf; rw [hk] at hf
    split
    · rfl
    · rw [if_neg, if_neg]
      · intro h; exact hf ⟨by tauto, Or.inr h⟩
      · intro h; exact hf ⟨by tauto, Or.inl h⟩
  · intro _ hf hn
    unfold Fits at hf; rw [hk] at hf
    unfold rowsNeeded at hn; rw [hk] at hn
    rw [if_neg (by simp [hf.1])]
    by_cases hc : c.lower.rows = d.n
    · simp only [if_pos hc] at hn ⊢
      unfold allocRows; rw [chkInt_none hn]; rfl
    · simp only [if_neg hc, Nat.mul_one] at hn ⊢
      have h2 : c.lower.rows = d.n * (d.N + 1) := by tauto
      rw [if_pos h2]
      unfold allocRows; rw [chkInt_none hn]; rfl
  · intro _ hf hn
    unfold Fits at hf; rw [hk] at hf
    unfold rowsNeeded at hn ⊢; rw [hk] at hn ⊢
    rw [if_neg (by simp [hf.1])]
    have hlines : Usable d c → LinesOk c := by
      rintro (hu | hu)
      · exact hu.2.1 hk
      · unfold Reg at hu; rw [hk] at hu; exact hu.lines
    by_cases hc : c.lower.rows = d.n
    · simp only [if_pos hc] at hn ⊢
      unfold allocRows; rw [chkInt_some hn]
      refine ⟨_, rfl, by first | exact hk | rfl, rfl, rfl, fun h => absurd h honce, rfl, rfl, ?_⟩
      intro hu
      have hfull : c.fullSizeEntry = false := by
        rcases hu with hu | hu
        · exact hu.1
        · unfold Reg at hu; rw [hk] at hu
          have := hu.dims
          by_contra hcon
          simp only [Bool.not_eq_false] at hcon
          rw [hcon] at this
          exact this.1 hc
      refine ⟨?_, by unfold userData; simp only [hk]⟩
      unfold Reg; simp only [hk]
      refine ⟨⟨rfl, S.fullU, rfl, rfl, S.xDim, rfl⟩, hf.1.symm, hlines hu, ?_, ?_⟩
      · rw [if_neg (by simp [hfull])]
        exact hc
      · show _ = _ * boundSteps d _
        unfold boundSteps
        rw [if_neg (by simp [hfull])]
    · simp only [if_neg hc, Nat.mul_one] at hn ⊢
      have h2 : c.lower.rows = d.n * (d.N + 1) := by tauto
      rw [if_pos h2]
      unfold allocRows; simp only []; rw [chkInt_some hn]
      refine ⟨_, rfl, by first | exact hk | rfl, rfl, rfl, fun h => absurd h honce, rfl, rfl, ?_⟩
      intro hu
      refine ⟨?_, by unfold userData; simp only [hk]⟩
      unfold Reg; simp only [hk]
      exact ⟨⟨rfl, S.fullU, rfl, rfl, S.xDim, rfl⟩, hf.1.symm, hlines hu, ⟨hc, h2⟩,
        by show _ = _ * boundSteps d _; unfold boundSteps; simp⟩

theorem initControl_spec {d : Dims} {ps : PreviewSystem K} {c : Constr K} (junk : Junk K)
    (hk : c.kind = .control) (S : SysShape d ps) : InitSpec d c (c.initControl junk ps) := by
  have honce : Once c := Or.inl hk
  unfold initControl
  rw [S.uDim, S.fullU, S.nrU]
  constructor
  · intro _ h; rw [if_pos h]
  · intro ho hf
    unfold Fits at hf; rw [hk] at hf
    rw [if_neg (fun h => ho ⟨honce, h⟩)]
    split
    · rfl
    · rw [if_neg, if_neg]
      · intro h; exact hf ⟨by tauto, Or.inr h⟩
      · intro h; exact hf ⟨by tauto, Or.inl h⟩
  · intro ho hf hn
    unfold Fits at hf; rw [hk] at hf
    unfold rowsNeeded at hn; rw [hk] at hn
    rw [if_neg (fun h => ho ⟨honce, h⟩), if_neg (by simp [hf.1])]
    by_cases hc : c.G.cols = d.m
    · simp only [if_pos hc] at hn ⊢
      rw [chkInt_none hn]; rfl
    · simp only [if_neg hc] at hn ⊢
      have h2 : c.G.cols = d.m * d.N := by tauto
      rw [if_pos h2, chkInt_none hn]; rfl
  · intro ho hf hn
    unfold Fits at hf; rw [hk] at hf
    unfold rowsNeeded at hn ⊢; rw [hk] at hn ⊢
    have hnb : c.hasBeenInitialized = false := by
      by_contra h; simp only [Bool.not_eq_false] at h; exact ho ⟨honce, h⟩
    have hfull : Usable d c → c.fullSizeEntry = false ∧ c.A.rows = c.b.rows := by
      rintro (hu | hu)
      · exact ⟨hu.1, hu.2.2.1 hk⟩
      · unfold Reg at hu; rw [hk] at hu
        have := hu.init; rw [hnb] at this; cases this
    rw [if_neg (by simp [hnb]), if_neg (by simp [hf.1])]
    by_cases hc : c.G.cols = d.m
    · simp only [if_pos hc] at hn ⊢
      rw [chkInt_some hn]
      refine ⟨_, rfl, rfl, rfl, rfl, fun _ => rfl, rfl, rfl, ?_⟩
      intro hu
      obtain ⟨hff, _⟩ := hfull hu
      refine ⟨?_, by unfold userData; simp [hk, hff]⟩
      unfold Reg
      refine ⟨⟨rfl, rfl, rfl, rfl, S.xDim, rfl⟩, rfl, ?_⟩
      rw [if_neg (by simp [hff])]
      exact ⟨hc, hf.1.symm, rfl, fun _ _ _ _ _ _ _ _ _ => rfl⟩
    · simp only [if_neg hc] at hn ⊢
      have h2 : c.G.cols = d.m * d.N := by tauto
      rw [if_pos h2, chkInt_some hn]
      refine ⟨_, rfl, rfl, rfl, rfl, fun _ => rfl, rfl, rfl, ?_⟩
      intro hu
      obtain ⟨hff, hAb⟩ := hfull hu
      refine ⟨?_, by unfold userData; simp [hk, hff]⟩
      unfold Reg
      exact ⟨⟨rfl, h2, hf.1.symm, rfl, S.xDim, hf.1.symm⟩, rfl, hc, hAb.symm, fun _ _ _ _ => rfl,
        fun _ _ => rfl⟩

theorem initCtrlBound_spec {d : Dims} {ps : PreviewSystem K} {c : Constr K} (junk : Junk K)
    (hk : c.kind = .ctrlBound) (S : SysShape d ps) : InitSpec d c (c.initCtrlBound junk ps) := by
  have honce : Once c := Or.inr hk
  unfold initCtrlBound
  rw [S.uDim, S.fullU]
  constructor
  · intro _ h; rw [if_pos h]
  · intro ho hf
    unfold Fits at hf; rw [hk] at hf
    rw [if_neg (fun h => ho ⟨honce, h⟩)]
    split
    · rfl
    · rw [if_neg, if_neg]
      · intro h; exact hf ⟨by tauto, Or.inr h⟩
      · intro h; exact hf ⟨by tauto, Or.inl h⟩
  · intro ho hf hn
    unfold rowsNeeded at hn; rw [hk] at hn
    exact absurd S.fullUle hn
  · intro ho hf hn
    unfold Fits at hf; rw [hk] at hf
    unfold rowsNeeded at hn ⊢; rw [hk] at hn ⊢
    have hnb : c.hasBeenInitialized = false := by
      by_contra h; simp only [Bool.not_eq_false] at h; exact ho ⟨honce, h⟩
    have hfull : Usable d c → c.fullSizeEntry = false ∧ c.lb.rows = c.ub.rows := by
      rintro (hu | hu)
      · exact ⟨hu.1, hu.2.2.2 hk⟩
      · unfold Reg at hu; rw [hk] at hu
        have := hu.init; rw [hnb] at this; cases this
    rw [if_neg (by simp [hnb]), if_neg (by simp [hf.1])]
    by_cases hc : c.lower.rows = d.m
    · rw [if_pos hc]
      refine ⟨_, rfl, rfl, rfl, rfl, fun _ => rfl, rfl, rfl, ?_⟩
      intro hu
      obtain ⟨hff, _⟩ := hfull hu
      refine ⟨?_, by unfold userData; simp [hk, hff]⟩
      unfold Reg
      refine ⟨rfl, rfl, rfl, rfl, hf.1.symm, ?_⟩
      rw [if_neg (by simp [hff])]
      exact hc
    · rw [if_neg hc]
      have h2 : c.lower.rows = d.m * d.N := by tauto
      rw [if_pos h2, h2, chkInt_some S.fullUle]
      refine ⟨_, rfl, rfl, rfl, rfl, fun _ => rfl, rfl, rfl, ?_⟩
      intro hu
      obtain ⟨hff, hAb⟩ := hfull hu
      refine ⟨?_, by unfold userData; simp [hk, hff]⟩
      unfold Reg
      exact ⟨rfl, rfl, h2, by rw [← hf.1]; exact h2, hAb.symm, by rw [← h2]; exact hc⟩

/-- `initializeConstraint` of any class, for a system of dimensions `d`. -/
theorem initializeConstraint_spec {d : Dims} {ps : PreviewSystem K} {c : Constr K} (junk : Junk K)
    (S : SysShape d ps) : InitSpec d c (c.initializeConstraint junk ps) := by
  unfold initializeConstraint
  cases hk : c.kind with
  | trajectory => exact initTrajectory_spec junk hk S
  | control => exact initControl_spec junk hk S
  | mixed => exact initMixed_spec junk hk S
  | trajBound => exact initTrajBound_spec junk hk S
  | ctrlBound => exact initCtrlBound_spec junk hk S

/-! ## Meaning of the rows -/

theorem forall_blk {R M : Nat} {P : Nat → Prop} :
    (∀ i < R * M, P i) ↔ ∀ k < M, ∀ r < R, P (k * R + r) := by
  constructor
  · intro h k hk r hr; exact h _ (blk_lt' hk hr)
  · intro h i hi
    rw [Nat.mul_comm] at hi
    obtain ⟨k, r, hk, hr, rfl⟩ := blk_split hi
    exact h k hk r hr

section lhs
variable {d : Dims} {X : Nat → Nat → K} {U : Nat → K}

theorem lhs_ctrl_step {k : Nat} (hk : k < d.N) (g : Nat → K) :
    (∑ j ∈ Finset.range (d.m * d.N), (if j / d.m = k then g (j % d.m) else 0) * U j) =
      ∑ c ∈ Finset.range d.m, g c * ctrl d U k c := sum_block_ite hk g U

theorem lhs_ctrl_full (g : Nat → K) :
    (∑ j ∈ Finset.range (d.m * d.N), g j * U j) =
      ∑ k ∈ Finset.range d.N, ∑ c ∈ Finset.range d.m, g (k * d.m + c) * ctrl d U k c := sum_blk' _ _ _

theorem lhs_unit {s : Nat} (hs : s < d.n * (d.N + 1)) :
    (∑ k ∈ Finset.range (d.N + 1), ∑ c ∈ Finset.range d.n,
      (if k * d.n + c = s then 1 else 0) * X k c) = X (s / d.n) (s % d.n) := by
  have h := sum_unit (K := K) hs fun t => X (t / d.n) (t % d.n)
  rw [← h, sum_blk']
  apply Finset.sum_congr rfl; intro k _
  apply Finset.sum_congr rfl; intro c hc
  rw [blk_div (Finset.mem_range.1 hc), blk_mod (Finset.mem_range.1 hc)]
end lhs

variable [LinearOrder K] [IsStrictOrderedRing K]

/-- What the rows of a trajectory bound constraint actually impose: the trajectory components on the
recorded lines are at most the recorded lower *and* upper entries. -/
def BoundRowsHold (d : Dims) (X : Nat → Nat → K) (c : Constr K) : Prop :=
  ∀ k < boundSteps d c,
    (∀ l ∈ c.lowerLines, Ext.fin (X ((l + d.n * k) / d.n) ((l + d.n * k) % d.n)) ≤ c.lower.e l) ∧
    ∀ l ∈ c.upperLines, Ext.fin (X ((l + d.n * k) / d.n) ((l + d.n * k) % d.n)) ≤ c.upper.e l

/-- What the rows of a registered constraint impose. -/
def Sem (d : Dims) (X : Nat → Nat → K) (U : Nat → K) (c : Constr K) : Prop :=
  match c.kind with
  | .trajBound => BoundRowsHold d X c
  | _ => c.userData.Holds d X U

theorem getD_lt {l : List Nat} {t : Nat} (ht : t < l.length) : l.getD t 0 = l[t] := by
  simp [List.getD, ht]

theorem forall_lines {T : Nat} {lines : List Nat} {P : Nat → Nat → Prop} :
    (∀ i < lines.length * T, P (lines.getD (i % lines.length) 0) (i / lines.length)) ↔
      ∀ k < T, ∀ l ∈ lines, P l k := by
  rw [forall_blk (P := fun i => P (lines.getD (i % lines.length) 0) (i / lines.length))]
  constructor
  · intro h k hk l hl
    obtain ⟨t, ht, rfl⟩ := List.getElem_of_mem hl
    have := h k hk t ht
    rw [blk_mod ht, blk_div ht] at this
    rwa [getD_lt ht] at this
  · intro h k hk t ht
    rw [blk_mod ht, blk_div ht, getD_lt ht]
    exact h k hk _ (List.getElem_mem ht)

theorem rows_sem_trajBound {d : Dims} {c : Constr K} (hk : c.kind = .trajBound) (h : RegTrajBound d c)
    (X : Nat → Nat → K) (U : Nat → K) :
    (∀ i < c.nrConstr, Rel true ((c.row d i).lhs d X U) (c.row d i).rhs) ↔ BoundRowsHold d X c := by
  have D := h.dims
  have hlines : ∀ k < boundSteps d c, ∀ l, l < c.lower.rows → l + d.n * k < d.n * (d.N + 1) := by
    intro k hk l hl
    unfold boundSteps at hk
    by_cases hf : c.fullSizeEntry
    · rw [if_pos hf] at D hk
      have : k = 0 := by omega
      subst this
      omega
    · rw [if_neg hf] at D hk
      have := blk_lt' (n := d.n) hk (r := l) (by omega)
      rw [Nat.mul_comm k, Nat.add_comm] at this
      exact this
  have unit : ∀ l k (b : Ext K), k < boundSteps d c → l < c.lower.rows →
      (Row.lhs d ⟨unitRow d.n l k, fun _ => 0, b⟩ X U =
        X ((l + d.n * k) / d.n) ((l + d.n * k) % d.n)) := by
    intro l k b hk hl
    unfold Row.lhs unitRow
    simp only [zero_mul, Finset.sum_const_zero, add_zero]
    exact lhs_unit (hlines k hk l hl)
  have hnr := h.nr
  rw [Nat.add_mul] at hnr
  have split : (∀ i < c.nrConstr, Rel true ((c.row d i).lhs d X U) (c.row d i).rhs) ↔
      (∀ i < c.lowerLines.length * boundSteps d c,
        Rel true (Row.lhs d ⟨unitRow d.n (c.lowerLines.getD (i % c.lowerLines.length) 0)
          (i / c.lowerLines.length), fun _ => 0, c.lower.e (c.lowerLines.getD (i % c.lowerLines.length) 0)⟩
          X U) (c.lower.e (c.lowerLines.getD (i % c.lowerLines.length) 0))) ∧
      (∀ i < c.upperLines.length * boundSteps d c,
        Rel true (Row.lhs d ⟨unitRow d.n (c.upperLines.getD (i % c.upperLines.length) 0)
          (i / c.upperLines.length), fun _ => 0, c.upper.e (c.upperLines.getD (i % c.upperLines.length) 0)⟩
          X U) (c.upper.e (c.upperLines.getD (i % c.upperLines.length) 0))) := by
    constructor
    · intro H
      constructor
      · intro i hi
        have := H i (by omega)
        unfold row at this
        simp only [hk, if_pos hi] at this
        exact this
      · intro i hi
        have := H (c.lowerLines.length * boundSteps d c + i) (by omega)
        unfold row at this
        simp only [hk] at this
        rw [if_neg (by omega)] at this
        simp only [Nat.add_sub_cancel_left] at this
        exact this
    · rintro ⟨H1, H2⟩ i hi
      unfold row
      simp only [hk]
      by_cases hlt : i < c.lowerLines.length * boundSteps d c
      · rw [if_pos hlt]; exact H1 i hlt
      · rw [if_neg hlt]
        exact H2 (i - c.lowerLines.length * boundSteps d c) (by omega)
  rw [split]
  rw [forall_lines (P := fun l k => Rel true (Row.lhs d ⟨unitRow d.n l k, fun _ => 0, c.lower.e l⟩ X U)
      (c.lower.e l)),
    forall_lines (P := fun l k => Rel true (Row.lhs d ⟨unitRow d.n l k, fun _ => 0, c.upper.e l⟩ X U)
      (c.upper.e l))]
  unfold BoundRowsHold
  constructor
  · rintro ⟨H1, H2⟩ k hk
    refine ⟨fun l hl => ?_, fun l hl => ?_⟩
    · have := H1 k hk l hl
      rw [unit l k _ hk (h.lines.1 l hl)] at this
      exact this
    · have := H2 k hk l hl
      rw [unit l k _ hk (by rw [← h.rows]; exact h.lines.2 l hl)] at this
      exact this
  · intro H
    refine ⟨fun k hk l hl => ?_, fun k hk l hl => ?_⟩
    · rw [unit l k _ hk (h.lines.1 l hl)]
      exact (H k hk).1 l hl
    · rw [unit l k _ hk (by rw [← h.rows]; exact h.lines.2 l hl)]
      exact (H k hk).2 l hl

/-- The rows of a registered constraint, as linear conditions on a trajectory and controls, say what the
user declared (except for trajectory bounds, see `BoundRowsHold`). -/
theorem rows_sem {d : Dims} {c : Constr K} (hk : c.kind ≠ .ctrlBound) (h : Reg d c)
    (X : Nat → Nat → K) (U : Nat → K) :
    (∀ i < c.nrConstr, Rel c.ineq ((c.row d i).lhs d X U) (c.row d i).rhs) ↔ c.Sem d X U := by
  unfold Reg at h
  unfold Sem
  cases hkk : c.kind with
  | ctrlBound => exact absurd hkk hk
  | trajBound =>
    rw [hkk] at h
    have : c.ineq = true := by unfold ineq; rw [hkk]
    rw [this]
    exact rows_sem_trajBound hkk h X U
  | trajectory =>
    rw [hkk] at h
    have hq : c.ineq = c.isIneq := by unfold ineq; rw [hkk]
    have D := h.dims
    unfold userData
    simp only [hkk, ConstrData.Holds, hq]
    by_cases hf : c.fullSizeEntry
    · rw [if_pos hf] at D
      obtain ⟨D0, D1, D2⟩ := D
      rw [if_neg D0, D2]
      unfold TrajectoryFull row Row.lhs
      simp only [hkk, hf, if_true, zero_mul, Finset.sum_const_zero, add_zero]
    · rw [if_neg hf] at D
      simp only [Bool.not_eq_true] at hf
      obtain ⟨D1, D2⟩ := D
      rw [if_pos D1, D2, forall_blk]
      unfold TrajectoryStep
      constructor
      · intro H k hkN r hr
        have := H k (by omega) r hr
        rw [row_trajectory_step hkk hf hr] at this
        unfold Row.lhs at this
        simp only [zero_mul, Finset.sum_const_zero, add_zero] at this
        rwa [sum_block_ite2 (by omega) (c.E.e r)] at this
      · intro H k hkN r hr
        rw [row_trajectory_step hkk hf hr]
        unfold Row.lhs
        simp only [zero_mul, Finset.sum_const_zero, add_zero]
        rw [sum_block_ite2 (by omega) (c.E.e r)]
        exact H k (by omega) r hr
  | control =>
    rw [hkk] at h
    have hq : c.ineq = c.isIneq := by unfold ineq; rw [hkk]
    have D := h.dims
    have Z := h.sizes
    unfold userData
    simp only [hkk, hq]
    by_cases hf : c.fullSizeEntry
    · rw [if_pos hf] at D
      obtain ⟨D0, _⟩ := D
      rw [if_pos hf]
      simp only [ConstrData.Holds]
      rw [if_neg D0, ← Z.Ar]
      unfold ControlFull row Row.lhs
      simp only [hkk, hf, if_true, zero_mul, Finset.sum_const_zero, zero_add]
      simp only [lhs_ctrl_full]
    · rw [if_neg hf] at D
      simp only [Bool.not_eq_true] at hf
      obtain ⟨D1, D2, D3, _⟩ := D
      rw [if_neg (by simp [hf])]
      simp only [ConstrData.Holds]
      rw [if_pos D1, D3, forall_blk]
      unfold ControlStep
      have key : ∀ k < d.N, ∀ r < c.G.rows, (c.row d (k * c.G.rows + r)).lhs d X U =
          ∑ t ∈ Finset.range d.m, c.G.e r t * ctrl d U k t ∧
          (c.row d (k * c.G.rows + r)).rhs = c.f.e r := by
        intro k hkN r hr
        unfold row blockRow Row.lhs
        simp only [hkk, hf, Bool.false_eq_true, if_false, blk_div hr, blk_mod hr, zero_mul,
          Finset.sum_const_zero, zero_add]
        refine ⟨?_, trivial⟩
        exact lhs_ctrl_step hkN (c.G.e r)
      constructor
      · intro H k hkN r hr
        have := H k hkN r hr
        rwa [(key k hkN r hr).1, (key k hkN r hr).2] at this
      · intro H k hkN r hr
        rw [(key k hkN r hr).1, (key k hkN r hr).2]
        exact H k hkN r hr
  | mixed =>
    rw [hkk] at h
    have hq : c.ineq = c.isIneq := by unfold ineq; rw [hkk]
    have D := h.dims
    unfold userData
    simp only [hkk, ConstrData.Holds, hq]
    by_cases hf : c.fullSizeEntry
    · rw [if_pos hf] at D
      obtain ⟨D0, D1, D2, D3⟩ := D
      rw [if_neg D0, D3]
      unfold MixedFull row Row.lhs
      simp only [hkk, hf, if_true]
      simp only [lhs_ctrl_full]
    · rw [if_neg hf] at D
      simp only [Bool.not_eq_true] at hf
      obtain ⟨D1, D2, D3, _⟩ := D
      rw [if_pos ⟨D1, D2⟩, D3, forall_blk]
      unfold MixedStep
      have key : ∀ k < d.N, ∀ r < c.E.rows, (c.row d (k * c.E.rows + r)).lhs d X U =
          (∑ t ∈ Finset.range d.n, c.E.e r t * X k t) + ∑ t ∈ Finset.range d.m, c.G.e r t * ctrl d U k t ∧
          (c.row d (k * c.E.rows + r)).rhs = c.f.e r := by
        intro k hkN r hr
        unfold row blockRow Row.lhs
        simp only [hkk, hf, h.rowsG, blk_div hr, blk_mod hr]
        refine ⟨?_, rfl⟩
        show _ + _ = _ + _
        congr 1
        · exact sum_block_ite2 (by omega) (c.E.e r) X
        · exact lhs_ctrl_step hkN _
      constructor
      · intro H k hkN r hr
        have := H k hkN r hr
        rwa [(key k hkN r hr).1, (key k hkN r hr).2] at this
      · intro H k hkN r hr
        rw [(key k hkN r hr).1, (key k hkN r hr).2]
        exact H k hkN r hr

/-- The bounds of a registered control bound constraint are those the user declared. -/
def BoundsHold (d : Dims) (U : Nat → K) (c : Constr K) : Prop :=
  ∀ j < d.m * d.N, c.lb.e j ≤ Ext.fin (U j) ∧ Ext.fin (U j) ≤ c.ub.e j

theorem bounds_sem {d : Dims} {c c' : Constr K} (hk : c.kind = .ctrlBound) (h : RegCtrlBound d c)
    (hF : Frame c c') (hst : c.fullSizeEntry = false → ∀ k < d.N, ∀ r < d.m,
        c'.lb.e (k * d.m + r) = c.lower.e r ∧ c'.ub.e (k * d.m + r) = c.upper.e r)
    (X : Nat → Nat → K) (U : Nat → K) :
    c'.BoundsHold d U ↔ c.userData.Holds d X U := by
  have D := h.dims
  unfold BoundsHold
  rw [forall_blk]
  unfold userData
  simp only [hk]
  by_cases hf : c.fullSizeEntry
  · rw [if_pos hf] at D ⊢
    obtain ⟨e1, e2⟩ := hF.movedB hf hk
    simp only [ConstrData.Holds]
    rw [if_neg (by rw [h.lbr]; exact D), e1, e2]
    rfl
  · rw [if_neg hf] at D ⊢
    simp only [Bool.not_eq_true] at hf
    simp only [ConstrData.Holds]
    rw [if_pos D]
    constructor
    · intro H k hkN r hr
      have := H k hkN r hr
      rwa [(hst hf k hkN r hr).1, (hst hf k hkN r hr).2] at this
    · intro H k hkN r hr
      rw [(hst hf k hkN r hr).1, (hst hf k hkN r hr).2]
      exact H k hkN r hr

end Constr
end Copra
