import Verif.Props.ConstrSpan

/-! # Counterexamples for C11 and C17, and instances of the hypotheses of C09-C18, C21 -/

namespace Copra
open Spec

section
variable {K : Type} [Field K]

/-- Consistent representable data yields an up-to-date system. -/
theorem exists_current (A B : Mat K) (w x0 : Vec K) (N : Nat) (hc : ConsistentData A B w x0 N)
    (hr : RepresentableData A B N) :
    ∃ ps, Current ⟨A.cols, B.cols, N⟩ ps ∧ ps.A = A ∧ ps.B = B ∧ ps.d = w ∧ ps.x0 = x0 := by
  obtain ⟨ps1, h1, _⟩ := (c04_system_accepts_iff PreviewSystem.default A B w x0 N).2.1 hc hr
  obtain ⟨hok, a1, a2, a3, a4, a5, a6⟩ := system_ok h1
  simp only [Int.toNat_natCast] at hok
  obtain ⟨ps2, hu, k1, _, k3, k4, k5, k6, k7⟩ := updateSystem_ok hok
  have hN : 0 < N := by have := hc.2.2.2.2; omega
  refine ⟨ps2, ⟨⟨?_, ?_, k1.dims.xDim, k1.dims.uDim, k1.dims.nrU⟩, k3, ?_⟩, by rw [k4, a1], by rw [k5, a2],
    by rw [k6, a3], by rw [k7, a4]⟩
  · exact (Relation.ReflTransGen.refl.tail (.accepted h1)).tail (.update hu)
  · rw [k1.dims.nrU]; exact hN
  · rw [k7, a4]; exact a6

end

/-- The one-dimensional integrator `x_{k+1} = x_k + u_k` with horizon 1. -/
def oneA : Mat ℚ := ⟨1, 1, fun _ _ => 1⟩
def oneB : Mat ℚ := ⟨1, 1, fun _ _ => 1⟩
def oned : Vec ℚ := ⟨1, fun _ => 0⟩

theorem one_current (x : ℚ) : ∃ ps : PreviewSystem ℚ, Current ⟨1, 1, 1⟩ ps ∧ ps.A = oneA ∧ ps.B = oneB ∧
    ps.d = oned ∧ ps.x0 = ⟨1, fun _ => x⟩ :=
  exists_current oneA oneB oned ⟨1, fun _ => x⟩ 1 ⟨rfl, rfl, rfl, rfl, by decide⟩
    (by unfold RepresentableData oneA oneB intMax; norm_num)

/-- The double integrator of `Props.PreviewSystem` with horizon 3. -/
theorem ex_current : ∃ ps : PreviewSystem ℚ, Current ⟨2, 1, 3⟩ ps ∧ ps.A = exA ∧ ps.B = exB ∧
    ps.d = exd ∧ ps.x0 = exx :=
  exists_current exA exB exd exx 3 ⟨rfl, rfl, rfl, rfl, by decide⟩
    (by unfold RepresentableData exA exB intMax; norm_num)

namespace Constr

/-- The junk of every allocation is arbitrary; this is one choice. -/
def exJunk : Junk ℚ := ⟨fun _ _ _ => 17, fun _ _ => -3, fun _ _ => .pinf⟩

/-- C17 as stated is false: with `lower = [0]`, `upper = [+inf]` and the state resting at 5, the declared
bound holds on the simulated trajectory, but the rows handed to the solver are violated. -/
theorem c17_false : ∃ (d : Dims) (l u : Vec (Ext ℚ)) (junk : Junk ℚ) (ps : PreviewSystem ℚ) (c1 c3 : Constr ℚ)
    (U : Nat → ℚ), Current d ps ∧ (mkTrajBound l u).initializeConstraint junk ps = .ok c1 ∧
    c1.update ps = some c3 ∧ c3.constraintType = .inequality ∧
    (ConstrData.trajBound l u).Holds d (sim d ps.A ps.B ps.d ps.x0.e U) U ∧
    ¬ ∀ i < c3.nrConstr, Rel true (rowValue c3.A U i) (c3.b.e i) := by
  obtain ⟨ps, hp, hA, hB, hd, hx⟩ := one_current 5
  set l : Vec (Ext ℚ) := ⟨1, fun _ => .fin 0⟩ with hl
  set u : Vec (Ext ℚ) := ⟨1, fun _ => .pinf⟩ with hu
  have H := initializeConstraint_spec (c := mkTrajBound l u) exJunk hp.1.shape
  obtain ⟨c1, e1, _⟩ := H.accept (by simp [Once, mkTrajBound, fresh]) ⟨rfl, Or.inl rfl⟩
    (by simp [rowsNeeded, mkTrajBound, fresh, finiteLines, hl, hu, Ext.isNinf, Ext.isPinf, intMax])
  obtain ⟨c3, nr, e3, R⟩ := c17_rows_as_built hp.1 e1 Relation.ReflTransGen.refl hp
  refine ⟨_, l, u, exJunk, ps, c1, c3, fun _ => 0, hp, e1, e3, R.type, ?_, ?_⟩
  · unfold ConstrData.Holds
    simp only [hl, if_true]
    intro k hk r hr
    refine ⟨?_, Ext.le_pinf _⟩
    change (0 : ℚ) ≤ _
    rw [hA, hB, hd, hx]
    have : k = 0 ∨ k = 1 := by simp only at hk; omega
    rcases this with rfl | rfl
    · simp [sim]
    · simp [sim, oneA, oneB, oned, ctrl]
  · rw [R.count]
    intro h
    have := (R.rows _).1 h 0 (by simp) 0 (by simp)
    have h1 := this.1 (by simp [hl])
    simp only [hl, hx, sim] at h1
    change (5 : ℚ) ≤ 0 at h1
    norm_num at h1

/-- C11 as stated is false: with a horizon-long `lower = [-inf, -inf]` and a per-step `upper = [1]`,
`autoSpan` repeats the upper bound, but the rows only bound the first step: the state may jump to 5. -/
theorem c11_false : ∃ (d : Dims) (l u : Vec (Ext ℚ)) (junk : Junk ℚ) (ps : PreviewSystem ℚ)
    (c c1 c3 : Constr ℚ) (U : Nat → ℚ), Current d ps ∧ l.rows = d.n * (d.N + 1) ∧ u.rows = d.n ∧
    (mkTrajBound l u).autoSpan junk = .ok c ∧ c.initializeConstraint junk ps = .ok c1 ∧
    c1.update ps = some c3 ∧ (∀ i < c3.nrConstr, Rel true (rowValue c3.A U i) (c3.b.e i)) ∧
    ¬ BoundsMean d l u (sim d ps.A ps.B ps.d ps.x0.e U) := by
  obtain ⟨ps, hp, hA, hB, hd, hx⟩ := one_current 0
  set l : Vec (Ext ℚ) := ⟨2, fun _ => .ninf⟩ with hl
  set u : Vec (Ext ℚ) := ⟨1, fun _ => .fin 1⟩ with hu
  obtain ⟨g, eg, hg, he⟩ := AutoSpan.spanVector_rep (exJunk.x 1) u (s := 2) (by simp [hu])
  have hg2 : g.rows = 2 := hg.trans rfl
  have span : (mkTrajBound l u).autoSpan exJunk = .ok { mkTrajBound l u with upper := g } := by
    unfold autoSpan mkTrajBound fresh
    simp only [autoSpanTrajBound]
    have : max l.rows u.rows = 2 := rfl
    rw [this, AutoSpan.spanVector_id' _ (by rfl)]
    simp only [Res.map, Res.andThen]
    have h2 : 2 * u.rows = 2 := rfl
    rw [h2] at eg
    rw [eg]
    simp only
    rw [if_neg (by simp [hg2]), if_neg (by simp [hl])]
  set c : Constr ℚ := { mkTrajBound l u with upper := g } with hc
  have H := initializeConstraint_spec (c := c) exJunk hp.1.shape
  have hll : c.lowerLines = [] := rfl
  have hul : c.upperLines = [0] := rfl
  obtain ⟨c1, e1, _⟩ := H.accept (by simp [Once, hc, mkTrajBound, fresh])
    ⟨by rw [hc]; exact hg2.symm, Or.inr rfl⟩
    (by
      unfold rowsNeeded
      have : c.kind = .trajBound := rfl
      rw [this]
      simp only [hll, hul, List.length_nil, List.length_cons]
      have : c.lower.rows = 2 := rfl
      rw [this]
      simp [intMax])
  have hun : Unreg c := (autoSpan_ok span).2.unreg (fresh_unreg (Or.inr (Or.inr (Or.inr (Or.inl ⟨l, u, rfl⟩)))))
  obtain ⟨c3, e3, R⟩ := history_rows hun (by simp [hc, mkTrajBound, fresh]) hp.1 e1 Relation.ReflTransGen.refl hp
  obtain ⟨r1, hud, k1, _, _, l1, u1⟩ := init_unreg hun hp.1 e1
  refine ⟨_, l, u, exJunk, ps, c, c1, c3, fun _ => 5, hp, rfl, rfl, span, e1, e3, ?_, ?_⟩
  · rw [R.count]
    refine (R.rows _).2 ?_
    have hk : c1.kind = .trajBound := k1
    have hup : c1.upper = g := by
      have e : c1.userData = .trajBound c1.lower c1.upper := by unfold userData; rw [hk]
      rw [e] at hud
      have e2 : c.userData = .trajBound l g := rfl
      rw [e2] at hud
      injection hud
    unfold Sem
    rw [hk]
    simp only
    unfold BoundRowsHold
    intro k hk'
    unfold Reg at r1
    rw [hk] at r1
    have D := r1.dims
    have hlr : c1.lower.rows = 2 := by rw [← r1.rows, hup, hg2]
    have hfull : c1.fullSizeEntry = true := by
      by_contra hf
      rw [if_neg hf, hlr] at D
      simp at D
    have : k = 0 := by
      unfold boundSteps at hk'
      rw [if_pos hfull] at hk'
      omega
    subst this
    rw [l1, u1, hll, hul, hup]
    refine ⟨by simp, ?_⟩
    intro i hi
    rw [List.mem_singleton] at hi
    subst hi
    have := he 0 (by omega) 0 (by simp [hu])
    simp only [Nat.zero_mul, Nat.zero_add] at this
    rw [this, hx]
    simp only [hu]
    change (0 : ℚ) ≤ 1
    norm_num
  · intro h
    have := (h 1 (by simp) 0 (by simp)).2
    rw [hA, hB, hd, hx] at this
    simp only [hu, sim, oneA, oneB, oned, ctrl] at this
    simp at this
    change (5 : ℚ) ≤ 1 at this
    norm_num at this

/-! ## The hypotheses of C14-C18 and C21 are met -/

/-- A per-step trajectory constraint on the double integrator is accepted. -/
example : ∃ (ps : PreviewSystem ℚ) (c1 c2 : Constr ℚ), Current ⟨2, 1, 3⟩ ps ∧
    (mkTrajectory (⟨1, 2, fun _ _ => 1⟩ : Mat ℚ) ⟨1, fun _ => .fin 3⟩).initializeConstraint exJunk ps = .ok c1 ∧
    History ⟨2, 1, 3⟩ c1 c2 ∧ c1.update ps = some c2 := by
  obtain ⟨ps, hp, _⟩ := ex_current
  have H := initializeConstraint_spec (c := mkTrajectory (⟨1, 2, fun _ _ => 1⟩ : Mat ℚ) ⟨1, fun _ => .fin 3⟩)
    exJunk hp.1.shape
  obtain ⟨c1, e1, _⟩ := H.accept (by simp [Once, mkTrajectory, fresh]) ⟨rfl, Or.inl rfl⟩
    (by simp [rowsNeeded, mkTrajectory, fresh, intMax])
  obtain ⟨c3, e3, _⟩ := c14_trajectory_rows_exact hp.1 e1 Relation.ReflTransGen.refl hp
  exact ⟨ps, c1, c3, hp, e1, Relation.ReflTransGen.refl.tail (.update hp e3), e3⟩

/-- A full-size control equality constraint is accepted. -/
example : ∃ (ps : PreviewSystem ℚ) (c1 : Constr ℚ), Current ⟨2, 1, 3⟩ ps ∧
    (mkControl (⟨2, 3, fun _ _ => 1⟩ : Mat ℚ) ⟨2, fun _ => .fin 3⟩ false).initializeConstraint exJunk ps = .ok c1 := by
  obtain ⟨ps, hp, _⟩ := ex_current
  have H := initializeConstraint_spec (c := mkControl (⟨2, 3, fun _ _ => 1⟩ : Mat ℚ) ⟨2, fun _ => .fin 3⟩ false)
    exJunk hp.1.shape
  obtain ⟨c1, e1, _⟩ := H.accept (by simp [mkControl, fresh]) ⟨rfl, Or.inr rfl⟩
    (by simp [rowsNeeded, mkControl, fresh, intMax])
  exact ⟨ps, c1, hp, e1⟩

/-- A per-step mixed constraint is accepted. -/
example : ∃ (ps : PreviewSystem ℚ) (c1 : Constr ℚ), Current ⟨2, 1, 3⟩ ps ∧
    (mkMixed (⟨2, 2, fun _ _ => 1⟩ : Mat ℚ) ⟨2, 1, fun _ _ => 1⟩ ⟨2, fun _ => .fin 3⟩).initializeConstraint exJunk ps
      = .ok c1 := by
  obtain ⟨ps, hp, _⟩ := ex_current
  have H := initializeConstraint_spec
    (c := mkMixed (⟨2, 2, fun _ _ => 1⟩ : Mat ℚ) ⟨2, 1, fun _ _ => 1⟩ ⟨2, fun _ => .fin 3⟩) exJunk hp.1.shape
  obtain ⟨c1, e1, _⟩ := H.accept (by simp [Once, mkMixed, fresh]) ⟨rfl, rfl, Or.inl ⟨rfl, rfl⟩⟩
    (by simp [rowsNeeded, mkMixed, fresh, intMax])
  exact ⟨ps, c1, hp, e1⟩

/-- A trajectory bound without finite lower entries (C17) and a control bound (C18) are accepted. -/
example : ∃ (ps : PreviewSystem ℚ) (c1 c1' : Constr ℚ), Current ⟨2, 1, 3⟩ ps ∧
    (mkTrajBound (⟨2, fun _ => .ninf⟩ : Vec (Ext ℚ)) ⟨2, fun _ => .fin 4⟩).initializeConstraint exJunk ps = .ok c1 ∧
    (mkCtrlBound (⟨1, fun _ => .fin (-1)⟩ : Vec (Ext ℚ)) ⟨1, fun _ => .fin 4⟩).initializeConstraint exJunk ps
      = .ok c1' := by
  obtain ⟨ps, hp, _⟩ := ex_current
  have H := initializeConstraint_spec
    (c := mkTrajBound (⟨2, fun _ => .ninf⟩ : Vec (Ext ℚ)) ⟨2, fun _ => .fin 4⟩) exJunk hp.1.shape
  obtain ⟨c1, e1, _⟩ := H.accept (by simp [Once, mkTrajBound, fresh]) ⟨rfl, Or.inl rfl⟩
    (by simp [rowsNeeded, mkTrajBound, fresh, finiteLines, Ext.isNinf, Ext.isPinf, intMax])
  have H := initializeConstraint_spec
    (c := mkCtrlBound (⟨1, fun _ => .fin (-1)⟩ : Vec (Ext ℚ)) ⟨1, fun _ => .fin 4⟩) exJunk hp.1.shape
  obtain ⟨c1', e1', _⟩ := H.accept (by simp [mkCtrlBound, fresh]) ⟨rfl, Or.inl rfl⟩
    (by simp [rowsNeeded, mkCtrlBound, fresh, intMax])
  exact ⟨ps, c1, c1', hp, e1, e1'⟩

/-- `autoSpan` data for C09, C10: per-step matrices with a horizon-long vector. -/
example : ∃ c : Constr ℚ,
    (mkTrajectory (⟨1, 2, fun _ _ => 1⟩ : Mat ℚ) ⟨4, fun i => .fin i⟩).autoSpan exJunk = .ok c ∧
    Fits ⟨2, 1, 3⟩ c := by
  obtain ⟨c, h, _, _, _, hf, _⟩ := c09_trajectory_autoSpan (d := ⟨2, 1, 3⟩) (q := true) (by simp)
    (E := (⟨1, 2, fun _ _ => 1⟩ : Mat ℚ)) (f := ⟨4, fun i => .fin i⟩) rfl rfl exJunk
  exact ⟨c, h, hf⟩

end Constr
end Copra
