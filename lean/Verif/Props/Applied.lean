import Verif.Props.SpanBound
import Verif.Props.CostExamples

/-! # C01-C25 applied to concrete systems, constraints and costs -/

set_option linter.unusedSectionVars false

namespace Copra
open Spec

/-- C01, C03, C06: the double integrator, updated twice.  The position after two steps with controls `7, 9` computed from
the prediction is the simulated one, is not changed by the control of the last step, and follows a new initial state. -/
example : ∃ ps1 ps2 : PreviewSystem ℚ, PreviewSystem.default.system exA exB exd exx 3 = .ok ps1 ∧
    updateTimes 2 ps1 = some ps2 ∧
    (∑ c ∈ Finset.range 2, ps2.Phi.e (2 * 2 + 0) c * exx.e c) + (∑ j ∈ Finset.range 3, ps2.Psi.e (2 * 2 + 0) j * (7 + 2 * j : ℚ))
      + ps2.xi.e (2 * 2 + 0) = 108/20 + 1/20 ∧
    (∑ c ∈ Finset.range 2, ps2.Phi.e (2 * 2 + 0) c * exx.e c)
      + (∑ j ∈ Finset.range 3, ps2.Psi.e (2 * 2 + 0) j * (if j = 2 then 100 else 7 + 2 * j : ℚ))
      + ps2.xi.e (2 * 2 + 0) = 108/20 + 1/20 ∧
    (∑ c ∈ Finset.range 2, (ps2.setXInit ⟨2, fun _ => 0⟩).Phi.e (2 * 2 + 0) c * (ps2.setXInit ⟨2, fun _ => 0⟩).x0.e c)
      + (∑ j ∈ Finset.range 3, (ps2.setXInit ⟨2, fun _ => 0⟩).Psi.e (2 * 2 + 0) j * (7 + 2 * j : ℚ))
      + (ps2.setXInit ⟨2, fun _ => 0⟩).xi.e (2 * 2 + 0) = 1/20 := by
  obtain ⟨ps1, h1⟩ := ex_accepted
  obtain ⟨ps2, h2, _⟩ := c05_update_in_bounds h1 2
  have a := (c01_prediction_is_simulation h1 (by decide) h2 (fun j => 7 + 2 * j)).2.2.2.2.2 2 (by decide) 0 (by decide)
  have b := (c03_causal h1 (by decide) h2 (fun j => if j = 2 then 100 else 7 + 2 * j) (fun j => 7 + 2 * j) 2 (by decide)
    (fun j hj c hc => if_neg (by have : c < 1 := hc; have : exB.cols = 1 := rfl; simp only [this]; omega)) 0 (by decide)).1
  have c := (c06_xInit_no_update h1 (by decide) h2 ⟨2, fun _ => 0⟩ (fun j => 7 + 2 * j)).2.2 2 (by decide) 0 (by decide)
  have s1 : sim ⟨exA.cols, exB.cols, Int.toNat 3⟩ exA exB exd exx.e (fun j => (7 + 2 * j : ℚ)) 2 0 = 108/20 + 1/20 := by
    simp [sim, exA, exB, exd, exx, ctrl, Finset.sum_range_succ]; norm_num
  have s2 : sim ⟨exA.cols, exB.cols, Int.toNat 3⟩ exA exB exd (fun _ => 0) (fun j => (7 + 2 * j : ℚ)) 2 0 = 1/20 := by
    simp [sim, exA, exB, exd, ctrl, Finset.sum_range_succ]; norm_num
  exact ⟨ps1, ps2, h1, h2, a.trans s1, b.trans (a.trans s1), c.trans s2⟩

/-- C02: a system accepted, updated and given other dynamics predicts after the next update like a new one. -/
example : ∃ ps ps' q q' : PreviewSystem ℚ,
    Relation.ReflTransGen PsStep (PreviewSystem.default : PreviewSystem ℚ) (ps.setDynamics ⟨2, 2, fun i j => i + j⟩ exB exd) ∧
    ps.isUpdated = true ∧ (ps.setDynamics ⟨2, 2, fun i j => i + j⟩ exB exd).updateSystem = some ps' ∧
    PreviewSystem.construct (⟨2, 2, fun i j => i + j⟩ : Mat ℚ) exB exd exx ps.nrUStep = .ok q ∧ q.updateSystem = some q' ∧
    MatEq ps'.Phi q'.Phi ∧ MatEq ps'.Psi q'.Psi ∧ VecEq ps'.xi q'.xi := by
  obtain ⟨ps, hp, _⟩ := ex_current
  obtain ⟨ps', hu, _⟩ := updateSystem_ok (ps := ps.setDynamics ⟨2, 2, fun i j => i + j⟩ exB exd) (d := ⟨2, 1, 3⟩)
    ⟨⟨hp.1.shape.with _ _ _ _ _, ⟨rfl, rfl, rfl, rfl, rfl⟩⟩, hp.1.any.base.with _ _ _ _ _, fun h => by cases h⟩
  have hh := hp.1.1.tail (.setDynamics (⟨2, 2, fun i j => i + j⟩ : Mat ℚ) exB exd)
  obtain ⟨a, ⟨q, q', hq, hq'⟩, _⟩ := c02_history_independent hh hp.1.2.1 hu exx rfl
  obtain ⟨b1, b2, b3, _⟩ := a q hq q' hq'
  exact ⟨ps, ps', q, q', hh, hp.2.1, hu, hq, hq', b1, b2, b3⟩

namespace Constr

/-- A never initialised constraint that fits is accepted by the double integrator, and its history can contain an
update, an `autoSpan` and a rejected second initialisation. -/
theorem ex_accept {c : Constr ℚ} (hi : c.hasBeenInitialized = false) (hf : Fits ⟨2, 1, 3⟩ c)
    (hn : rowsNeeded ⟨2, 1, 3⟩ c ≤ intMax) : ∃ (ps : PreviewSystem ℚ) (c1 : Constr ℚ), Current ⟨2, 1, 3⟩ ps ∧
    c.initializeConstraint exJunk ps = .ok c1 := by
  obtain ⟨ps, hp, _⟩ := ex_current
  obtain ⟨c1, e1, _⟩ := (initializeConstraint_spec (c := c) exJunk hp.1.shape).accept (by simp [hi]) hf hn
  exact ⟨ps, c1, hp, e1⟩

/-- C09: control constraint, horizon-long vector; end to end with `rows_exact_data`, `c13`. -/
example : ∃ (ps : PreviewSystem ℚ) (c c1 c3 : Constr ℚ), Current ⟨2, 1, 3⟩ ps ∧
    (mkControl (⟨1, 1, fun _ _ => 1⟩ : Mat ℚ) ⟨3, fun i => .fin i⟩).autoSpan exJunk = .ok c ∧
    c.autoSpan exJunk = .ok c ∧ c.initializeConstraint exJunk ps = .ok c1 ∧ c1.autoSpan exJunk = .ok c1 ∧
    c1.update ps = some c3 ∧ ∀ U, (∀ i < c3.nrConstr, Rel true (rowValue c3.A U i) (c3.b.e i)) ↔ ∀ k < 3, U k ≤ k := by
  obtain ⟨c, h, hu, hk, hq, hf, hh⟩ := c09_control_autoSpan (d := ⟨2, 1, 3⟩) (q := true) (by simp)
    (G := (⟨1, 1, fun _ _ => 1⟩ : Mat ℚ)) (f := ⟨3, fun i => .fin i⟩) rfl rfl exJunk
  obtain ⟨ps, hp, _⟩ := ex_current
  obtain ⟨c1, e1, _⟩ := (initializeConstraint_spec (c := c) exJunk hp.1.shape).accept
    (by injection h with h; subst h; simp [mkControl, fresh]) hf (by injection h with h; subst h; simp [rowsNeeded, mkControl, fresh, intMax])
  obtain ⟨c3, e3, R⟩ := rows_exact_data hu (by simp [hk]) (by simp [hk]) hp.1 e1 Relation.ReflTransGen.refl hp
  refine ⟨ps, c, c1, c3, hp, h, c13_constraint_autoSpan_idempotent h,
    e1, c13_constraint_autoSpan_noop hu hp.1 e1 Relation.ReflTransGen.refl, e3, fun U => ?_⟩
  rw [R.count, ← hq, R.rows, hh]
  refine forall₂_congr fun k _ => ?_
  simp [ctrl, Rel]
  rfl

/-- C09: horizon-long matrices with per-step vectors. -/
example : ∃ c c' : Constr ℚ,
    (mkTrajectory (⟨4, 8, fun i j => if j / 2 = i then 1 else 0⟩ : Mat ℚ) ⟨1, fun _ => .fin 3⟩).autoSpan exJunk = .ok c ∧
    (mkControl (⟨3, 3, fun i j => if j = i then 1 else 0⟩ : Mat ℚ) ⟨1, fun _ => .fin 3⟩).autoSpan exJunk = .ok c' ∧
    Fits ⟨2, 1, 3⟩ c ∧ Fits ⟨2, 1, 3⟩ c' := by
  obtain ⟨c, h, _, _, _, hf, _⟩ := c09_trajectory_autoSpan_vector (d := ⟨2, 1, 3⟩) (q := true) (s := 4) (by simp)
    (E := (⟨4, 8, fun i j => if j / 2 = i then 1 else 0⟩ : Mat ℚ)) (f := ⟨1, fun _ => .fin 3⟩) rfl (by simp) rfl exJunk
  obtain ⟨c', h', _, _, _, hf', _⟩ := c09_control_autoSpan_vector (d := ⟨2, 1, 3⟩) (q := true) (s := 3) (by simp)
    (G := (⟨3, 3, fun i j => if j = i then 1 else 0⟩ : Mat ℚ)) (f := ⟨1, fun _ => .fin 3⟩) rfl (by simp) rfl exJunk
  exact ⟨c, c', h, h', hf, hf'⟩

/-- C10. -/
example : ∃ c : Constr ℚ,
    (mkMixed (⟨1, 2, fun _ j => j⟩ : Mat ℚ) ⟨1, 1, fun _ _ => 1⟩ ⟨3, fun i => .fin i⟩).autoSpan exJunk = .ok c ∧ Fits ⟨2, 1, 3⟩ c := by
  obtain ⟨c, h, _, _, _, hf, _⟩ := c10_mixed_autoSpan (d := ⟨2, 1, 3⟩) (q := true) (by simp)
    (E := (⟨1, 2, fun _ j => j⟩ : Mat ℚ)) (G := ⟨1, 1, fun _ _ => 1⟩) (f := ⟨3, fun i => .fin i⟩) rfl rfl rfl rfl exJunk
  exact ⟨c, h, hf⟩

/-- C11: a lower bound spanned to a horizon-long upper bound, without and with finite entries; the spanned constraint is
accepted. -/
example : ∃ (ps : PreviewSystem ℚ) (c c1 c3 c' c1' c3' : Constr ℚ), Current ⟨2, 1, 3⟩ ps ∧
    (mkTrajBound (⟨2, fun _ => .ninf⟩ : Vec (Ext ℚ)) ⟨8, fun i => .fin i⟩).autoSpan exJunk = .ok c ∧
    c.initializeConstraint exJunk ps = .ok c1 ∧ c1.update ps = some c3 ∧
    (mkTrajBound (⟨2, fun _ => .fin (-1)⟩ : Vec (Ext ℚ)) ⟨8, fun i => .fin i⟩).autoSpan exJunk = .ok c' ∧
    c'.initializeConstraint exJunk ps = .ok c1' ∧ c1'.update ps = some c3' := by
  obtain ⟨ps, hp, _⟩ := ex_current
  obtain ⟨c, h, H⟩ := c11_trajBound_autoSpan_partial (d := ⟨2, 1, 3⟩) (l := (⟨2, fun _ => .ninf⟩ : Vec (Ext ℚ)))
    (u := ⟨8, fun i => .fin i⟩) (junk := exJunk) (junk' := exJunk) (by simp) (fun _ _ => rfl) rfl rfl hp.1 hp
  obtain ⟨c', h', H'⟩ := c11_lower_as_built (d := ⟨2, 1, 3⟩) (l := (⟨2, fun _ => .fin (-1)⟩ : Vec (Ext ℚ)))
    (u := ⟨8, fun i => .fin i⟩) (junk := exJunk) (junk' := exJunk) (by simp) (by simp) rfl rfl hp.1 hp
  obtain ⟨c1, e1, _⟩ := (initializeConstraint_spec (c := c) exJunk hp.1.shape).accept
    (by injection h with h; subst h; simp [Once, mkTrajBound, fresh]) (by injection h with h; subst h; exact ⟨rfl, Or.inr rfl⟩)
    (by injection h with h; subst h; decide +kernel)
  obtain ⟨c1', e1', _⟩ := (initializeConstraint_spec (c := c') exJunk hp.1.shape).accept
    (by injection h' with h; subst h; simp [Once, mkTrajBound, fresh]) (by injection h' with h; subst h; exact ⟨rfl, Or.inr rfl⟩)
    (by injection h' with h; subst h; decide +kernel)
  obtain ⟨c3, _, e3, _⟩ := H c1 c1 e1 Relation.ReflTransGen.refl
  obtain ⟨c3', _, e3', _⟩ := H' c1' c1' e1' Relation.ReflTransGen.refl
  exact ⟨ps, c, c1, c3, c', c1', c3', hp, h, e1, e3, h', e1', e3'⟩

/-- C15: a full-size control equality `u_0 + u_1 + u_2 = 3`, after an update and a second one. -/
example : ∃ (ps : PreviewSystem ℚ) (c1 c2 c3 : Constr ℚ), Current ⟨2, 1, 3⟩ ps ∧
    (mkControl (⟨1, 3, fun _ _ => 1⟩ : Mat ℚ) ⟨1, fun _ => .fin 3⟩ false).initializeConstraint exJunk ps = .ok c1 ∧
    c1.update ps = some c2 ∧ c2.update ps = some c3 ∧ c3.nrConstr = 1 ∧
    ∀ U, (∀ i < 1, Rel false (rowValue c3.A U i) (c3.b.e i)) ↔ U 0 + U 1 + U 2 = 3 := by
  obtain ⟨ps, c1, hp, e1⟩ := ex_accept (c := mkControl (⟨1, 3, fun _ _ => 1⟩ : Mat ℚ) ⟨1, fun _ => .fin 3⟩ false) rfl
    ⟨rfl, Or.inr rfl⟩ (by simp [rowsNeeded, mkControl, fresh, intMax])
  obtain ⟨c2, e2, _⟩ := c15_control_rows_exact hp.1 e1 Relation.ReflTransGen.refl hp
  obtain ⟨c3, e3, R⟩ := c15_control_rows_exact hp.1 e1 (Relation.ReflTransGen.refl.tail (.update hp e2)) hp
  refine ⟨ps, c1, c2, c3, hp, e1, e2, e3, R.count.trans rfl, fun U => ?_⟩
  refine (R.rows U).trans ?_
  simp [ConstrData.Holds, ControlFull, Rel, Finset.sum_range_succ, ctrl]

/-- C16: a per-step mixed constraint `v_k + u_k <= 3`. -/
example : ∃ (ps : PreviewSystem ℚ) (c1 c2 c3 : Constr ℚ), Current ⟨2, 1, 3⟩ ps ∧
    (mkMixed (⟨1, 2, fun _ j => j⟩ : Mat ℚ) ⟨1, 1, fun _ _ => 1⟩ ⟨1, fun _ => .fin 3⟩).initializeConstraint exJunk ps = .ok c1 ∧
    c1.update ps = some c2 ∧ c2.update ps = some c3 ∧ c3.nrConstr = 3 := by
  obtain ⟨ps, c1, hp, e1⟩ := ex_accept (c := mkMixed (⟨1, 2, fun _ j => j⟩ : Mat ℚ) ⟨1, 1, fun _ _ => 1⟩ ⟨1, fun _ => .fin 3⟩) rfl
    ⟨rfl, rfl, Or.inl ⟨rfl, rfl⟩⟩ (by simp [rowsNeeded, mkMixed, fresh, intMax])
  obtain ⟨c2, e2, _⟩ := c16_mixed_rows_exact hp.1 e1 Relation.ReflTransGen.refl hp
  obtain ⟨c3, e3, R⟩ := c16_mixed_rows_exact hp.1 e1 (Relation.ReflTransGen.refl.tail (.update hp e2)) hp
  exact ⟨ps, c1, c2, c3, hp, e1, e2, e3, R.count.trans rfl⟩

/-- C17 (partial): an upper bound on the velocity only. -/
example : ∃ (ps : PreviewSystem ℚ) (c1 c2 : Constr ℚ), Current ⟨2, 1, 3⟩ ps ∧
    (mkTrajBound (⟨2, fun _ => .ninf⟩ : Vec (Ext ℚ)) ⟨2, fun i => if i = 0 then .pinf else .fin 3⟩).initializeConstraint exJunk ps = .ok c1 ∧
    c1.update ps = some c2 ∧ c2.constraintType = .inequality := by
  obtain ⟨ps, c1, hp, e1⟩ := ex_accept (c := mkTrajBound (⟨2, fun _ => .ninf⟩ : Vec (Ext ℚ)) ⟨2, fun i => if i = 0 then .pinf else .fin 3⟩)
    rfl ⟨rfl, Or.inl rfl⟩ (by decide +kernel)
  obtain ⟨c2, _, e2, R⟩ := c17_trajBound_rows_exact_partial hp.1 (fun _ _ => rfl) e1 Relation.ReflTransGen.refl hp
  exact ⟨ps, c1, c2, hp, e1, e2, R.type⟩

/-- C18: per-step control bounds `-1 <= u_k <= 4`. -/
example : ∃ (ps : PreviewSystem ℚ) (c1 c2 : Constr ℚ), Current ⟨2, 1, 3⟩ ps ∧
    (mkCtrlBound (⟨1, fun _ => .fin (-1)⟩ : Vec (Ext ℚ)) ⟨1, fun _ => .fin 4⟩).initializeConstraint exJunk ps = .ok c1 ∧
    c1.update ps = some c2 ∧ c2.constraintType = .bound ∧ ∀ k < 3, c2.lb.e k = .fin (-1) ∧ c2.ub.e k = .fin 4 := by
  obtain ⟨ps, c1, hp, e1⟩ := ex_accept (c := mkCtrlBound (⟨1, fun _ => .fin (-1)⟩ : Vec (Ext ℚ)) ⟨1, fun _ => .fin 4⟩)
    rfl ⟨rfl, Or.inl rfl⟩ (by simp [rowsNeeded, mkCtrlBound, fresh, intMax])
  obtain ⟨c2, e2, h1, _, _, _, h, _⟩ := c18_control_bounds_exact hp.1 e1 Relation.ReflTransGen.refl hp
  exact ⟨ps, c1, c2, hp, e1, e2, h1, fun k hk => by simpa using h k hk 0 (by simp)⟩

/-- C21: a trajectory constraint added to two systems with different initial states, one copy updated meanwhile. -/
example : ∃ (ps ps' : PreviewSystem ℚ) (c1 c2 c1' c3 c3' : Constr ℚ), Current ⟨1, 1, 1⟩ ps ∧ Current ⟨1, 1, 1⟩ ps' ∧
    (mkTrajectory (⟨1, 1, fun _ _ => 1⟩ : Mat ℚ) ⟨1, fun _ => .fin 3⟩).initializeConstraint exJunk ps = .ok c1 ∧
    (mkTrajectory (⟨1, 1, fun _ _ => 1⟩ : Mat ℚ) ⟨1, fun _ => .fin 3⟩).initializeConstraint exJunk ps' = .ok c1' ∧
    c1.update ps' = some c2 ∧ c2.update ps = some c3 ∧ c1'.update ps = some c3' ∧ MatEq c3.A c3'.A ∧ VecEq c3.b c3'.b := by
  obtain ⟨ps, hp, hA, hB, hd, _⟩ := one_current 5
  obtain ⟨ps', hp', _⟩ := one_current 2
  have hu : Unreg (mkTrajectory (⟨1, 1, fun _ _ => 1⟩ : Mat ℚ) ⟨1, fun _ => .fin 3⟩) := fresh_unreg (Or.inl ⟨_, _, _, rfl⟩)
  obtain ⟨c1, e1, _⟩ := (initializeConstraint_spec (c := mkTrajectory (⟨1, 1, fun _ _ => 1⟩ : Mat ℚ) ⟨1, fun _ => .fin 3⟩)
    exJunk hp.1.shape).accept (by simp [Once, mkTrajectory, fresh]) ⟨rfl, Or.inl rfl⟩ (by simp [rowsNeeded, mkTrajectory, fresh, intMax])
  obtain ⟨c1', e1', _⟩ := (initializeConstraint_spec (c := mkTrajectory (⟨1, 1, fun _ _ => 1⟩ : Mat ℚ) ⟨1, fun _ => .fin 3⟩)
    exJunk hp'.1.shape).accept (by simp [Once, mkTrajectory, fresh]) ⟨rfl, Or.inl rfl⟩ (by simp [rowsNeeded, mkTrajectory, fresh, intMax])
  obtain ⟨c2, e2, _⟩ := c14_trajectory_rows_exact hp.1 e1 Relation.ReflTransGen.refl hp'
  obtain ⟨c3, c3', e3, e3', _, h, _⟩ := c21_rows_history_independent hu hp.1 hp'.1 e1 e1'
    (Relation.ReflTransGen.refl.tail (.update hp' e2)) Relation.ReflTransGen.refl hp hp rfl rfl rfl ⟨rfl, fun _ _ => rfl⟩
  obtain ⟨a, b, _⟩ := h (by simp [mkTrajectory, fresh])
  exact ⟨ps, ps', c1, c2, c1', c3, c3', hp, hp', e1, e1', e2, e3, e3', a, b⟩

end Constr

namespace Cost

/-- C12: control and mixed costs with horizon-long targets, and the spanned control cost added and updated. -/
example : ∃ (ps : PreviewSystem ℚ) (c c1 c3 c' : Cost ℚ), Current ⟨2, 1, 3⟩ ps ∧
    (mkControl (⟨1, 1, fun _ _ => 2⟩ : Mat ℚ) ⟨3, fun i => i⟩).autoSpan Constr.exJunk = .ok c ∧
    c.initializeCost Constr.exJunk ps = .ok c1 ∧ c1.autoSpan Constr.exJunk = .ok c1 ∧ c1.update ps = some c3 ∧
    CostExact ⟨2, 1, 3⟩ ps c3 c.userData ∧ (∀ X U, c.userData.value ⟨2, 1, 3⟩ X U =
      ∑ k ∈ Finset.range 3, (2 * U k - k) ^ 2) ∧
    (mkMixed (⟨1, 2, fun _ j => j⟩ : Mat ℚ) ⟨1, 1, fun _ _ => 1⟩ ⟨3, fun i => i⟩).autoSpan Constr.exJunk = .ok c' ∧
    Fits ⟨2, 1, 3⟩ c' := by
  obtain ⟨ps, hp, _⟩ := ex_current
  obtain ⟨c, h, _, hf, _, hv⟩ := c12_control_autoSpan (d := ⟨2, 1, 3⟩) (c := mkControl (⟨1, 1, fun _ _ => 2⟩ : Mat ℚ) ⟨3, fun i => i⟩)
    (by simp) (by simp) rfl rfl rfl rfl Constr.exJunk
  obtain ⟨c', h', _, hf', _⟩ := c12_mixed_autoSpan (d := ⟨2, 1, 3⟩)
    (c := mkMixed (⟨1, 2, fun _ j => j⟩ : Mat ℚ) ⟨1, 1, fun _ _ => 1⟩ ⟨3, fun i => i⟩)
    (by simp) (Or.inl (by simp)) rfl rfl rfl rfl rfl rfl Constr.exJunk
  have hu : Unreg (mkControl (⟨1, 1, fun _ _ => 2⟩ : Mat ℚ) ⟨3, fun i => i⟩) := ⟨fun _ => rfl, rfl⟩
  have H := fun c1 => c12_spanned_cost_exact (c1 := c1) (c2 := c1) (junk := Constr.exJunk) hu h hp.1 hf hp
  obtain ⟨c1, e1⟩ := (H c).1
  have hu' : Unreg c := by injection h with h; subst h; exact ⟨fun _ => rfl, rfl⟩
  have w1 : c1.weights = c.weights := by
    obtain ⟨c1', e1', _, _, s⟩ := (init_spec (c := c) Constr.exJunk hp.1.shape hu'.2 (Or.inl hu'.1)).1 hf
    rw [e1] at e1'; injection e1' with e; rw [e]; exact s.weights
  obtain ⟨c3, e3, x3⟩ := (H c1).2 e1 Relation.ReflTransGen.refl w1
  refine ⟨ps, c, c1, c3, c', hp, h, e1, c13_cost_autoSpan_noop hu' hp.1 e1 Relation.ReflTransGen.refl _, e3, x3, fun X U => ?_, h', hf'⟩
  rw [hv]
  refine Finset.sum_congr rfl fun k _ => ?_
  simp [mkControl, construct, Vec.const, ctrl]

/-- C12: horizon-long matrices with per-step targets. -/
example : ∃ c c' : Cost ℚ,
    (mkTrajectory (⟨4, 8, fun i j => if j / 2 = i then 1 else 0⟩ : Mat ℚ) ⟨1, fun _ => 3⟩).autoSpan Constr.exJunk = .ok c ∧
    (mkControl (⟨3, 3, fun i j => if j = i then 1 else 0⟩ : Mat ℚ) ⟨1, fun _ => 3⟩).autoSpan Constr.exJunk = .ok c' ∧
    Fits ⟨2, 1, 3⟩ c ∧ Fits ⟨2, 1, 3⟩ c' := by
  obtain ⟨c, h, _, hf, _⟩ := c12_trajectory_autoSpan_vector (d := ⟨2, 1, 3⟩) (s := 4)
    (c := mkTrajectory (⟨4, 8, fun i j => if j / 2 = i then 1 else 0⟩ : Mat ℚ) ⟨1, fun _ => 3⟩) rfl (by simp) rfl rfl (by decide) rfl Constr.exJunk
  obtain ⟨c', h', _, hf', _⟩ := c12_control_autoSpan_vector (d := ⟨2, 1, 3⟩) (s := 3)
    (c := mkControl (⟨3, 3, fun i j => if j = i then 1 else 0⟩ : Mat ℚ) ⟨1, fun _ => 3⟩) rfl (by simp) rfl rfl (by decide) rfl Constr.exJunk
  exact ⟨c, c', h, h', hf, hf'⟩

/-- C22, C25: full-size trajectory and mixed costs, exact after two updates. -/
example : ∃ (ps : PreviewSystem ℚ) (c1 c2 c3 k1 k2 k3 : Cost ℚ), Current ⟨2, 1, 3⟩ ps ∧
    (mkTrajectory (⟨1, 8, fun _ j => j⟩ : Mat ℚ) ⟨1, fun _ => 3⟩).initializeCost Constr.exJunk ps = .ok c1 ∧
    c1.update ps = some c2 ∧ c2.update ps = some c3 ∧
    CostExact ⟨2, 1, 3⟩ ps c3 (.trajectory ⟨1, 8, fun _ j => j⟩ ⟨1, fun _ => 3⟩ c2.weights) ∧
    (mkMixed (⟨1, 8, fun _ j => j⟩ : Mat ℚ) ⟨1, 3, fun _ _ => 1⟩ ⟨1, fun _ => 3⟩).initializeCost Constr.exJunk ps = .ok k1 ∧
    k1.update ps = some k2 ∧ k2.update ps = some k3 ∧
    CostExact ⟨2, 1, 3⟩ ps k3 (.mixed ⟨1, 8, fun _ j => j⟩ ⟨1, 3, fun _ _ => 1⟩ ⟨1, fun _ => 3⟩ k2.weights) := by
  obtain ⟨ps, hp, _⟩ := ex_current
  obtain ⟨c1, e1, _⟩ := (init_spec (c := mkTrajectory (⟨1, 8, fun _ j => j⟩ : Mat ℚ) ⟨1, fun _ => 3⟩)
    Constr.exJunk hp.1.shape rfl (Or.inl fun _ => rfl)).1 ⟨rfl, Or.inr rfl⟩
  obtain ⟨c2, e2, _⟩ := c22_trajectory_full_any_update hp.1 (by simp) e1 Relation.ReflTransGen.refl hp
  obtain ⟨c3, e3, x3⟩ := c22_trajectory_full_any_update hp.1 (by simp) e1 (Relation.ReflTransGen.single (.update hp e2)) hp
  obtain ⟨k1, f1, _⟩ := (init_spec (c := mkMixed (⟨1, 8, fun _ j => j⟩ : Mat ℚ) ⟨1, 3, fun _ _ => 1⟩ ⟨1, fun _ => 3⟩)
    Constr.exJunk hp.1.shape rfl (Or.inl fun _ => rfl)).1 ⟨rfl, rfl, Or.inr ⟨rfl, rfl⟩⟩
  obtain ⟨k2, f2, _⟩ := c25_mixed_full_any_update hp.1 (by simp) f1 Relation.ReflTransGen.refl hp
  obtain ⟨k3, f3, y3⟩ := c25_mixed_full_any_update hp.1 (by simp) f1 (Relation.ReflTransGen.single (.update hp f2)) hp
  exact ⟨ps, c1, c2, c3, k1, k2, k3, hp, e1, e2, e3, x3, f1, f2, f3, y3⟩

/-- C23, C24: target and control costs after two updates; C25: a per-step mixed cost after its first update. -/
example : ∃ (ps : PreviewSystem ℚ) (c1 c2 c3 k1 k2 k3 m1 m2 : Cost ℚ), Current ⟨2, 1, 3⟩ ps ∧
    (mkTarget (⟨1, 2, fun _ j => j⟩ : Mat ℚ) ⟨1, fun _ => 3⟩).initializeCost Constr.exJunk ps = .ok c1 ∧
    c1.update ps = some c2 ∧ c2.update ps = some c3 ∧
    CostExact ⟨2, 1, 3⟩ ps c3 (.target ⟨1, 2, fun _ j => j⟩ ⟨1, fun _ => 3⟩ c2.weights) ∧
    (mkControl (⟨1, 1, fun _ _ => 2⟩ : Mat ℚ) ⟨1, fun _ => 3⟩).initializeCost Constr.exJunk ps = .ok k1 ∧
    k1.update ps = some k2 ∧ k2.update ps = some k3 ∧
    CostExact ⟨2, 1, 3⟩ ps k3 (.control ⟨1, 1, fun _ _ => 2⟩ ⟨1, fun _ => 3⟩ k2.weights) ∧
    (mkMixed (⟨1, 2, fun _ j => j⟩ : Mat ℚ) ⟨1, 1, fun _ _ => 1⟩ ⟨1, fun _ => 3⟩).initializeCost Constr.exJunk ps = .ok m1 ∧
    m1.update ps = some m2 ∧
    CostExact ⟨2, 1, 3⟩ ps m2 (.mixed ⟨1, 2, fun _ j => j⟩ ⟨1, 1, fun _ _ => 1⟩ ⟨1, fun _ => 3⟩ m1.weights) := by
  obtain ⟨ps, hp, _⟩ := ex_current
  obtain ⟨c1, e1, _⟩ := (init_spec (c := mkTarget (⟨1, 2, fun _ j => j⟩ : Mat ℚ) ⟨1, fun _ => 3⟩)
    Constr.exJunk hp.1.shape rfl (Or.inl fun _ => rfl)).1 ⟨rfl, rfl⟩
  obtain ⟨c2, e2, _⟩ := c23_target_value_exact hp.1 e1 Relation.ReflTransGen.refl hp
  obtain ⟨c3, e3, x3⟩ := c23_target_value_exact hp.1 e1 (Relation.ReflTransGen.single (.update hp e2)) hp
  obtain ⟨k1, f1, _⟩ := (init_spec (c := mkControl (⟨1, 1, fun _ _ => 2⟩ : Mat ℚ) ⟨1, fun _ => 3⟩)
    Constr.exJunk hp.1.shape rfl (Or.inl fun _ => rfl)).1 ⟨rfl, Or.inl rfl⟩
  obtain ⟨k2, f2, _⟩ := c24_control_value_exact hp.1 f1 Relation.ReflTransGen.refl hp
  obtain ⟨k3, f3, y3⟩ := c24_control_value_exact hp.1 f1 (Relation.ReflTransGen.single (.update hp f2)) hp
  obtain ⟨m1, g1, _⟩ := (init_spec (c := mkMixed (⟨1, 2, fun _ j => j⟩ : Mat ℚ) ⟨1, 1, fun _ _ => 1⟩ ⟨1, fun _ => 3⟩)
    Constr.exJunk hp.1.shape rfl (Or.inl fun _ => rfl)).1 ⟨rfl, rfl, Or.inl ⟨rfl, rfl⟩⟩
  obtain ⟨m2, g2, z2⟩ := c25_mixed_value_exact hp.1 g1 Relation.ReflTransGen.refl hp
  exact ⟨ps, c1, c2, c3, k1, k2, k3, m1, m2, hp, e1, e2, e3, x3, f1, f2, f3, y3, g1, g2, z2⟩

end Cost
end Copra
