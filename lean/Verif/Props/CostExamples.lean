import Verif.Props.CostSpan
import Verif.Props.ConstrExamples

/-! # Instances of the hypotheses of C12, C13, C22-C26, C28 -/

namespace Copra
open Spec

namespace Cost

/-- C22: a per-step trajectory cost on the double integrator is accepted, updated, and re-weighted. -/
example : ∃ (ps : PreviewSystem ℚ) (c1 c2 c3 : Cost ℚ), Current ⟨2, 1, 3⟩ ps ∧
    (mkTrajectory (⟨1, 2, fun _ j => j⟩ : Mat ℚ) ⟨1, fun _ => 3⟩).initializeCost Constr.exJunk ps = .ok c1 ∧
    QuietHistory ⟨2, 1, 3⟩ c1 c2 ∧ c2.weights.e 0 = 5 ∧ c2.update ps = some c3 ∧
    CostExact ⟨2, 1, 3⟩ ps c3 (.trajectory ⟨1, 2, fun _ j => j⟩ ⟨1, fun _ => 3⟩ ⟨1, fun _ => 5⟩) := by
  obtain ⟨ps, hp, _⟩ := ex_current
  obtain ⟨c1, e1, r1, _, s1⟩ := (init_spec (c := mkTrajectory (⟨1, 2, fun _ j => j⟩ : Mat ℚ) ⟨1, fun _ => 3⟩)
    Constr.exJunk hp.1.shape rfl (Or.inl fun _ => rfl)).1 ⟨rfl, Or.inl rfl⟩
  have hq : QuietHistory ⟨2, 1, 3⟩ c1 (c1.setWeight 5) := Relation.ReflTransGen.single .weight
  obtain ⟨c3, e3, h3⟩ := c22_trajectory_value_exact hp.1 e1 hq hp
  have hw : (c1.setWeight 5).weights = ⟨1, fun _ => 5⟩ := by
    unfold setWeight
    show Vec.const c1.weights.rows 5 = _
    rw [s1.weights]; rfl
  refine ⟨ps, c1, _, c3, hp, e1, hq, by rw [hw], e3, ?_⟩
  rw [hw] at h3; exact h3

/-- C23, C24, C25: target, full-size control and per-step mixed costs are accepted. -/
example : ∃ (ps : PreviewSystem ℚ) (c1 c2 c3 : Cost ℚ), Current ⟨2, 1, 3⟩ ps ∧
    (mkTarget (⟨2, 2, fun i j => if i = j then 1 else 0⟩ : Mat ℚ) ⟨2, fun _ => 3⟩).initializeCost Constr.exJunk ps = .ok c1 ∧
    (mkControl (⟨2, 3, fun _ _ => 1⟩ : Mat ℚ) ⟨2, fun _ => 3⟩).initializeCost Constr.exJunk ps = .ok c2 ∧
    (mkMixed (⟨1, 2, fun _ _ => 1⟩ : Mat ℚ) ⟨1, 1, fun _ _ => 1⟩ ⟨1, fun _ => 3⟩).initializeCost Constr.exJunk ps = .ok c3 := by
  obtain ⟨ps, hp, _⟩ := ex_current
  obtain ⟨c1, e1, _⟩ := (init_spec (c := mkTarget (⟨2, 2, fun i j => if i = j then 1 else 0⟩ : Mat ℚ) ⟨2, fun _ => 3⟩)
    Constr.exJunk hp.1.shape rfl (Or.inl fun _ => rfl)).1 ⟨rfl, rfl⟩
  obtain ⟨c2, e2, _⟩ := (init_spec (c := mkControl (⟨2, 3, fun _ _ => 1⟩ : Mat ℚ) ⟨2, fun _ => 3⟩)
    Constr.exJunk hp.1.shape rfl (Or.inl fun _ => rfl)).1 ⟨rfl, Or.inr rfl⟩
  obtain ⟨c3, e3, _⟩ := (init_spec (c := mkMixed (⟨1, 2, fun _ _ => 1⟩ : Mat ℚ) ⟨1, 1, fun _ _ => 1⟩ ⟨1, fun _ => 3⟩)
    Constr.exJunk hp.1.shape rfl (Or.inl fun _ => rfl)).1 ⟨rfl, rfl, Or.inl ⟨rfl, rfl⟩⟩
  exact ⟨ps, c1, c2, c3, hp, e1, e2, e3⟩

/-- C26: an update followed by another one, weights nonnegative. -/
example : ∃ (ps : PreviewSystem ℚ) (c1 c2 : Cost ℚ), Current ⟨2, 1, 3⟩ ps ∧
    (mkTrajectory (⟨1, 2, fun _ j => j⟩ : Mat ℚ) ⟨1, fun _ => 3⟩).initializeCost Constr.exJunk ps = .ok c1 ∧
    NonnegHistory ⟨2, 1, 3⟩ c1 c2 ∧ c1.update ps = some c2 ∧ NonnegW c1 ∧ PSD 3 c2.Q := by
  obtain ⟨ps, hp, _⟩ := ex_current
  have hun : Unreg (mkTrajectory (⟨1, 2, fun _ j => j⟩ : Mat ℚ) ⟨1, fun _ => 3⟩) := ⟨fun _ => rfl, rfl⟩
  have hw : NonnegW (mkTrajectory (⟨1, 2, fun _ j => j⟩ : Mat ℚ) ⟨1, fun _ => 3⟩) := by
    intro r _; simp [mkTrajectory, construct, Vec.const]
  obtain ⟨c1, e1, r1, _, s1⟩ := (init_spec (c := mkTrajectory (⟨1, 2, fun _ j => j⟩ : Mat ℚ) ⟨1, fun _ => 3⟩)
    Constr.exJunk hp.1.shape rfl (Or.inl fun _ => rfl)).1 ⟨rfl, Or.inl rfl⟩
  have hw1 : NonnegW c1 := by unfold NonnegW; rw [s1.weights]; exact hw
  obtain ⟨c2, e2, p2⟩ := c26_costs_convex hun hp.1 e1 hw Relation.ReflTransGen.refl hp
  have hw2 : NonnegW c2 := by
    obtain ⟨_, u⟩ := (update_ok r1.pre hp.1.shape hp.2.2).of_eq e2
    unfold NonnegW; rw [u.same.weights]; exact hw1
  exact ⟨ps, c1, c2, hp, e1, Relation.ReflTransGen.single ⟨.update hp e2, hw2⟩, e2, hw1, p2⟩

/-- C12: per-step matrix, horizon-long target. -/
example : ∃ c : Cost ℚ, (mkTrajectory (⟨1, 2, fun _ j => j⟩ : Mat ℚ) ⟨4, fun i => i⟩).autoSpan Constr.exJunk = .ok c ∧
    Fits ⟨2, 1, 3⟩ c ∧ c.autoSpan Constr.exJunk = .ok c := by
  obtain ⟨c, e, _, h, _⟩ := c12_trajectory_autoSpan (d := ⟨2, 1, 3⟩)
    (c := mkTrajectory (⟨1, 2, fun _ j => j⟩ : Mat ℚ) ⟨4, fun i => i⟩) (by decide) (by decide) rfl rfl rfl rfl Constr.exJunk
  exact ⟨c, e, h, c13_cost_autoSpan_idempotent e _⟩

/-- C28: a vector of length 2 on a cost with 4 targets is repeated, one of length 3 is rejected. -/
example : (∃ c : Cost ℚ, (mkTrajectory (⟨4, 2, fun _ j => j⟩ : Mat ℚ) ⟨4, fun i => i⟩).setWeights ⟨2, fun i => i + 7⟩ = .ok c ∧
      c.weights.e 3 = 8) ∧
    (mkTrajectory (⟨4, 2, fun _ j => j⟩ : Mat ℚ) ⟨4, fun i => i⟩).setWeights ⟨3, fun i => i + 7⟩ =
      .thrown .domainError (mkTrajectory ⟨4, 2, fun _ j => j⟩ ⟨4, fun i => i⟩) := by
  constructor
  · obtain ⟨c, e, _, h, _⟩ := (c28_weights (mkTrajectory (⟨4, 2, fun _ j => j⟩ : Mat ℚ) ⟨4, fun i => i⟩)
      ⟨2, fun i => i + 7⟩).1 2 (by decide) rfl
    refine ⟨c, e, ?_⟩
    have := h 1 (by decide) 1 (by decide)
    norm_num at this ⊢
    exact this
  · exact (c28_weights _ _).2.1 (by decide) (by decide)

end Cost
end Copra
