import Verif.Proofs.HistInv

/-! # The matrices of a registered object are functions of its declared data and of the system -/

namespace Copra
open Spec

set_option linter.unusedSectionVars false
set_option linter.unusedSimpArgs false

variable {K : Type} [Field K]

/-! ## Constraints -/

/-- Rows that agree on every index that matters. -/
structure RowEq (d : Dims) (ρ ρ' : Row K) : Prop where
  a : ∀ s < d.n * (d.N + 1), ρ.a s = ρ'.a s
  b : ∀ j < d.m * d.N, ρ.b j = ρ'.b j
  rhs : ρ.rhs = ρ'.rhs

theorem RowIs.of_eq {d : Dims} {ps : PreviewSystem K} {c : Constr K} {i : Nat} {ρ ρ' : Row K} (h : RowIs d ps c i ρ)
    (e : RowEq d ρ ρ') : RowIs d ps c i ρ' := by
  refine ⟨?_, ?_, ?_, h.b⟩
  · intro j hj
    rw [h.A j hj, e.b j hj]
    congr 1
    apply Finset.sum_congr rfl; intro s hs
    rw [e.a s (Finset.mem_range.1 hs)]
  · intro j hj
    rw [h.Y j hj]
    apply Finset.sum_congr rfl; intro s hs
    rw [e.a s (Finset.mem_range.1 hs)]
  · rw [h.z, e.rhs]
    congr 1
    apply Finset.sum_congr rfl; intro s hs
    rw [e.a s (Finset.mem_range.1 hs)]

theorem finiteLines_congr {P : Ext K → Bool} {v v' : Vec (Ext K)} (h : VecEq v v') :
    Constr.finiteLines P v = Constr.finiteLines P v' := by
  unfold Constr.finiteLines
  rw [h.1]
  apply List.filter_congr
  intro i hi
  rw [h.2 i (by rw [h.1]; exact List.mem_range.1 hi)]

theorem blockRow_congr {w M i : Nat} {E E' : Mat K} (h : MatEq E E') (hc : E.cols = w) (hi : i < E.rows * M) {s t : Nat}
    (hs : s < w * t) : Constr.blockRow w E i s = Constr.blockRow w E' i s := by
  have hr : 0 < E.rows := by
    rcases Nat.eq_zero_or_pos E.rows with h0 | h0
    · rw [h0, Nat.zero_mul] at hi; exact absurd hi (Nat.not_lt_zero _)
    · exact h0
  have hw : 0 < w := by
    rcases Nat.eq_zero_or_pos w with h0 | h0
    · rw [h0, Nat.zero_mul] at hs; exact absurd hs (Nat.not_lt_zero _)
    · exact h0
  unfold Constr.blockRow
  rw [← h.1, h.2.2 _ (Nat.mod_lt _ hr) _ (by rw [hc]; exact Nat.mod_lt _ hw)]

theorem pos_of_lt_mul {i a b : Nat} (h : i < a * b) : 0 < a := by
  rcases Nat.eq_zero_or_pos a with h0 | h0
  · rw [h0, Nat.zero_mul] at h; exact absurd h (Nat.not_lt_zero _)
  · exact h0

/-- What the declared data determines. -/
structure Constr.Det (d : Dims) (c c' : Constr K) : Prop where
  kind : c.kind = c'.kind
  type : c.constraintType = c'.constraintType
  nr : c.nrConstr = c'.nrConstr
  full : c.fullSizeEntry = c'.fullSizeEntry
  rows : c.kind ≠ .ctrlBound → ∀ i < c.nrConstr, RowEq d (c.row d i) (c'.row d i)
  lower : c.kind = .ctrlBound → c.fullSizeEntry = false → ∀ r < d.m, c.lower.e r = c'.lower.e r ∧ c.upper.e r = c'.upper.e r
  lb : c.kind = .ctrlBound → c.fullSizeEntry = true → ∀ j < d.m * d.N, c.lb.e j = c'.lb.e j ∧ c.ub.e j = c'.ub.e j

open World in
set_option maxHeartbeats 1000000 in
theorem Constr.determined_of_lines {d : Dims} {c c' : Constr K} (r : Reg d c) (r' : Reg d c')
    (hl : c.kind = .trajBound → c'.kind = .trajBound → VecEq c.lower c'.lower → VecEq c.upper c'.upper →
      c.lowerLines = c'.lowerLines ∧ c.upperLines = c'.upperLines)
    (u : c.userData.Eqv c'.userData) : Det d c c' := by
  unfold Constr.userData at u
  unfold Reg at r r'
  have key : c.kind = c'.kind := by
    cases hk : c.kind <;> cases hk' : c'.kind <;> first | rfl | skip
    all_goals
      rw [hk, hk'] at u
      simp only at u
      repeat' split at u
    all_goals exact u.elim
  cases hk : c.kind <;> have hk' := key.symm.trans hk <;> rw [hk] at r u <;> rw [hk'] at r' u <;> simp only at r r' u
  case trajectory =>
    obtain ⟨u1, u2, u3⟩ := u
    have D := r.dims
    have D' := r'.dims
    have full : c.fullSizeEntry = c'.fullSizeEntry := by
      by_cases hf : c.fullSizeEntry <;> by_cases hf' : c'.fullSizeEntry <;> simp only [hf, hf'] at D D' ⊢
      · exact absurd (u2.2.1.trans D'.1) D.1
      · exact absurd (u2.2.1.symm.trans D.1) D'.1
    have nr : c.nrConstr = c'.nrConstr := by
      rw [← full] at D'
      by_cases hf : c.fullSizeEntry <;> simp only [hf] at D D'
      · rw [D.2.2, D'.2.2, u2.1]
      · rw [D.2, D'.2, u2.1]
    refine ⟨hk.trans hk'.symm, ?_, nr, full, ?_, fun h => (by rw [hk] at h; cases h), fun h => (by rw [hk] at h; cases h)⟩
    · unfold constraintType; rw [hk, hk', u1]
    · intro _ i hi
      unfold Constr.row
      rw [hk, hk']
      simp only [← full]
      by_cases hf : c.fullSizeEntry <;> simp only [hf] at D ⊢
      · obtain ⟨_, D2, D3⟩ := D
        rw [D3] at hi
        exact ⟨fun s hs => u2.2.2 i hi s (by rw [D2]; exact hs), fun _ _ => rfl, u3.2 i (by rw [r.rows]; exact hi)⟩
      · obtain ⟨D1, D2⟩ := D
        rw [D2] at hi
        refine ⟨fun s hs => blockRow_congr u2 D1 hi hs, fun _ _ => rfl, ?_⟩
        simp only [Bool.false_eq_true, if_false]
        rw [← u2.1]
        exact u3.2 _ (by rw [r.rows]; exact Nat.mod_lt _ (pos_of_lt_mul hi))
  case control =>
    have D := r.dims
    have D' := r'.dims
    have full : c.fullSizeEntry = c'.fullSizeEntry := by
      by_cases hf : c.fullSizeEntry <;> by_cases hf' : c'.fullSizeEntry <;> simp only [hf, hf'] at D D' u ⊢
      · exact absurd (u.2.1.2.1.trans D'.1) D.1
      · exact absurd (u.2.1.2.1.symm.trans D.1) D'.1
    rw [← full] at u D'
    refine ⟨hk.trans hk'.symm, ?_, ?_, full, ?_, fun h => (by rw [hk] at h; cases h), fun h => (by rw [hk] at h; cases h)⟩
    · unfold constraintType; rw [hk, hk']
      by_cases hf : c.fullSizeEntry <;> simp only [hf] at u <;> simp only [u.1]
    · by_cases hf : c.fullSizeEntry <;> simp only [hf] at D D' u
      · rw [← r.sizes.Ar, ← r'.sizes.Ar, u.2.1.1]
      · rw [D.2.2.1, D'.2.2.1, u.2.1.1]
    · intro _ i hi
      unfold Constr.row
      rw [hk, hk']
      simp only [← full]
      by_cases hf : c.fullSizeEntry <;> simp only [hf] at D u ⊢
      · refine ⟨fun _ _ => rfl, fun j hj => ?_, ?_⟩
        · exact u.2.1.2.2 i (by rw [r.sizes.Ar]; exact hi) j (by rw [r.sizes.Ac]; exact hj)
        · exact u.2.2.2 i (by rw [r.sizes.br]; exact hi)
      · obtain ⟨D1, D2, D3, _⟩ := D
        rw [D3] at hi
        refine ⟨fun _ _ => rfl, fun j hj => ?_, ?_⟩
        · exact blockRow_congr u.2.1 D1 hi hj
        · simp only [Bool.false_eq_true, if_false]
          rw [← u.2.1.1]
          exact u.2.2.2 _ (by rw [D2]; exact Nat.mod_lt _ (pos_of_lt_mul hi))
  case mixed =>
    obtain ⟨u1, u2, u3, u4⟩ := u
    have D := r.dims
    have D' := r'.dims
    have full : c.fullSizeEntry = c'.fullSizeEntry := by
      by_cases hf : c.fullSizeEntry <;> by_cases hf' : c'.fullSizeEntry <;> simp only [hf, hf'] at D D' ⊢
      · exact absurd ⟨u2.2.1.trans D'.1, u3.2.1.trans D'.2.1⟩ D.1
      · exact absurd ⟨u2.2.1.symm.trans D.1, u3.2.1.symm.trans D.2.1⟩ D'.1
    have nr : c.nrConstr = c'.nrConstr := by
      rw [← full] at D'
      by_cases hf : c.fullSizeEntry <;> simp only [hf] at D D'
      · rw [D.2.2.2, D'.2.2.2, u2.1]
      · rw [D.2.2.1, D'.2.2.1, u2.1]
    refine ⟨hk.trans hk'.symm, ?_, nr, full, ?_, fun h => (by rw [hk] at h; cases h), fun h => (by rw [hk] at h; cases h)⟩
    · unfold constraintType; rw [hk, hk', u1]
    · intro _ i hi
      unfold Constr.row
      rw [hk, hk']
      simp only [← full]
      by_cases hf : c.fullSizeEntry <;> simp only [hf] at D ⊢
      · obtain ⟨_, D2, D3, D4⟩ := D
        rw [D4] at hi
        exact ⟨fun s hs => u2.2.2 i hi s (by rw [D2]; exact hs),
          fun j hj => u3.2.2 i (by rw [r.rowsG]; exact hi) j (by rw [D3]; exact hj), u4.2 i (by rw [r.rows]; exact hi)⟩
      · obtain ⟨D1, D2, D3, _⟩ := D
        rw [D3] at hi
        refine ⟨fun s hs => blockRow_congr u2 D1 hi hs, fun j hj => blockRow_congr u3 D2 (by rw [r.rowsG]; exact hi) hj, ?_⟩
        simp only [Bool.false_eq_true, if_false]
        rw [← u2.1]
        exact u4.2 _ (by rw [r.rows]; exact Nat.mod_lt _ (pos_of_lt_mul hi))
  case trajBound =>
    obtain ⟨u1, u2⟩ := u
    have D := r.dims
    have D' := r'.dims
    have full : c.fullSizeEntry = c'.fullSizeEntry := by
      by_cases hf : c.fullSizeEntry <;> by_cases hf' : c'.fullSizeEntry <;> simp only [hf, hf'] at D D' ⊢
      · exact absurd (u1.1.trans D') D.1
      · exact absurd (u1.1.symm.trans D) D'.1
    obtain ⟨e1, e2⟩ := hl hk hk' u1 u2
    have st : boundSteps d c = boundSteps d c' := by unfold boundSteps; rw [full]
    have nr : c.nrConstr = c'.nrConstr := by rw [r.nr, r'.nr, e1, e2, st]
    refine ⟨hk.trans hk'.symm, ?_, nr, full, ?_, fun h => (by rw [hk] at h; cases h), fun h => (by rw [hk] at h; cases h)⟩
    · unfold constraintType; rw [hk, hk']
    · intro _ i hi
      unfold Constr.row
      rw [hk, hk']
      simp only [← e1, ← e2, ← st]
      obtain ⟨L1, L2⟩ := r.lines
      split
      · next h =>
        refine ⟨fun _ _ => rfl, fun _ _ => rfl, ?_⟩
        apply u1.2
        have hp := Nat.mod_lt i (pos_of_lt_mul h)
        apply L1
        rw [List.getD_eq_getElem?_getD, List.getElem?_eq_getElem hp]
        exact List.getElem_mem hp
      · next h =>
        refine ⟨fun _ _ => rfl, fun _ _ => rfl, ?_⟩
        apply u2.2
        rw [r.nr, Nat.add_mul] at hi
        have h' : i - c.lowerLines.length * boundSteps d c < c.upperLines.length * boundSteps d c := by omega
        have hp := Nat.mod_lt (i - c.lowerLines.length * boundSteps d c) (pos_of_lt_mul h')
        apply L2
        rw [List.getD_eq_getElem?_getD, List.getElem?_eq_getElem hp]
        exact List.getElem_mem hp
  case ctrlBound =>
    have D := r.dims
    have D' := r'.dims
    have full : c.fullSizeEntry = c'.fullSizeEntry := by
      by_cases hf : c.fullSizeEntry <;> by_cases hf' : c'.fullSizeEntry <;> simp only [hf, hf'] at D D' u ⊢
      · exact absurd (r.lbr.symm.trans (u.1.1.trans D')) D
      · exact absurd (r'.lbr.symm.trans (u.1.1.symm.trans D)) D'
    rw [← full] at u D'
    refine ⟨hk.trans hk'.symm, ?_, ?_, full, fun h => absurd hk h, ?_, ?_⟩
    · unfold constraintType; rw [hk, hk']
    · rw [r.nr, r'.nr]
    · intro _ hf j hj
      simp only [hf] at D u
      have hj' : j < c.lower.rows := by simp only [Bool.false_eq_true, if_false] at D; rw [D]; exact hj
      exact ⟨u.1.2 j hj', u.2.2 j (by rw [r.rows]; exact hj')⟩
    · intro _ hf j hj
      simp only [hf] at u
      exact ⟨u.1.2 j (by rw [r.lbr]; exact hj), u.2.2 j (by rw [r.ubr]; exact hj)⟩

open World in
theorem Constr.determined {d : Dims} {c c' : Constr K} (r : Reg d c) (r' : Reg d c') (l : LinesCurrent c) (l' : LinesCurrent c')
    (u : c.userData.Eqv c'.userData) : Det d c c' := by
  refine Constr.determined_of_lines r r' (fun hk hk' u1 u2 => ⟨?_, ?_⟩) u
  · rw [(l hk).1, (l' hk').1]; exact finiteLines_congr u1
  · rw [(l hk).2, (l' hk').2]; exact finiteLines_congr u2

/-! ## Costs -/

namespace Cost

/-- What the declared data of a cost determines. -/
structure Det (d : Dims) (c c' : Cost K) : Prop where
  kind : c.kind = c'.kind
  steps : c.steps d = c'.steps d
  pr : c.p.rows = c'.p.rows
  p : ∀ r < c.p.rows, c.p.e r = c'.p.e r
  w : ∀ r < c.p.rows, c.weights.e r = c'.weights.e r
  state : ∀ k < c.steps d, ∀ r < c.p.rows, ∀ F F' : Nat → K, (∀ s < d.n * (d.N + 1), F s = F' s) →
    c.stateRow d k r F = c'.stateRow d k r F'
  ctrl : ∀ k < c.steps d, ∀ r < c.p.rows, ∀ j < d.m * d.N, c.ctrlRow d k r j = c'.ctrlRow d k r j

theorem sum_full {d : Dims} {M M' : Mat K} {r : Nat} {F F' : Nat → K} (h : MatEq M M') (hr : r < M.rows)
    (hc : M.cols = d.n * (d.N + 1)) (hF : ∀ s < d.n * (d.N + 1), F s = F' s) :
    ∑ s ∈ Finset.range (d.n * (d.N + 1)), M.e r s * F s = ∑ s ∈ Finset.range (d.n * (d.N + 1)), M'.e r s * F' s := by
  apply Finset.sum_congr rfl; intro s hs
  have hs := Finset.mem_range.1 hs
  rw [h.2.2 r hr s (by rw [hc]; exact hs), hF s hs]

theorem sum_step {d : Dims} {M M' : Mat K} {r k : Nat} {F F' : Nat → K} (h : MatEq M M') (hr : r < M.rows)
    (hc : M.cols = d.n) (hk : k ≤ d.N) (hF : ∀ s < d.n * (d.N + 1), F s = F' s) :
    ∑ s ∈ Finset.range d.n, M.e r s * F (k * d.n + s) = ∑ s ∈ Finset.range d.n, M'.e r s * F' (k * d.n + s) := by
  apply Finset.sum_congr rfl; intro s hs
  have hs := Finset.mem_range.1 hs
  rw [h.2.2 r hr s (by rw [hc]; exact hs), hF _ (blk_lt' (by omega) hs)]

theorem ctrl_full {d : Dims} {M M' : Mat K} {r j : Nat} (h : MatEq M M') (hr : r < M.rows)
    (hc : M.cols = d.m * d.N) (hj : j < d.m * d.N) : M.e r j = M'.e r j :=
  h.2.2 r hr j (by rw [hc]; exact hj)

theorem ctrl_step {d : Dims} {M M' : Mat K} {r k j : Nat} (h : MatEq M M') (hr : r < M.rows)
    (hc : M.cols = d.m) (hj : j < d.m * d.N) :
    (if j / d.m = k then M.e r (j % d.m) else 0) = if j / d.m = k then M'.e r (j % d.m) else 0 := by
  rw [h.2.2 r hr _ (by rw [hc]; exact Nat.mod_lt _ (pos_of_lt_mul hj))]

theorem determined {d : Dims} {c c' : Cost K} (r : Pre d c) (r' : Pre d c') (u : c.userData.Eqv c'.userData) : Det d c c' := by
  unfold Cost.userData at u
  have D := r.data
  have D' := r'.data
  unfold DataOk at D D'
  have key : c.kind = c'.kind := by
    cases hk : c.kind <;> cases hk' : c'.kind <;> first | rfl | skip
    all_goals
      rw [hk, hk'] at u
      exact u.elim
  cases hk : c.kind <;> have hk' := key.symm.trans hk <;> rw [hk] at D u <;> rw [hk'] at D' u <;> simp only at D D' u
  case trajectory =>
    obtain ⟨u1, u2, u3⟩ := u
    have full : c.fullSizeEntry = c'.fullSizeEntry := by
      by_cases hf : c.fullSizeEntry <;> by_cases hf' : c'.fullSizeEntry <;> simp only [hf, hf'] at D D' ⊢
      · exact absurd (u1.2.1.trans D'.2) D.2.1
      · exact absurd (u1.2.1.symm.trans D.2) D'.2.1
    refine ⟨key, by unfold Cost.steps; rw [key, full], u2.1, u2.2, fun i hi => u3.2 i (by rw [r.wr]; exact hi), ?_, ?_⟩
    · intro k hkN i hi F F' hF
      unfold steps at hkN
      unfold stateRow
      rw [hk] at hkN ⊢
      rw [hk']
      simp only [← full]
      by_cases hf : c.fullSizeEntry <;> simp only [hf] at D hkN ⊢
      · exact sum_full u1 (by rw [D.1]; exact hi) D.2.2 hF
      · exact sum_step u1 (by rw [D.1]; exact hi) D.2 (Nat.lt_succ_iff.1 hkN) hF
    · intro k _ i _ j _
      unfold ctrlRow; rw [hk, hk']
  case target =>
    obtain ⟨u1, u2, u3⟩ := u
    refine ⟨key, by unfold Cost.steps; rw [hk, hk'], u2.1, u2.2, fun i hi => u3.2 i (by rw [r.wr]; exact hi), ?_, ?_⟩
    · intro k _ i hi F F' hF
      unfold stateRow
      rw [hk, hk']
      exact sum_step u1 (by rw [D.1]; exact hi) D.2 (le_refl _) hF
    · intro k _ i _ j _
      unfold ctrlRow; rw [hk, hk']
  case control =>
    obtain ⟨u1, u2, u3⟩ := u
    have full : c.fullSizeEntry = c'.fullSizeEntry := by
      by_cases hf : c.fullSizeEntry <;> by_cases hf' : c'.fullSizeEntry <;> simp only [hf, hf'] at D D' ⊢
      · exact absurd (u1.2.1.trans D'.2) D.2.1
      · exact absurd (u1.2.1.symm.trans D.2) D'.2.1
    refine ⟨key, by unfold Cost.steps; rw [key, full], u2.1, u2.2, fun i hi => u3.2 i (by rw [r.wr]; exact hi), ?_, ?_⟩
    · intro k _ i _ F F' _
      unfold stateRow; rw [hk, hk']
    · intro k _ i hi j hj
      unfold ctrlRow
      rw [hk, hk']
      simp only [← full]
      by_cases hf : c.fullSizeEntry <;> simp only [hf] at D ⊢
      · exact ctrl_full u1 (by rw [D.1]; exact hi) D.2.2 hj
      · exact ctrl_step u1 (by rw [D.1]; exact hi) D.2 hj
  case mixed =>
    obtain ⟨u1, u0, u2, u3⟩ := u
    have full : c.fullSizeEntry = c'.fullSizeEntry := by
      by_cases hf : c.fullSizeEntry <;> by_cases hf' : c'.fullSizeEntry <;> simp only [hf, hf'] at D D' ⊢
      · exact absurd ⟨u1.2.1.trans D'.2.2.1, u0.2.1.trans D'.2.2.2⟩ D.2.2.1
      · exact absurd ⟨u1.2.1.symm.trans D.2.2.1, u0.2.1.symm.trans D.2.2.2⟩ D'.2.2.1
    refine ⟨key, by unfold Cost.steps; rw [key, full], u2.1, u2.2, fun i hi => u3.2 i (by rw [r.wr]; exact hi), ?_, ?_⟩
    · intro k hkN i hi F F' hF
      unfold steps at hkN
      unfold stateRow
      rw [hk] at hkN ⊢
      rw [hk']
      simp only [← full]
      by_cases hf : c.fullSizeEntry <;> simp only [hf] at D hkN ⊢
      · exact sum_full u1 (by rw [D.1]; exact hi) D.2.2.2.1 hF
      · exact sum_step u1 (by rw [D.1]; exact hi) D.2.2.1 (Nat.le_of_lt hkN) hF
    · intro k _ i hi j hj
      unfold ctrlRow
      rw [hk, hk']
      simp only [← full]
      by_cases hf : c.fullSizeEntry <;> simp only [hf] at D ⊢
      · exact ctrl_full u0 (by rw [D.2.1]; exact hi) D.2.2.2.2 hj
      · exact ctrl_step u0 (by rw [D.2.1]; exact hi) D.2.2.2 hj

end Cost
end Copra
