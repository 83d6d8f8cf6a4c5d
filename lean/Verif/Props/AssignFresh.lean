import Verif.Props.Assign
import Verif.Proofs.Copies2

/-! # C103: what was just constructed must not be assigned over a constraint or cost in use -/

namespace Copra
open Spec

set_option linter.unusedSectionVars false
variable {K : Type} [Field K] [LinearOrder K] [IsStrictOrderedRing K]

theorem loop_none {σ : Type} {a b : Nat} {f : Nat → σ → Option σ} {s : σ} (hab : a < b) (h : f a s = none) :
    loop a b f s = none := by
  unfold loop
  obtain ⟨k, rfl⟩ : ∃ k, b = a + (k + 1) := ⟨b - a - 1, by omega⟩
  rw [Nat.add_sub_cancel_left, List.range'_succ, List.foldlM_cons, h]
  rfl

/-- A loop over a heap that gets stuck on object `j` before changing it. -/
theorem heap_none {α : Type} {f : (Nat → α) → Nat → Option (Nat → α)} {u : α → Option α}
    (hf : ∀ m i, f m i = (u (m i)).map fun x => World.upd m i x) {L : List Nat} {m : Nat → α} {j : Nat} (hj : j ∈ L)
    (h : u (m j) = none) : L.foldlM f m = none := by
  induction L generalizing m with
  | nil => cases hj
  | cons i L ih =>
    rw [List.foldlM_cons, hf]
    by_cases e : j = i
    · subst e; rw [h]; rfl
    · cases hu : u (m i) with
      | none => rfl
      | some x =>
        refine ih (List.mem_of_ne_of_mem e hj) ?_
        show u (World.upd m i x j) = none
        rw [World.upd_ne _ _ e]; exact h

theorem finiteLines_ne {f : Ext K → Bool} {v : Vec (Ext K)} (h : ∃ k < v.rows, f (v.e k) = false) :
    ∃ l L, Constr.finiteLines f v = l :: L := by
  obtain ⟨k, hk, hf⟩ := h
  have : k ∈ Constr.finiteLines f v := by
    unfold Constr.finiteLines
    simp [hk, hf]
  cases hL : Constr.finiteLines f v with
  | nil => rw [hL] at this; cases this
  | cons l L => exact ⟨l, L, rfl⟩

theorem Constr.fresh_none {d : Dims} {ps : PreviewSystem K} {c : Constr K} (h : World.FreshConstr c) (S : SysShape d ps)
    (hm : 0 < d.m) (hb : SomeBound c) : c.update ps = none := by
  have hN := S.Npos
  have hmN : 0 < d.m * d.N := Nat.mul_pos hm hN
  have blk : ∀ i j m n (M : Mat K), 0 < n → (Mat.empty : Mat K).setBlock? i j m n M = none := by
    intro i j m n M hn
    unfold Mat.setBlock?
    rw [if_neg]
    rintro ⟨_, h, _⟩
    have : j + n ≤ 0 := h
    omega
  have row : ∀ i (v : Vec K), (Mat.empty : Mat K).setRow? i v = none := by
    intro i v
    unfold Mat.setRow?
    rw [if_neg]
    rintro ⟨h, _⟩
    exact absurd h (Nat.not_lt_zero _)
  have seg : ∀ i m (v : Vec (Ext K)), 0 < m → (Vec.nil : Vec (Ext K)).setSegment? i m v = none := by
    intro i m v hm
    unfold Vec.setSegment?
    rw [if_neg]
    rintro ⟨h, _⟩
    have : i + m ≤ 0 := h
    omega
  rcases h with ⟨E, f, b, rfl⟩ | ⟨G, f, b, rfl⟩ | ⟨E, G, f, b, rfl⟩ | ⟨l, u, rfl⟩ | ⟨l, u, rfl⟩
  · show loop 0 ps.nrXStep (Constr.updateTrajectoryStep ps) (Constr.mkTrajectory E f b) = none
    refine loop_none (by rw [S.nrX]; omega) ?_
    unfold Constr.updateTrajectoryStep
    rw [show (Constr.mkTrajectory E f b).A = Mat.empty from rfl]
    simp only [blk _ _ _ _ _ (by rw [S.fullU]; exact hmN : 0 < ps.fullUDim), Option.bind_eq_bind, Option.bind_none,
      Option.bind_fun_none]
  · show (loop 0 ps.nrUStep (Constr.updateControlStep ps) (Constr.mkControl G f b)).bind _ = none
    rw [loop_none (by rw [S.nrU]; exact hN)]
    · rfl
    · unfold Constr.updateControlStep
      rw [show (Constr.mkControl G f b).A = Mat.empty from rfl]
      simp only [blk _ _ _ _ _ (by rw [S.uDim]; exact hm : 0 < ps.uDim), Option.bind_eq_bind, Option.bind_none]
  · show (Constr.updateMixedFirst ps (Constr.mkMixed E G f b)).bind _ = none
    unfold Constr.updateMixedFirst
    rw [show (Constr.mkMixed E G f b).A = Mat.empty from rfl]
    simp only [blk _ _ _ _ _ (by rw [S.uDim]; exact hm : 0 < ps.uDim), Option.bind_eq_bind, Option.bind_none]
  · have line : ∀ bd k n t, Constr.updateTrajBoundLine ps bd k (n, Constr.mkTrajBound l u) t = none := by
      intro bd k n t
      unfold Constr.updateTrajBoundLine
      dsimp only
      rw [show (Constr.mkTrajBound l u).A = Mat.empty from rfl]
      simp only [row, Option.bind_eq_bind, Option.bind_none, Option.bind_fun_none]
    show (loop 0 ps.nrXStep (Constr.updateTrajBoundLines ps l (Constr.finiteLines Ext.isNinf l))
      (0, Constr.mkTrajBound l u)).bind (fun s => (loop 0 ps.nrXStep (Constr.updateTrajBoundLines ps u
        (Constr.finiteLines Ext.isPinf u)) s).bind _) = none
    cases hL : Constr.finiteLines Ext.isNinf l with
    | cons a L =>
      rw [loop_none (by rw [S.nrX]; omega)]
      · rfl
      · unfold Constr.updateTrajBoundLines
        rw [List.foldlM_cons, line]
        rfl
    | nil =>
      have h1 : loop 0 ps.nrXStep (Constr.updateTrajBoundLines ps l []) (0, Constr.mkTrajBound l u) =
          some (0, Constr.mkTrajBound l u) := by
        unfold loop
        generalize List.range' 0 (ps.nrXStep - 0) = R
        induction R with
        | nil => rfl
        | cons r R ih => rw [List.foldlM_cons]; exact ih
      rw [h1, Option.bind_some]
      obtain ⟨a, L, hU⟩ : ∃ a L, Constr.finiteLines Ext.isPinf u = a :: L := by
        rcases hb rfl with hx | hx
        · obtain ⟨a, L, e⟩ := finiteLines_ne hx
          rw [show (Constr.mkTrajBound l u).lower = l from rfl, hL] at e
          cases e
        · exact finiteLines_ne hx
      rw [hU, loop_none (by rw [S.nrX]; omega)]
      · rfl
      · unfold Constr.updateTrajBoundLines
        rw [List.foldlM_cons, line]
        rfl
  · show loop 0 ps.nrUStep (Constr.updateCtrlBoundStep ps) (Constr.mkCtrlBound l u) = none
    refine loop_none (by rw [S.nrU]; exact hN) ?_
    unfold Constr.updateCtrlBoundStep
    rw [show (Constr.mkCtrlBound l u).ub = Vec.nil from rfl]
    simp only [seg _ _ _ (by rw [S.uDim]; exact hm : 0 < ps.uDim), Option.bind_eq_bind, Option.bind_none]

theorem Cost.accum_none {c : Cost K} {tmp Phi : Mat K} {xi : Vec K} (hQ : c.Q.rows = 0) (ht : 0 < tmp.cols) :
    c.accumTerms tmp Phi xi = none := by
  cases h : c.accumTerms tmp Phi xi with
  | none => rfl
  | some c' =>
    unfold Cost.accumTerms Cost.terms Cost.wquad at h
    simp only [Option.bind_eq_bind, Option.bind_eq_some_iff, Option.pure_def, Option.some.injEq] at h
    obtain ⟨T, ⟨Q, ⟨W, hW, hQ'⟩, MP, _, E, _, Mx, _, Mp, _, f, _, rfl⟩, Q2, h2, _⟩ := h
    unfold Mat.mulDiag? at hW
    unfold Mat.mul? at hQ'
    unfold Mat.add? at h2
    simp only [Option.ite_none_right_eq_some, Option.some.injEq] at hW hQ' h2
    obtain ⟨_, rfl⟩ := hW
    obtain ⟨_, rfl⟩ := hQ'
    have : c.Q.rows = tmp.cols := h2.1.1
    omega

theorem Cost.fresh_none {d : Dims} {ps : PreviewSystem K} {c : Cost K} (h : World.FreshCost c) (hk : c.kind ≠ .target)
    (S : SysShape d ps) (hm : 0 < d.m) : c.update ps = none := by
  have hN := S.Npos
  have hmN : 0 < ps.fullUDim := by rw [S.fullU]; exact Nat.mul_pos hm hN
  rcases h with ⟨M, p, rfl⟩ | ⟨M, p, rfl⟩ | ⟨N, p, rfl⟩ | ⟨M, N, p, rfl⟩
  · show (loop 0 ps.nrXStep (Cost.updateTrajectoryStep ps) (Cost.mkTrajectory M p)).bind _ = none
    rw [loop_none (by rw [S.nrX]; omega)]
    · rfl
    · cases hx : Cost.updateTrajectoryStep ps 0 (Cost.mkTrajectory M p) with
      | none => rfl
      | some c' =>
        unfold Cost.updateTrajectoryStep at hx
        simp only [Option.bind_eq_bind, Option.bind_eq_some_iff] at hx
        obtain ⟨B, hB, T, hT, P, _, s, _, hx⟩ := hx
        unfold Mat.block? at hB
        unfold Mat.mul? at hT
        simp only [Option.ite_none_right_eq_some, Option.some.injEq] at hB hT
        obtain ⟨_, rfl⟩ := hB
        obtain ⟨_, rfl⟩ := hT
        rw [Cost.accum_none rfl hmN] at hx
        cases hx
  · exact absurd rfl hk
  · cases hx : (Cost.mkControl N p).update ps with
    | none => rfl
    | some c' =>
      change (Cost.mkControl N p).updateControl ps = some c' at hx
      unfold Cost.updateControl at hx
      rw [show (Cost.mkControl N p).fullSizeEntry = false from rfl] at hx
      simp only [Bool.false_eq_true, if_false, Option.bind_eq_bind, Option.bind_eq_some_iff] at hx
      obtain ⟨mat, _, vec, _, hx⟩ := hx
      rw [loop_none (by rw [S.nrU]; exact hN)] at hx
      · cases hx
      · unfold Cost.updateControlStep
        have : (Cost.mkControl N p).Q.setBlock? (0 * ps.uDim) (0 * ps.uDim) ps.uDim ps.uDim mat = none := by
          unfold Mat.setBlock?
          rw [if_neg]
          rintro ⟨h, _⟩
          have h : 0 * ps.uDim + ps.uDim ≤ 0 := h
          rw [S.uDim] at h
          omega
        rw [this]
        rfl
  · show (loop 0 ps.nrUStep (Cost.updateMixedStep ps) (Cost.mkMixed M N p)).bind _ = none
    rw [loop_none (by rw [S.nrU]; exact hN)]
    · rfl
    · cases hx : Cost.updateMixedStep ps 0 (Cost.mkMixed M N p) with
      | none => rfl
      | some c' =>
        unfold Cost.updateMixedStep Mat.addBlock? at hx
        simp only [Option.bind_eq_bind, Option.bind_eq_some_iff] at hx
        obtain ⟨B, hB, T, hT, T2, ⟨X, _, Y, _, hT2⟩, P, _, s, _, hx⟩ := hx
        unfold Mat.block? at hB
        unfold Mat.mul? at hT
        unfold Mat.setBlock? at hT2
        simp only [Option.ite_none_right_eq_some, Option.some.injEq] at hB hT hT2
        obtain ⟨_, rfl⟩ := hB
        obtain ⟨_, rfl⟩ := hT
        obtain ⟨_, rfl⟩ := hT2
        rw [Cost.accum_none rfl hmN] at hx
        cases hx

namespace World
variable {d : Dims} {dmax : K} {E : World K → Op K → Prop} {w : World K} {g : Ghost} {env : SolveEnv K} {i j : Nat}

theorem sys_shape {ps : PreviewSystem K} {p : Nat} (h : SysRaw d (w.pss p))
    (hps : (if (w.pss p).isUpdated then some (w.pss p) else (w.pss p).updateSystem) = some ps) : SysShape d ps := by
  split at hps
  · cases hps; exact h.dims.toSysShape
  · obtain ⟨ps', e, o, _⟩ := _root_.Copra.updateSystem_raw h
    rw [hps] at e
    cases e
    exact o.dims.toSysShape

/-- **C103** (what was just constructed must not be assigned over a constraint in use): if a constraint that was just
constructed is assigned over one that the controller holds, the next solve is undefined (a trajectory bound without any
finite entry excepted: it imposes nothing). -/
theorem c103_uninitialised_constraint (h : EHist d dmax E w g) (hm : 0 < d.m) (hj : j ∈ w.ctl.spConstr)
    (hf : FreshConstr (w.cons i)) (hb : SomeBound (w.cons i)) : (w.copyConstr j i).solve env = none := by
  cases hs : (w.copyConstr j i).solve env with
  | none => rfl
  | some r =>
    obtain ⟨w', b, q⟩ := r
    obtain ⟨p, ps, hp, hps, _, hc, _⟩ := solve_inv' hs
    have S : SysShape d ps := sys_shape (w := w) (h.raw.raw p (h.raw.ctl p hp).1).1 hps
    have : w.ctl.spConstr.foldlM (updateConstr ps) (upd w.cons j (w.cons i)) = none := by
      refine heap_none (u := fun c => c.update ps) (fun m k => ?_) hj ?_
      · unfold updateConstr
        cases (m k).update ps <;> rfl
      · rw [upd_same]; exact Constr.fresh_none hf S hm hb
    rw [show (w.copyConstr j i).ctl.spConstr.foldlM (updateConstr ps) (w.copyConstr j i).cons = none from this] at hc
    cases hc

/-- **C103** (what was just constructed must not be assigned over a cost in use): likewise for a cost, target costs
excepted. -/
theorem c103_uninitialised_cost (h : EHist d dmax E w g) (hm : 0 < d.m) (hj : j ∈ w.ctl.spCost)
    (hf : FreshCost (w.costs i)) (hk : (w.costs i).kind ≠ .target) : (w.copyCost j i).solve env = none := by
  cases hs : (w.copyCost j i).solve env with
  | none => rfl
  | some r =>
    obtain ⟨w', b, q⟩ := r
    obtain ⟨p, ps, hp, hps, _, _, hc⟩ := solve_inv' hs
    have S : SysShape d ps := sys_shape (w := w) (h.raw.raw p (h.raw.ctl p hp).1).1 hps
    have : w.ctl.spCost.foldlM (updateCost ps) (upd w.costs j (w.costs i)) = none := by
      refine heap_none (u := fun c => c.update ps) (fun m k => ?_) hj ?_
      · unfold updateCost
        cases (m k).update ps <;> rfl
      · rw [upd_same]; exact Cost.fresh_none hf hk S hm
    rw [show (w.copyCost j i).ctl.spCost.foldlM (updateCost ps) (w.copyCost j i).costs = none from this] at hc
    cases hc

end World
end Copra
