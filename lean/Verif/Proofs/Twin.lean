import Verif.SpecJunk
import Verif.Proofs.Determined2

/-! # Two objects that differ only in the contents of uninitialised memory -/

namespace Copra
open Spec

set_option linter.unusedSectionVars false
set_option linter.unusedSimpArgs false

variable {K α β : Type}

/-- Related outcomes. -/
def RRel (R : α → β → Prop) : Res α → Res β → Prop
  | .ok a, .ok b => R a b
  | .thrown e a, .thrown e' b => e = e' ∧ R a b
  | .ub, .ub => True
  | _, _ => False

theorem RRel.map {R : α → α → Prop} {S : β → β → Prop} {f f' : α → β} {r r' : Res α} (h : RRel R r r')
    (hf : ∀ a b, R a b → S (f a) (f' b)) : RRel S (r.map f) (r'.map f') := by
  cases r <;> cases r' <;> simp only [RRel, Res.map] at h ⊢
  · exact hf _ _ h
  · exact ⟨h.1, hf _ _ h.2⟩

theorem RRel.andThen {R : α → α → Prop} {f f' : α → Res α} {r r' : Res α} (h : RRel R r r')
    (hf : ∀ a b, R a b → RRel R (f a) (f' b)) : RRel R (r.andThen f) (r'.andThen f') := by
  cases r <;> cases r' <;> simp only [RRel, Res.andThen] at h ⊢
  · exact hf _ _ h
  · exact h

theorem RRel.ofOption {R : α → α → Prop} {o o' : Option α} (h : (o = none ∧ o' = none) ∨ ∃ a b, o = some a ∧ o' = some b ∧ R a b) :
    RRel R (Res.ofOption o) (Res.ofOption o') := by
  rcases h with ⟨rfl, rfl⟩ | ⟨a, b, rfl, rfl, h⟩
  · trivial
  · exact h

theorem RRel.same {R : α → β → Prop} {r : Res α} {r' : Res β} (h : RRel R r r') {a : α} (e : r = .ok a) :
    ∃ b, r' = .ok b ∧ R a b := by
  subst e
  cases r' <;> simp only [RRel] at h
  exact ⟨_, rfl, h⟩

theorem RRel.same_thrown {R : α → β → Prop} {r : Res α} {r' : Res β} (h : RRel R r r') {a : α} {x : Exn} (e : r = .thrown x a) :
    ∃ b, r' = .thrown x b ∧ R a b := by
  subst e
  cases r' <;> simp only [RRel] at h
  obtain ⟨rfl, h⟩ := h
  exact ⟨_, rfl, h⟩

theorem RRel.outcome {R : α → α → Prop} {r r' : Res α} (h : RRel R r r') : SameOutcome r r' := by
  cases r <;> cases r' <;> simp only [RRel, SameOutcome] at h ⊢
  exact h.1

theorem VecEq.rfl' (v : Vec α) : VecEq v v := ⟨rfl, fun _ _ => rfl⟩
theorem MatEq.rfl' (M : Mat K) : MatEq M M := ⟨rfl, rfl, fun _ _ _ _ => rfl⟩

theorem VecEq.blocks {u v : Vec α} {n s : Nat} (hn : 0 < n) (hu : u.rows = s * n) (hv : v.rows = s * n)
    (h : ∀ k < s, ∀ i < n, u.e (k * n + i) = v.e (k * n + i)) : VecEq u v := by
  refine ⟨hu.trans hv.symm, ?_⟩
  intro i hi
  rw [hu] at hi
  have e : i = i / n * n + i % n := (Nat.div_add_mod' i n).symm
  rw [e]
  exact h _ ((Nat.div_lt_iff_lt_mul hn).2 hi) _ (Nat.mod_lt _ hn)

namespace AutoSpan

theorem spanVector_twin {j j' : Nat → α} {v v' : Vec α} (n : Nat) (h : VecEq v v') :
    RRel VecEq (spanVector j v n) (spanVector j' v' n) := by
  rcases Nat.eq_zero_or_pos v.rows with h0 | h0
  · have h0' : v'.rows = 0 := by rw [← h.1]; exact h0
    by_cases hn : n = 0
    · rw [hn]
      nth_rw 1 [← h0]; nth_rw 1 [← h0']
      rw [spanVector_id, spanVector_id]; exact h
    · rw [spanVector_ub j v h0 hn, spanVector_ub j' v' h0' hn]; trivial
  · have h0' : 0 < v'.rows := by rw [← h.1]; exact h0
    by_cases hd : v.rows ∣ n
    · obtain ⟨s, rfl⟩ := hd
      rw [Nat.mul_comm]
      obtain ⟨r, e, r1, r2⟩ := spanVector_rep j v (s := s) h0
      obtain ⟨r', e', r1', r2'⟩ := spanVector_rep j' v' (s := s) h0'
      rw [e, h.1, e']
      refine VecEq.blocks h0 r1 (by rw [r1', h.1]) ?_
      intro k hk i hi
      rw [r2 k hk i hi, h.2 i hi, h.1, r2' k hk i (by rw [← h.1]; exact hi)]
    · rw [spanVector_throw j v h0 hd, spanVector_throw j' v' h0' (by rw [← h.1]; exact hd)]
      exact ⟨rfl, h⟩

theorem spanMatrix_twin [Field K] {M M' : Mat K} (n a : Nat) (h : MatEq M M') :
    RRel MatEq (spanMatrix M n a) (spanMatrix M' n a) := by
  by_cases hid : n = M.rows
  · subst hid
    rw [spanMatrix_id, h.1, spanMatrix_id]; exact h
  rcases Nat.eq_zero_or_pos M.rows with h0 | h0
  · have h0' : M'.rows = 0 := by rw [← h.1]; exact h0
    rw [spanMatrix_ub M a h0 (by omega), spanMatrix_ub M' a h0' (by omega)]; trivial
  · have h0' : 0 < M'.rows := by rw [← h.1]; exact h0
    by_cases hd : M.rows ∣ n
    · obtain ⟨s, rfl⟩ := hd
      have hs : s ≠ 1 := by rintro rfl; exact hid (Nat.mul_one _)
      rw [Nat.mul_comm]
      obtain ⟨r, e, r1, r2, r3⟩ := spanMatrix_rep M a (s := s) h0 hs
      obtain ⟨r', e', r1', r2', r3'⟩ := spanMatrix_rep M' a (s := s) h0' hs
      rw [e, h.1, e']
      refine ⟨by rw [r1, r1', h.1], by rw [r2, r2', h.2.1], ?_⟩
      intro i hi j hj
      rw [r1] at hi; rw [r2] at hj
      have hc : 0 < M.cols := pos_of_lt_mul hj
      have ei : i = i / M.rows * M.rows + i % M.rows := (Nat.div_add_mod' i _).symm
      have ej : j = j / M.cols * M.cols + j % M.cols := (Nat.div_add_mod' j _).symm
      have k1 := (Nat.div_lt_iff_lt_mul h0).2 hi
      have k2 := (Nat.div_lt_iff_lt_mul hc).2 (by rw [Nat.mul_comm]; exact hj)
      have m1 := Nat.mod_lt i h0
      have m2 := Nat.mod_lt j hc
      rw [ei, ej, r3 _ k1 _ m1 _ k2 _ m2, h.2.2 _ m1 _ m2]
      rw [h.1] at m1 ⊢; rw [h.2.1] at m2 ⊢
      rw [h.1] at k1; rw [h.2.1] at k2
      rw [r3' _ k1 _ m1 _ k2 _ m2]
    · rw [spanMatrix_throw M a h0 hd, spanMatrix_throw M' a h0' (by rw [← h.1]; exact hd)]
      exact ⟨rfl, h⟩

end AutoSpan

variable [Field K]

/-! ## Constraints -/

namespace Constr

/-- The same constraint up to uninitialised memory. -/
structure Twin (c c' : Constr K) : Prop where
  kind : c'.kind = c.kind
  isIneq : c'.isIneq = c.isIneq
  nr : c'.nrConstr = c.nrConstr
  full : c'.fullSizeEntry = c.fullSizeEntry
  hbi : c'.hasBeenInitialized = c.hasBeenInitialized
  E : MatEq c.E c'.E
  G : MatEq c.G c'.G
  f : VecEq c.f c'.f
  lower : VecEq c.lower c'.lower
  upper : VecEq c.upper c'.upper
  lowerLines : c'.lowerLines = c.lowerLines
  upperLines : c'.upperLines = c.upperLines
  A : c.kind = .control → c.hasBeenInitialized = false ∨ c.fullSizeEntry = true → MatEq c.A c'.A ∧ VecEq c.b c'.b
  lb : c.kind = .ctrlBound → c.hasBeenInitialized = false ∨ c.fullSizeEntry = true → VecEq c.lb c'.lb ∧ VecEq c.ub c'.ub

theorem Twin.refl (c : Constr K) : Twin c c :=
  ⟨rfl, rfl, rfl, rfl, rfl, (MatEq.rfl' _), (MatEq.rfl' _), (VecEq.rfl' _), (VecEq.rfl' _), (VecEq.rfl' _), rfl, rfl,
    fun _ _ => ⟨(MatEq.rfl' _), (VecEq.rfl' _)⟩, fun _ _ => ⟨(VecEq.rfl' _), (VecEq.rfl' _)⟩⟩

theorem Twin.type {c c' : Constr K} (h : Twin c c') : c'.constraintType = c.constraintType := by
  unfold constraintType; rw [h.kind, h.isIneq]

theorem Twin.eqv {c c' : Constr K} (h : Twin c c') : c.userData.Eqv c'.userData := by
  unfold userData
  rw [h.kind, h.isIneq, h.full]
  cases hk : c.kind
  · exact ⟨rfl, h.E, h.f⟩
  · simp only
    split
    · next hf => exact ⟨rfl, h.A hk (Or.inr hf)⟩
    · exact ⟨rfl, h.G, h.f⟩
  · exact ⟨rfl, h.E, h.G, h.f⟩
  · exact ⟨h.lower, h.upper⟩
  · simp only
    split
    · next hf => exact h.lb hk (Or.inr hf)
    · exact ⟨h.lower, h.upper⟩

theorem Twin.det {d : Dims} {c c' : Constr K} (h : Twin c c') (r : Reg d c) (r' : Reg d c') : Det d c c' :=
  determined_of_lines r r' (fun _ _ _ _ => ⟨h.lowerLines.symm, h.upperLines.symm⟩) h.eqv

theorem Twin.frame {d : Dims} {c c' c1 c1' : Constr K} (h : Twin c c') (r : Reg d c) (f : Frame c c1) (f' : Frame c' c1') :
    Twin c1 c1' where
  kind := by rw [f'.kind, f.kind, h.kind]
  isIneq := by rw [f'.isIneq, f.isIneq, h.isIneq]
  nr := by rw [f'.nr, f.nr, h.nr]
  full := by rw [f'.full, f.full, h.full]
  hbi := by rw [f'.hbi, f.hbi, h.hbi]
  E := by rw [f'.E, f.E]; exact h.E
  G := by rw [f'.G, f.G]; exact h.G
  f := by rw [f'.f, f.f]; exact h.f
  lower := by rw [f'.lower, f.lower]; exact h.lower
  upper := by rw [f'.upper, f.upper]; exact h.upper
  lowerLines := by rw [f'.lowerLines, f.lowerLines]; exact h.lowerLines
  upperLines := by rw [f'.upperLines, f.upperLines]; exact h.upperLines
  A := by
    rw [f.kind, f.hbi, f.full]
    intro hk ho
    have hi : c.hasBeenInitialized = true := by unfold Reg at r; rw [hk] at r; exact r.init
    have hf : c.fullSizeEntry = true := by rcases ho with ho | ho; · rw [ho] at hi; cases hi
                                           · exact ho
    have a := f.movedC hf hk
    have a' := f'.movedC (by rw [h.full]; exact hf) (by rw [h.kind]; exact hk)
    rw [a.1, a.2, a'.1, a'.2]; exact h.A hk (Or.inr hf)
  lb := by
    rw [f.kind, f.hbi, f.full]
    intro hk ho
    have hi : c.hasBeenInitialized = true := by unfold Reg at r; rw [hk] at r; exact r.init
    have hf : c.fullSizeEntry = true := by rcases ho with ho | ho; · rw [ho] at hi; cases hi
                                           · exact ho
    have a := f.movedB hf hk
    have a' := f'.movedB (by rw [h.full]; exact hf) (by rw [h.kind]; exact hk)
    rw [a.1, a.2, a'.1, a'.2]; exact h.lb hk (Or.inr hf)

/-! ### autoSpan -/

theorem Twin.setE {c c' : Constr K} (h : Twin c c') {M M' : Mat K} (e : MatEq M M') : Twin { c with E := M } { c' with E := M' } :=
  ⟨h.kind, h.isIneq, h.nr, h.full, h.hbi, e, h.G, h.f, h.lower, h.upper, h.lowerLines, h.upperLines, h.A, h.lb⟩
theorem Twin.setG {c c' : Constr K} (h : Twin c c') {M M' : Mat K} (e : MatEq M M') : Twin { c with G := M } { c' with G := M' } :=
  ⟨h.kind, h.isIneq, h.nr, h.full, h.hbi, h.E, e, h.f, h.lower, h.upper, h.lowerLines, h.upperLines, h.A, h.lb⟩
theorem Twin.setf {c c' : Constr K} (h : Twin c c') {v v' : Vec (Ext K)} (e : VecEq v v') : Twin { c with f := v } { c' with f := v' } :=
  ⟨h.kind, h.isIneq, h.nr, h.full, h.hbi, h.E, h.G, e, h.lower, h.upper, h.lowerLines, h.upperLines, h.A, h.lb⟩
theorem Twin.setL {c c' : Constr K} (h : Twin c c') {v v' : Vec (Ext K)} (e : VecEq v v') :
    Twin { c with lower := v } { c' with lower := v' } :=
  ⟨h.kind, h.isIneq, h.nr, h.full, h.hbi, h.E, h.G, h.f, e, h.upper, h.lowerLines, h.upperLines, h.A, h.lb⟩
theorem Twin.setU {c c' : Constr K} (h : Twin c c') {v v' : Vec (Ext K)} (e : VecEq v v') :
    Twin { c with upper := v } { c' with upper := v' } :=
  ⟨h.kind, h.isIneq, h.nr, h.full, h.hbi, h.E, h.G, h.f, h.lower, e, h.lowerLines, h.upperLines, h.A, h.lb⟩

theorem Twin.autoSpan {c c' : Constr K} (h : Twin c c') (j j' : Junk K) : RRel Twin (c.autoSpan j) (c'.autoSpan j') := by
  unfold Constr.autoSpan
  rw [h.kind]
  cases c.kind
  · unfold autoSpanTrajectory
    simp only [← h.E.1, ← h.f.1]
    refine RRel.andThen ((AutoSpan.spanMatrix_twin _ _ h.E).map fun a b e => h.setE e) fun a b t => ?_
    exact (AutoSpan.spanVector_twin _ t.f).map fun a b e => t.setf e
  · unfold autoSpanControl
    simp only [← h.G.1, ← h.f.1]
    refine RRel.andThen ((AutoSpan.spanMatrix_twin _ _ h.G).map fun a b e => h.setG e) fun a b t => ?_
    exact (AutoSpan.spanVector_twin _ t.f).map fun a b e => t.setf e
  · unfold autoSpanMixed
    simp only [← h.E.1, ← h.G.1, ← h.f.1]
    refine RRel.andThen ((AutoSpan.spanMatrix_twin _ _ h.E).map fun a b e => h.setE e) fun a b t => ?_
    refine RRel.andThen ((AutoSpan.spanMatrix_twin _ _ t.G).map fun a b e => t.setG e) fun a b t => ?_
    exact (AutoSpan.spanVector_twin _ t.f).map fun a b e => t.setf e
  · unfold autoSpanTrajBound
    simp only [← h.lower.1, ← h.upper.1]
    refine RRel.andThen ((AutoSpan.spanVector_twin _ h.lower).map fun a b e => h.setL e) fun a b t => ?_
    refine RRel.andThen ((AutoSpan.spanVector_twin _ t.upper).map fun a b e => t.setU e) fun a b t => ?_
    have t1 : ∀ n, Twin (if a.lower.rows ≠ n then { a with lowerLines := finiteLines Ext.isNinf a.lower } else a)
        (if b.lower.rows ≠ n then { b with lowerLines := finiteLines Ext.isNinf b.lower } else b) := by
      intro n
      rw [← t.lower.1]
      split
      · exact ⟨t.kind, t.isIneq, t.nr, t.full, t.hbi, t.E, t.G, t.f, t.lower, t.upper, (finiteLines_congr t.lower).symm,
          t.upperLines, t.A, t.lb⟩
      · exact t
    have t2 : ∀ n {a b : Constr K}, Twin a b → Twin (if a.upper.rows ≠ n then { a with upperLines := finiteLines Ext.isPinf a.upper } else a)
        (if b.upper.rows ≠ n then { b with upperLines := finiteLines Ext.isPinf b.upper } else b) := by
      intro n a b t
      rw [← t.upper.1]
      split
      · exact ⟨t.kind, t.isIneq, t.nr, t.full, t.hbi, t.E, t.G, t.f, t.lower, t.upper, t.lowerLines,
          (finiteLines_congr t.upper).symm, t.A, t.lb⟩
      · exact t
    exact t2 _ (t1 _)
  · unfold autoSpanCtrlBound
    simp only [← h.lower.1, ← h.upper.1]
    refine RRel.andThen ((AutoSpan.spanVector_twin _ h.lower).map fun a b e => h.setL e) fun a b t => ?_
    exact (AutoSpan.spanVector_twin _ t.upper).map fun a b e => t.setU e

/-! ### initializeConstraint -/

theorem Twin.alloc {c c' : Constr K} (h : Twin c c') (hk : c.kind ≠ .control) (j j' : Junk K) (ps : PreviewSystem K) (n : Nat) :
    (c.allocRows j ps n = none ∧ c'.allocRows j' ps n = none) ∨
    ∃ a b, c.allocRows j ps n = some a ∧ c'.allocRows j' ps n = some b ∧ Twin a b ∧ a.kind = c.kind := by
  unfold allocRows
  by_cases hn : n ≤ intMax
  · rw [chkInt_some hn]
    refine Or.inr ⟨_, _, rfl, rfl, ?_, rfl⟩
    exact ⟨h.kind, h.isIneq, rfl, h.full, h.hbi, h.E, h.G, h.f, h.lower, h.upper, h.lowerLines, h.upperLines,
      fun hk' => absurd hk' hk, h.lb⟩
  · rw [chkInt_none hn]; exact Or.inl ⟨rfl, rfl⟩

theorem Twin.setFull {c c' : Constr K} (h : Twin c c') (hk : ¬ Once c) :
    Twin { c with fullSizeEntry := true } { c' with fullSizeEntry := true } :=
  ⟨h.kind, h.isIneq, h.nr, rfl, h.hbi, h.E, h.G, h.f, h.lower, h.upper, h.lowerLines, h.upperLines,
    fun hk' => absurd (Or.inl hk') hk, fun hk' => absurd (Or.inr hk') hk⟩

theorem Twin.init {c c' : Constr K} (h : Twin c c') (hu : Once c → c.hasBeenInitialized = false → c.fullSizeEntry = false) (j j' : Junk K) (ps : PreviewSystem K) :
    RRel Twin (c.initializeConstraint j ps) (c'.initializeConstraint j' ps) := by
  unfold initializeConstraint
  rw [h.kind]
  cases hk : c.kind <;> simp only
  · unfold initTrajectory
    rw [← h.E.1, ← h.f.1, ← h.E.2.1]
    have ho : ¬ Once c := by unfold Once; rw [hk]; simp
    split
    · exact ⟨rfl, h⟩
    split
    · refine RRel.ofOption ?_
      rcases h.alloc (by rw [hk]; simp) j j' ps (c.E.rows * ps.nrXStep) with e | ⟨a, b, e, e', t, _⟩
      · exact Or.inl e
      · exact Or.inr ⟨a, b, e, e', t⟩
    split
    · refine RRel.ofOption ?_
      rcases (h.setFull ho).alloc (by show c.kind ≠ _; rw [hk]; simp) j j' ps c.E.rows with e | ⟨a, b, e, e', t, _⟩
      · exact Or.inl e
      · exact Or.inr ⟨a, b, e, e', t⟩
    · exact ⟨rfl, h⟩
  · unfold initControl
    rw [h.hbi, ← h.G.1, ← h.f.1, ← h.G.2.1]
    split
    · exact ⟨rfl, h⟩
    next hb =>
    have hb : c.hasBeenInitialized = false := by simpa using hb
    obtain ⟨hA, hB⟩ := h.A hk (Or.inl hb)
    split
    · exact ⟨rfl, h⟩
    split
    · by_cases hn : c.G.rows * ps.nrUStep ≤ intMax
      · rw [chkInt_some hn]
        show Twin _ _
        refine ⟨h.kind, h.isIneq, rfl, h.full, rfl, h.E, h.G, h.f, h.lower, h.upper, h.lowerLines, h.upperLines,
          ?_, fun hk' => by rw [hk] at hk'; cases hk'⟩
        intro _ ho
        rcases ho with ho | ho
        · cases ho
        · have ho : c.fullSizeEntry = true := ho
          rw [hu (Or.inl hk) hb] at ho; cases ho
      · rw [chkInt_none hn]; trivial
    split
    · by_cases hn : c.G.rows ≤ intMax
      · rw [chkInt_some hn]
        show Twin _ _
        exact ⟨h.kind, h.isIneq, rfl, rfl, rfl, h.E, hA, hB, h.lower, h.upper, h.lowerLines, h.upperLines,
          fun _ _ => ⟨h.G, h.f⟩, fun hk' => by rw [hk] at hk'; cases hk'⟩
      · rw [chkInt_none hn]; trivial
    · exact ⟨rfl, h⟩
  · unfold initMixed
    rw [← h.E.1, ← h.f.1, ← h.E.2.1, ← h.G.1, ← h.G.2.1]
    have ho : ¬ Once c := by unfold Once; rw [hk]; simp
    have z : ∀ {a b : Constr K}, Twin a b → a.kind = c.kind →
        Twin { a with A := Mat.zero a.nrConstr ps.fullUDim, Y := Mat.zero a.nrConstr ps.xDim }
          { b with A := Mat.zero b.nrConstr ps.fullUDim, Y := Mat.zero b.nrConstr ps.xDim } := fun {a b} t e =>
      ⟨t.kind, t.isIneq, t.nr, t.full, t.hbi, t.E, t.G, t.f, t.lower, t.upper, t.lowerLines, t.upperLines,
        fun hk' => (by rw [show a.kind = _ from e, hk] at hk'; cases hk'), t.lb⟩
    split
    · exact ⟨rfl, h⟩
    split
    · exact ⟨rfl, h⟩
    split
    · refine RRel.ofOption ?_
      rcases h.alloc (by rw [hk]; simp) j j' ps (c.E.rows * ps.nrUStep) with ⟨e, e'⟩ | ⟨a, b, e, e', t, k⟩
      · rw [e, e']; exact Or.inl ⟨rfl, rfl⟩
      · rw [e, e']; exact Or.inr ⟨_, _, rfl, rfl, z t k⟩
    split
    · refine RRel.ofOption ?_
      rcases (h.setFull ho).alloc (by show c.kind ≠ _; rw [hk]; simp) j j' ps c.E.rows with ⟨e, e'⟩ | ⟨a, b, e, e', t, k⟩
      · rw [e, e']; exact Or.inl ⟨rfl, rfl⟩
      · rw [e, e']; exact Or.inr ⟨_, _, rfl, rfl, z t k⟩
    · exact ⟨rfl, h⟩
  · unfold initTrajBound
    rw [← h.lower.1, ← h.upper.1]
    have hl : c'.lowerLines.length + c'.upperLines.length = c.lowerLines.length + c.upperLines.length := by
      rw [h.lowerLines, h.upperLines]
    simp only [hl]
    have ho : ¬ Once c := by unfold Once; rw [hk]; simp
    split
    · exact ⟨rfl, h⟩
    split
    · refine RRel.ofOption ?_
      rcases h.alloc (by rw [hk]; simp) j j' ps _ with e | ⟨a, b, e, e', t, _⟩
      · exact Or.inl e
      · exact Or.inr ⟨a, b, e, e', t⟩
    split
    · refine RRel.ofOption ?_
      rcases (h.setFull ho).alloc (by show c.kind ≠ _; rw [hk]; simp) j j' ps _ with e | ⟨a, b, e, e', t, _⟩
      · exact Or.inl e
      · exact Or.inr ⟨a, b, e, e', t⟩
    · exact ⟨rfl, h⟩
  · unfold initCtrlBound
    rw [h.hbi, ← h.lower.1, ← h.upper.1]
    split
    · exact ⟨rfl, h⟩
    next hb =>
    have hb : c.hasBeenInitialized = false := by simpa using hb
    obtain ⟨hA, hB⟩ := h.lb hk (Or.inl hb)
    split
    · exact ⟨rfl, h⟩
    split
    · show Twin _ _
      refine ⟨h.kind, h.isIneq, rfl, h.full, rfl, h.E, h.G, h.f, h.lower, h.upper, h.lowerLines, h.upperLines,
        fun hk' => (by rw [hk] at hk'; cases hk'), ?_⟩
      intro _ ho
      rcases ho with ho | ho
      · cases ho
      · have ho : c.fullSizeEntry = true := ho
        rw [hu (Or.inr hk) hb] at ho; cases ho
    split
    · by_cases hn : c.lower.rows ≤ intMax
      · rw [chkInt_some hn]
        show Twin _ _
        exact ⟨h.kind, h.isIneq, rfl, rfl, rfl, h.E, h.G, h.f, hA, hB, h.lowerLines, h.upperLines,
          fun hk' => (by rw [hk] at hk'; cases hk'), fun _ _ => ⟨h.lower, h.upper⟩⟩
      · rw [chkInt_none hn]; trivial
    · exact ⟨rfl, h⟩

end Constr

/-! ## Costs -/

namespace Cost

/-- The same declared cost. -/
structure Twin (c c' : Cost K) : Prop where
  kind : c'.kind = c.kind
  full : c'.fullSizeEntry = c.fullSizeEntry
  M : MatEq c.M c'.M
  N : MatEq c.N c'.N
  p : VecEq c.p c'.p
  weights : VecEq c.weights c'.weights

theorem Twin.refl (c : Cost K) : Twin c c :=
  ⟨rfl, rfl, (MatEq.rfl' _), (MatEq.rfl' _), (VecEq.rfl' _), (VecEq.rfl' _)⟩

theorem Twin.eqv {c c' : Cost K} (h : Twin c c') : c.userData.Eqv c'.userData := by
  unfold userData
  rw [h.kind]
  cases hk : c.kind
  · exact ⟨h.M, h.p, h.weights⟩
  · exact ⟨h.M, h.p, h.weights⟩
  · exact ⟨h.N, h.p, h.weights⟩
  · exact ⟨h.M, h.N, h.p, h.weights⟩

theorem Twin.same {c c' c1 c1' : Cost K} (h : Twin c c') (s : Same c c1) (s' : Same c' c1') : Twin c1 c1' :=
  ⟨by rw [s'.kind, s.kind, h.kind], by rw [s'.full, s.full, h.full], by rw [s'.M, s.M]; exact h.M,
    by rw [s'.N, s.N]; exact h.N, by rw [s'.p, s.p]; exact h.p, by rw [s'.weights, s.weights]; exact h.weights⟩

theorem Twin.acc {c c' : Cost K} (h : Twin c c') : Accumulates c' ↔ Accumulates c := by
  unfold Accumulates; rw [h.kind, h.full]

theorem Twin.setM {c c' : Cost K} (h : Twin c c') {M M' : Mat K} (e : MatEq M M') : Twin { c with M := M } { c' with M := M' } :=
  ⟨h.kind, h.full, e, h.N, h.p, h.weights⟩
theorem Twin.setN {c c' : Cost K} (h : Twin c c') {M M' : Mat K} (e : MatEq M M') : Twin { c with N := M } { c' with N := M' } :=
  ⟨h.kind, h.full, h.M, e, h.p, h.weights⟩
theorem Twin.setp {c c' : Cost K} (h : Twin c c') {v v' : Vec K} (e : VecEq v v') : Twin { c with p := v } { c' with p := v' } :=
  ⟨h.kind, h.full, h.M, h.N, e, h.weights⟩
theorem Twin.setW {c c' : Cost K} (h : Twin c c') {v v' : Vec K} (e : VecEq v v') :
    Twin { c with weights := v } { c' with weights := v' } :=
  ⟨h.kind, h.full, h.M, h.N, h.p, e⟩

theorem Twin.autoSpan {c c' : Cost K} (h : Twin c c') (j j' : Junk K) : RRel Twin (c.autoSpan j) (c'.autoSpan j') := by
  unfold Cost.autoSpan
  rw [h.kind]
  cases c.kind
  · unfold autoSpanTrajectory
    simp only [← h.M.1, ← h.p.1, ← h.weights.1]
    refine RRel.andThen ((AutoSpan.spanMatrix_twin _ _ h.M).map fun a b e => h.setM e) fun a b t => ?_
    refine RRel.andThen ((AutoSpan.spanVector_twin _ t.p).map fun a b e => t.setp e) fun a b t => ?_
    exact (AutoSpan.spanVector_twin _ t.weights).map fun a b e => t.setW e
  · exact h
  · unfold autoSpanControl
    simp only [← h.N.1, ← h.p.1, ← h.weights.1]
    refine RRel.andThen ((AutoSpan.spanMatrix_twin _ _ h.N).map fun a b e => h.setN e) fun a b t => ?_
    refine RRel.andThen ((AutoSpan.spanVector_twin _ t.p).map fun a b e => t.setp e) fun a b t => ?_
    exact (AutoSpan.spanVector_twin _ t.weights).map fun a b e => t.setW e
  · unfold autoSpanMixed
    simp only [← h.M.1, ← h.N.1, ← h.p.1, ← h.weights.1]
    refine RRel.andThen ((AutoSpan.spanMatrix_twin _ _ h.M).map fun a b e => h.setM e) fun a b t => ?_
    refine RRel.andThen ((AutoSpan.spanMatrix_twin _ _ t.N).map fun a b e => t.setN e) fun a b t => ?_
    refine RRel.andThen ((AutoSpan.spanVector_twin _ t.p).map fun a b e => t.setp e) fun a b t => ?_
    exact (AutoSpan.spanVector_twin _ t.weights).map fun a b e => t.setW e

theorem Twin.alloc {c c' : Cost K} (h : Twin c c') (j j' : Junk K) (ps : PreviewSystem K) :
    Twin (c.allocBase j ps) (c'.allocBase j' ps) := ⟨h.kind, h.full, h.M, h.N, h.p, h.weights⟩

theorem Twin.init {c c' : Cost K} (h : Twin c c') (j j' : Junk K) (ps : PreviewSystem K) :
    RRel Twin (c.initializeCost j ps) (c'.initializeCost j' ps) := by
  have a := h.alloc j j' ps
  have z : Twin (c.allocBase j ps).zeroAll (c'.allocBase j' ps).zeroAll := ⟨h.kind, h.full, h.M, h.N, h.p, h.weights⟩
  have f : Twin { c.allocBase j ps with fullSizeEntry := true } { c'.allocBase j' ps with fullSizeEntry := true } :=
    ⟨h.kind, rfl, h.M, h.N, h.p, h.weights⟩
  unfold initializeCost
  rw [h.kind]
  cases hk : c.kind <;> simp only
  · unfold initTrajectory
    simp only [← a.M.1, ← a.M.2.1, ← a.p.1]
    split
    · exact ⟨rfl, a⟩
    split
    · exact z
    split
    · exact f
    · exact ⟨rfl, a⟩
  · unfold initTarget
    simp only [← a.M.1, ← a.M.2.1, ← a.p.1]
    split
    · exact ⟨rfl, a⟩
    split
    · exact ⟨rfl, a⟩
    · exact a
  · unfold initControl
    simp only [← a.N.1, ← a.N.2.1, ← a.p.1]
    split
    · exact ⟨rfl, a⟩
    split
    · exact ⟨a.kind, a.full, a.M, a.N, a.p, a.weights⟩
    split
    · exact f
    · exact ⟨rfl, a⟩
  · unfold initMixed
    simp only [← a.M.1, ← a.M.2.1, ← a.p.1, ← a.N.1, ← a.N.2.1]
    split
    · exact ⟨rfl, a⟩
    split
    · exact ⟨rfl, a⟩
    split
    · exact z
    split
    · exact f
    · exact ⟨rfl, a⟩

/-- `weights(w)` on twins; the results are not touched. -/
theorem Twin.setWeights {d : Dims} {c c' : Cost K} (h : Twin c c') (w : Vec K) :
    RRel (fun a b => Twin a b ∧ (ResEq d c c' → ResEq d a b)) (c.setWeights w) (c'.setWeights w) := by
  obtain ⟨h1, h2, h3, h4⟩ := setWeights_cases c w
  obtain ⟨g1, g2, g3, g4⟩ := setWeights_cases c' w
  have hr := h.weights.1
  have res : ∀ v v' : Vec K, ResEq d c c' → ResEq d { c with weights := v } { c' with weights := v' } :=
    fun v v' e => ⟨e.Q, e.E, e.f, e.c⟩
  by_cases a : w.rows = c.weights.rows
  · rw [h1 a, g1 (by rw [← hr]; exact a)]
    exact ⟨h.setW (VecEq.rfl' _), res _ _⟩
  rcases Nat.eq_zero_or_pos w.rows with h0 | h0
  · rw [h3 h0 (by omega), g3 h0 (by omega)]; trivial
  by_cases hd : w.rows ∣ c.weights.rows
  · obtain ⟨s, hs⟩ := hd
    rw [Nat.mul_comm] at hs
    obtain ⟨v, e, v1, v2⟩ := h2 s h0 hs
    obtain ⟨v', e', v1', v2'⟩ := g2 s h0 (by rw [← hr]; exact hs)
    rw [e, e']
    refine ⟨h.setW (VecEq.blocks h0 (v1.trans hs) (v1'.trans (by rw [← hr]; exact hs)) ?_), res _ _⟩
    intro k hk i hi
    rw [v2 k hk i hi, v2' k hk i hi]
  · rw [h4 h0 hd, g4 h0 (by rw [← hr]; exact hd)]
    exact ⟨rfl, h, id⟩

theorem Twin.setWeight {c c' : Cost K} (h : Twin c c') (x : K) : Twin (c.setWeight x) (c'.setWeight x) := by
  unfold Cost.setWeight
  rw [← h.weights.1]
  exact h.setW (VecEq.rfl' _)

theorem Clean.resEq {d : Dims} {c c' : Cost K} (h : Clean d c) (h' : Clean d c') (a : Accumulates c) (a' : Accumulates c') :
    ResEq d c c' := by
  obtain ⟨q, e, f, l⟩ := h a
  obtain ⟨q', e', f', l'⟩ := h' a'
  exact ⟨fun x hx y hy => by rw [q x hx y hy, q' x hx y hy], fun x hx y hy => by rw [e x hx y hy, e' x hx y hy],
    fun x hx => by rw [f x hx, f' x hx], fun x hx => by rw [l x hx, l' x hx]⟩

/-- Twin costs stay twins in an update, and their results agree afterwards. -/
theorem Updated.resEq {d : Dims} {ps : PreviewSystem K} {c c' c1 c1' : Cost K} (t : Twin c c') (D : Det d c c')
    (hr : Accumulates c → ResEq d c c') (u : Updated d ps c c1) (u' : Updated d ps c' c1') : ResEq d c1 c1' := by
  have s : SysEq d ps ps := ⟨fun _ _ _ _ => rfl, fun _ _ _ _ => rfl, fun _ _ => rfl, fun _ _ => rfl⟩
  have hE : ∀ a < d.n, ∀ b < d.m * d.N, c1.E.e a b = c1'.E.e a b := by
    intro a ha b hb
    rw [u.E a ha b hb, u'.E a ha b hb, D.termE s ha hb]
    by_cases h : Accumulates c
    · rw [if_pos h, if_pos (t.acc.2 h), (hr h).E a ha b hb]
    · rw [if_neg h, if_neg (fun x => h (t.acc.1 x))]
  have hf : ∀ b < d.m * d.N, c1.f.e b = c1'.f.e b := by
    intro b hb
    rw [u.f b hb, u'.f b hb, D.termF s hb]
    by_cases h : Accumulates c
    · rw [if_pos h, if_pos (t.acc.2 h), (hr h).f b hb]
    · rw [if_neg h, if_neg (fun x => h (t.acc.1 x))]
  refine ⟨?_, hE, hf, ?_⟩
  · intro a ha b hb
    rw [u.Q a ha b hb, u'.Q a ha b hb, D.termQ s ha hb]
    by_cases h : Accumulates c
    · rw [if_pos h, if_pos (t.acc.2 h), (hr h).Q a ha b hb]
    · rw [if_neg h, if_neg (fun x => h (t.acc.1 x))]
  · intro b hb
    rw [u.c b hb, u'.c b hb, hf b hb]
    congr 1
    · by_cases h : Accumulates c ∧ c.kind = .mixed
      · rw [if_pos h, if_pos ⟨t.acc.2 h.1, by rw [t.kind]; exact h.2⟩, (hr h.1).c b hb]
      · rw [if_neg h, if_neg (fun x => h ⟨t.acc.1 x.1, by rw [← t.kind]; exact x.2⟩)]
    · congr 1
      apply Finset.sum_congr rfl; intro a ha
      rw [hE a (Finset.mem_range.1 ha) b hb]

end Cost

namespace World

/-- Updating twin costs, one after the other (repetitions allowed). -/
theorem updateCosts_twin {d : Dims} {ps : PreviewSystem K} (S : SysShape d ps) (hx : ps.x0.rows = d.n) :
    ∀ (L : List Nat) {costs costs' r r' : Nat → Cost K}, (∀ i ∈ L, Cost.Pre d (costs i)) → (∀ i ∈ L, Cost.Pre d (costs' i)) →
      (∀ i, Cost.Twin (costs i) (costs' i)) → (∀ i ∈ L, Cost.Accumulates (costs i) → Cost.ResEq d (costs i) (costs' i)) →
      L.foldlM (updateCost ps) costs = some r → L.foldlM (updateCost ps) costs' = some r' →
      (∀ i, Cost.Twin (r i) (r' i)) ∧ (∀ i ∈ L, Cost.ResEq d (r i) (r' i)) ∧
      (∀ i ∉ L, r i = costs i ∧ r' i = costs' i) ∧
      (∀ i, Cost.ResEq d (costs i) (costs' i) → (i ∈ L → Cost.Pre d (costs i)) → Cost.ResEq d (r i) (r' i)) := by
  intro L
  induction L with
  | nil =>
    intro costs costs' r r' _ _ t _ h h'
    simp only [List.foldlM_nil, Option.pure_def, Option.some.injEq] at h h'
    subst h; subst h'
    exact ⟨t, fun i hi => absurd hi List.not_mem_nil, fun i _ => ⟨rfl, rfl⟩, fun i h _ => h⟩
  | cons a L ih =>
    intro costs costs' r r' g g' t hr h h'
    simp only [List.foldlM_cons, updateCost, Option.bind_eq_bind, Option.bind_eq_some_iff, Option.pure_def,
      Option.some.injEq] at h h'
    obtain ⟨_, ⟨c1, hc, rfl⟩, h⟩ := h
    obtain ⟨_, ⟨c1', hc', rfl⟩, h'⟩ := h'
    obtain ⟨c2, e, R, U⟩ := Cost.update_ok (g a List.mem_cons_self) S hx
    rw [hc] at e; cases e
    obtain ⟨c2, e, R', U'⟩ := Cost.update_ok (g' a List.mem_cons_self) S hx
    rw [hc'] at e; cases e
    have D := Cost.determined (g a List.mem_cons_self) (g' a List.mem_cons_self) (t a).eqv
    have E := Cost.Updated.resEq (t a) D (hr a List.mem_cons_self) U U'
    have t1 : ∀ i, Cost.Twin (upd costs a c1 i) (upd costs' a c1' i) := by
      intro i
      by_cases hi : i = a
      · subst hi; rw [upd_same, upd_same]; exact (t i).same U.same U'.same
      · rw [upd_ne _ _ hi, upd_ne _ _ hi]; exact t i
    have k := ih (costs := upd costs a c1) (costs' := upd costs' a c1') (r := r) (r' := r') ?_ ?_ t1 ?_ h h'
    · obtain ⟨k1, k2, k3, k4⟩ := k
      have ha : Cost.ResEq d (r a) (r' a) := by
        by_cases hL : a ∈ L
        · exact k2 a hL
        · obtain ⟨x, y⟩ := k3 a hL
          rw [x, y, upd_same, upd_same]; exact E
      refine ⟨k1, ?_, ?_, ?_⟩
      · intro i hi
        rcases List.mem_cons.1 hi with rfl | hi
        · exact ha
        · exact k2 i hi
      · intro i hi
        have hne : i ≠ a := fun h => hi (by rw [h]; exact List.mem_cons_self)
        obtain ⟨x, y⟩ := k3 i fun h => hi (List.mem_cons_of_mem _ h)
        rw [x, y, upd_ne _ _ hne, upd_ne _ _ hne]; exact ⟨rfl, rfl⟩
      · intro i h1 h2
        by_cases hi : i ∈ a :: L
        · rcases List.mem_cons.1 hi with rfl | hi
          · exact ha
          · exact k2 i hi
        · have hne : i ≠ a := fun h => hi (by rw [h]; exact List.mem_cons_self)
          obtain ⟨x, y⟩ := k3 i fun h => hi (List.mem_cons_of_mem _ h)
          rw [x, y, upd_ne _ _ hne, upd_ne _ _ hne]; exact h1
    · intro i hi
      by_cases he : i = a
      · subst he; rw [upd_same]; exact R.pre
      · rw [upd_ne _ _ he]; exact g i (List.mem_cons_of_mem _ hi)
    · intro i hi
      by_cases he : i = a
      · subst he; rw [upd_same]; exact R'.pre
      · rw [upd_ne _ _ he]; exact g' i (List.mem_cons_of_mem _ hi)
    · intro i hi
      by_cases he : i = a
      · subst he; rw [upd_same, upd_same]; exact fun _ => E
      · rw [upd_ne _ _ he, upd_ne _ _ he]; exact hr i (List.mem_cons_of_mem _ hi)

end World
end Copra
