import Verif.SpecSafe
import Verif.Props.Lifetime
import Verif.Props.AutoSpan

/-! # No call that keeps the rules is undefined behaviour: C77 -/

namespace Copra
open Spec

set_option linter.unusedSectionVars false
set_option maxRecDepth 100000

section
variable {K : Type} [Field K] [LinearOrder K] [IsStrictOrderedRing K]

theorem Res.map_ub {α β : Type} {f : α → β} {r : Res α} : r.map f = .ub ↔ r = .ub := by
  cases r <;> simp [Res.map]

theorem Res.andThen_ub {α : Type} {r : Res α} {f : α → Res α} (h : r.andThen f = .ub) :
    r = .ub ∨ ∃ a, r = .ok a ∧ f a = .ub := by
  cases r with
  | ok a => exact Or.inr ⟨a, rfl, h⟩
  | thrown e a => cases h
  | ub => exact Or.inl rfl

theorem Res.ofOption_ub {α : Type} {o : Option α} : Res.ofOption o = .ub ↔ o = none := by
  cases o <;> simp [Res.ofOption]

theorem AutoSpan.spanVector_defined {α : Type} {junk : Nat → α} {v : Vec α} {n : Nat} (h : 0 < v.rows ∨ n = v.rows) :
    AutoSpan.spanVector junk v n ≠ .ub := by
  obtain ⟨a, b, c, _⟩ := c07_spanVector junk v n
  rcases h with h | h
  · by_cases e : v.rows ∣ n
    · obtain ⟨r, hr, _⟩ := a h e; rw [hr]; simp
    · rw [c h e]; simp
  · rw [b h]; simp

theorem AutoSpan.spanMatrix_defined {M : Mat K} {n a : Nat} (h : 0 < M.rows ∨ n = M.rows) :
    AutoSpan.spanMatrix M n a ≠ .ub := by
  obtain ⟨x, b, c, _⟩ := c08_spanMatrix M n a
  by_cases h1 : n = M.rows
  · rw [b h1]; simp
  · have h := h.resolve_right h1
    by_cases e : M.rows ∣ n
    · obtain ⟨r, hr, _⟩ := x h h1 e; rw [hr]; simp
    · rw [c h e]; simp

/-- A part of a spannable object is not empty or has the maximal row count. -/
theorem _root_.Copra.Spec.Spannable.part {l : List Nat} (h : Spannable l) {r n : Nat} (hr : r ∈ l) (hn : n ∈ l) : 0 < r ∨ n = r := by
  rcases h with h | h
  · exact Or.inl (h r hr)
  · exact Or.inr (h n hn r hr)

namespace Constr

theorem autoSpan_defined {junk : Junk K} {c : Constr K} (hf : c.fullSizeEntry = false) (h : Spannable c.userData.parts) :
    c.autoSpan junk ≠ .ub := by
  intro hu
  unfold autoSpan at hu
  unfold userData at h
  cases hk : c.kind <;> rw [hk] at hu h <;> simp only [hf, Bool.false_eq_true, if_false, ConstrData.parts] at h hu
  · unfold autoSpanTrajectory at hu
    have m : max c.E.rows c.f.rows ∈ [c.E.rows, c.f.rows] := by rcases max_choice c.E.rows c.f.rows with e | e <;> rw [e] <;> simp
    rcases Res.andThen_ub hu with hu | ⟨c1, h1, hu⟩
    · exact AutoSpan.spanMatrix_defined (h.part (by simp) m) (Res.map_ub.1 hu)
    · obtain ⟨E, _, rfl⟩ := Res.map_ok.1 h1
      exact AutoSpan.spanVector_defined (h.part (by simp) m) (Res.map_ub.1 hu)
  · unfold autoSpanControl at hu
    have m : max c.G.rows c.f.rows ∈ [c.G.rows, c.f.rows] := by rcases max_choice c.G.rows c.f.rows with e | e <;> rw [e] <;> simp
    rcases Res.andThen_ub hu with hu | ⟨c1, h1, hu⟩
    · exact AutoSpan.spanMatrix_defined (h.part (by simp) m) (Res.map_ub.1 hu)
    · obtain ⟨E, _, rfl⟩ := Res.map_ok.1 h1
      exact AutoSpan.spanVector_defined (h.part (by simp) m) (Res.map_ub.1 hu)
  · unfold autoSpanMixed at hu
    have m : max c.f.rows (max c.E.rows c.G.rows) ∈ [c.E.rows, c.G.rows, c.f.rows] := by
      rcases max_choice c.E.rows c.G.rows with e | e <;> rw [e] <;>
        [rcases max_choice c.f.rows c.E.rows with e | e; rcases max_choice c.f.rows c.G.rows with e | e] <;> rw [e] <;> simp
    rcases Res.andThen_ub hu with hu | ⟨c1, h1, hu⟩
    · exact AutoSpan.spanMatrix_defined (h.part (by simp) m) (Res.map_ub.1 hu)
    · obtain ⟨E, _, rfl⟩ := Res.map_ok.1 h1
      rcases Res.andThen_ub hu with hu | ⟨c2, h2, hu⟩
      · exact AutoSpan.spanMatrix_defined (h.part (by simp) m) (Res.map_ub.1 hu)
      · obtain ⟨G, _, rfl⟩ := Res.map_ok.1 h2
        exact AutoSpan.spanVector_defined (h.part (by simp) m) (Res.map_ub.1 hu)
  · unfold autoSpanTrajBound at hu
    have m : max c.lower.rows c.upper.rows ∈ [c.lower.rows, c.upper.rows] := by
      rcases max_choice c.lower.rows c.upper.rows with e | e <;> rw [e] <;> simp
    rcases Res.andThen_ub hu with hu | ⟨c1, h1, hu⟩
    · exact AutoSpan.spanVector_defined (h.part (by simp) m) (Res.map_ub.1 hu)
    · obtain ⟨E, _, rfl⟩ := Res.map_ok.1 h1
      rcases Res.andThen_ub hu with hu | ⟨c2, h2, hu⟩
      · exact AutoSpan.spanVector_defined (h.part (by simp) m) (Res.map_ub.1 hu)
      · cases hu
  · unfold autoSpanCtrlBound at hu
    have m : max c.lower.rows c.upper.rows ∈ [c.lower.rows, c.upper.rows] := by
      rcases max_choice c.lower.rows c.upper.rows with e | e <;> rw [e] <;> simp
    rcases Res.andThen_ub hu with hu | ⟨c1, h1, hu⟩
    · exact AutoSpan.spanVector_defined (h.part (by simp) m) (Res.map_ub.1 hu)
    · obtain ⟨E, _, rfl⟩ := Res.map_ok.1 h1
      exact AutoSpan.spanVector_defined (h.part (by simp) m) (Res.map_ub.1 hu)

end Constr

namespace Cost

theorem autoSpan_defined {junk : Junk K} {c : Cost K} (h : Spannable c.userData.parts) :
    c.autoSpan junk ≠ .ub := by
  intro hu
  unfold autoSpan at hu
  unfold userData at h
  cases hk : c.kind <;> rw [hk] at hu h <;> simp only [CostData.parts] at h hu
  · unfold autoSpanTrajectory at hu
    have m : max c.M.rows (max c.weights.rows c.p.rows) ∈ [c.M.rows, c.p.rows, c.weights.rows] := by
      rcases max_choice c.weights.rows c.p.rows with e | e <;> rw [e] <;>
        [rcases max_choice c.M.rows c.weights.rows with e | e; rcases max_choice c.M.rows c.p.rows with e | e] <;> rw [e] <;> simp
    rcases Res.andThen_ub hu with hu | ⟨c1, h1, hu⟩
    · exact AutoSpan.spanMatrix_defined (h.part (by simp) m) (Res.map_ub.1 hu)
    · obtain ⟨E, _, rfl⟩ := Res.map_ok.1 h1
      rcases Res.andThen_ub hu with hu | ⟨c2, h2, hu⟩
      · exact AutoSpan.spanVector_defined (h.part (by simp) m) (Res.map_ub.1 hu)
      · obtain ⟨G, _, rfl⟩ := Res.map_ok.1 h2
        exact AutoSpan.spanVector_defined (h.part (by simp) m) (Res.map_ub.1 hu)
  · cases hu
  · unfold autoSpanControl at hu
    have m : max c.N.rows (max c.weights.rows c.p.rows) ∈ [c.N.rows, c.p.rows, c.weights.rows] := by
      rcases max_choice c.weights.rows c.p.rows with e | e <;> rw [e] <;>
        [rcases max_choice c.N.rows c.weights.rows with e | e; rcases max_choice c.N.rows c.p.rows with e | e] <;> rw [e] <;> simp
    rcases Res.andThen_ub hu with hu | ⟨c1, h1, hu⟩
    · exact AutoSpan.spanMatrix_defined (h.part (by simp) m) (Res.map_ub.1 hu)
    · obtain ⟨E, _, rfl⟩ := Res.map_ok.1 h1
      rcases Res.andThen_ub hu with hu | ⟨c2, h2, hu⟩
      · exact AutoSpan.spanVector_defined (h.part (by simp) m) (Res.map_ub.1 hu)
      · obtain ⟨G, _, rfl⟩ := Res.map_ok.1 h2
        exact AutoSpan.spanVector_defined (h.part (by simp) m) (Res.map_ub.1 hu)
  · unfold autoSpanMixed at hu
    have m : max c.M.rows (max c.N.rows (max c.weights.rows c.p.rows)) ∈ [c.M.rows, c.N.rows, c.p.rows, c.weights.rows] := by
      simp only [List.mem_cons, List.not_mem_nil, or_false]
      omega
    rcases Res.andThen_ub hu with hu | ⟨c1, h1, hu⟩
    · exact AutoSpan.spanMatrix_defined (h.part (by simp) m) (Res.map_ub.1 hu)
    · obtain ⟨E, _, rfl⟩ := Res.map_ok.1 h1
      rcases Res.andThen_ub hu with hu | ⟨c2, h2, hu⟩
      · exact AutoSpan.spanMatrix_defined (h.part (by simp) m) (Res.map_ub.1 hu)
      · obtain ⟨G, _, rfl⟩ := Res.map_ok.1 h2
        rcases Res.andThen_ub hu with hu | ⟨c3, h3, hu⟩
        · exact AutoSpan.spanVector_defined (h.part (by simp) m) (Res.map_ub.1 hu)
        · obtain ⟨p, _, rfl⟩ := Res.map_ok.1 h3
          exact AutoSpan.spanVector_defined (h.part (by simp) m) (Res.map_ub.1 hu)

end Cost

theorem Ok.ne_none {α : Type} {o : Option α} {P : α → Prop} (h : Ok o P) : o ≠ none := by
  obtain ⟨a, e, _⟩ := h; rw [e]; simp

namespace World
variable {d : Dims} {dmax : K}

theorem Good.defined {w : World K} {g : Ghost} {op : Op K} (h : Good d dmax w g) (ho : OpOk d w g op) (hs : OpSafe d w op) :
    w.step dmax op ≠ .ub := by
  intro hu
  cases op with
  | system p A B v x0 N =>
    have hu := Res.map_ub.1 hu
    obtain ⟨a, b, _⟩ := c04_system_accepts_iff (w.pss p) A B v x0 N
    obtain ⟨h1, h2, rfl⟩ := ho
    obtain ⟨f1, f2, f3, f4⟩ := hs
    by_cases hc : ConsistentData A B v x0 d.N
    · have hr : RepresentableData A B d.N := by
        unfold RepresentableData
        rw [h1, h2]
        have : d.n * 1 ≤ d.n * (d.N + 1) := Nat.mul_le_mul_left _ (by omega)
        exact ⟨by exact_mod_cast f1, by omega, f2, by exact_mod_cast f3, by exact_mod_cast f4⟩
      obtain ⟨ps, e, _⟩ := b hc hr
      rw [e] at hu; cases hu
    · rw [a hc] at hu; cases hu
  | xInit => cases hu
  | setDynamics => cases hu
  | updatePs p =>
    exact Ok.ne_none (Copra.updateSystem_ok (h.sys p ho).1) (Res.ofOption_ub.1 (Res.map_ub.1 hu))
  | spanConstr i junk =>
    have hu := Res.map_ub.1 hu
    rcases h.usable i with k | k
    · exact Constr.autoSpan_defined k.1 hs hu
    · rw [Constr.autoSpan_rowsAgree junk k.rowsAgree] at hu; cases hu
  | initConstr i p junk =>
    have hu := Res.map_ub.1 hu
    have H := Constr.initializeConstraint_spec (c := w.cons i) junk (h.sys p ho).1.dims.toSysShape
    by_cases h1 : Constr.Once (w.cons i) ∧ (w.cons i).hasBeenInitialized = true
    · rw [H.once h1.1 h1.2] at hu; cases hu
    · by_cases h2 : Constr.Fits d (w.cons i)
      · obtain ⟨c, e, _⟩ := H.accept h1 h2 hs
        rw [e] at hu; cases hu
      · rw [H.reject h1 h2] at hu; cases hu
  | updateConstr i p =>
    obtain ⟨h1, h2, h3⟩ := ho
    obtain ⟨S, hx⟩ := h.sys p h2
    exact Ok.ne_none (Constr.update_ok (h.consReg i h1) S.dims.toSysShape (S.pred h3) hx) (Res.ofOption_ub.1 (Res.map_ub.1 hu))
  | spanCost i junk => exact Cost.autoSpan_defined hs (Res.map_ub.1 hu)
  | weights i v =>
    have hu := Res.map_ub.1 hu
    obtain ⟨_, b, _, e⟩ := Cost.setWeights_cases (w.costs i) v
    by_cases h1 : v.rows ∣ (w.costs i).weights.rows
    · obtain ⟨s, hs'⟩ := h1
      obtain ⟨_, e, _⟩ := b s hs (by rw [hs', Nat.mul_comm])
      rw [e] at hu; cases hu
    · rw [e hs h1] at hu; cases hu
  | weight => cases hu
  | initCost i p junk =>
    have hu := Res.map_ub.1 hu
    obtain ⟨c, e | e, _⟩ := Cost.init_any (junk := junk) (ps := w.pss p) (c := w.costs i) <;> rw [e] at hu <;> cases hu
  | updateCost i p =>
    obtain ⟨h1, h2⟩ := ho
    obtain ⟨S, hx⟩ := h.sys p h2
    exact Ok.ne_none (Cost.update_ok (h.costReg i h1) S.dims.toSysShape hx) (Res.ofOption_ub.1 (Res.map_ub.1 hu))
  | refsConstr => cases hu
  | refsCost => cases hu
  | construct => cases hu
  | constructPs b s p junk =>
    have hu := Res.ofOption_ub.1 (Res.map_ub.1 hu)
    have S := (h.sys p ho).1.dims.toSysShape
    have e : ∀ l : LMPC K, l.isInit = b → l.optSize (w.pss p) = some (numVars d l) :=
      fun l hl => LMPC.optSize_ok S (by rw [hl]; exact hs)
    have hi : (seedInit (LMPC.construct b s) (w.pss p)).isInit = b := by unfold seedInit; split <;> rfl
    simp only [LMPC.initializeController, LMPC.clearConstraintMatrices, LMPC.updateQPMatrixSize, Option.bind_eq_bind,
      Option.pure_def] at hu
    rw [e _ (by exact hi)] at hu
    simp only [Option.bind_some] at hu
    rw [e _ (by exact hi)] at hu
    cases hu
  | useSolver => cases hu
  | initializeController p junk =>
    have hu := Res.ofOption_ub.1 (Res.map_ub.1 hu)
    have S := (h.sys p ho).1.dims.toSysShape
    have e : ∀ l : LMPC K, l.isInit = w.ctl.isInit → l.optSize (w.pss p) = some (numVars d l) :=
      fun l hl => LMPC.optSize_ok S (by rw [hl]; exact hs)
    simp only [LMPC.initializeController, LMPC.clearConstraintMatrices, LMPC.updateQPMatrixSize, Option.bind_eq_bind,
      Option.pure_def] at hu
    rw [e _ (by rfl)] at hu
    simp only [Option.bind_some] at hu
    rw [e _ (by rfl)] at hu
    cases hu
  | addCost i junk =>
    obtain ⟨p, hp⟩ := Option.ne_none_iff_exists'.1 hs
    change World.addCost junk w i = .ub at hu
    simp only [World.addCost, hp] at hu
    obtain ⟨c, e | e, _⟩ := Cost.init_any (junk := junk) (ps := w.pss p) (c := w.costs i) <;> rw [e] at hu <;> cases hu
  | addConstraint i junk =>
    obtain ⟨h0, h3, h4⟩ := hs
    obtain ⟨p, hp⟩ := Option.ne_none_iff_exists'.1 h0
    change World.addConstraint junk w i = .ub at hu
    simp only [World.addConstraint, hp] at hu
    have H := Constr.initializeConstraint_spec (c := w.cons i) junk (h.sys p (h.ctl p hp).1).1.dims.toSysShape
    by_cases h1 : Constr.Once (w.cons i) ∧ (w.cons i).hasBeenInitialized = true
    · rw [H.once h1.1 h1.2] at hu; cases hu
    · by_cases h2 : Constr.Fits d (w.cons i)
      · obtain ⟨c, e, _, _, hn, _⟩ := H.accept h1 h2 (by omega)
        rw [e] at hu
        simp only [LMPC.addConstraintByType, hn, Constr.chkInt_some h3, Constr.chkInt_some h4] at hu
        cases hc : c.constraintType <;> rw [hc] at hu <;> cases hu
      · rw [H.reject h1 h2] at hu; cases hu
  | removeCost => cases hu
  | removeConstraint i =>
    have hu := Res.ofOption_ub.1 (Res.map_ub.1 hu)
    rw [h.part.remove i] at hu
    cases hu
  | clearCosts => cases hu
  | clearConstraints =>
    have hu := Res.ofOption_ub.1 hu
    obtain ⟨p, hp⟩ := Option.ne_none_iff_exists'.1 hs
    have S := (h.sys p (h.ctl p hp).1).1.dims.toSysShape
    simp only [clearConstraints, LMPC.clearConstraintMatrices, hp, Option.bind_eq_bind, Option.bind_some, Option.pure_def] at hu
    rw [LMPC.optSize_ok S (by exact (h.ctl p hp).2.1)] at hu
    cases hu
  | resetInitialStateCost => cases hu
  | resetInitialStateBounds => cases hu
  | solve env =>
    obtain ⟨_, _, _, _, e, _⟩ := h.solve_defined ho
    rw [e] at hu; cases hu

/-- C77: In any history, a call that keeps the rules about sizes and is safe in the sense of `OpSafe` returns or throws:
no index is out of range, nothing is read through a null pointer, no size is wrong, no `int` overflows and nothing is
divided by zero. -/
theorem c77_defined {E : World K → Op K → Prop} {w : World K} {g : Ghost} {op : Op K} (h : Hist d dmax E w g)
    (ho : OpOk d w g op) (hs : OpSafe d w op) : w.step dmax op ≠ .ub := h.good.defined ho hs

/-- So a program that makes only such calls never gets stuck, however long it is. -/
theorem c77_run {E : World K → Op K → Prop} {w : World K} {g : Ghost} {op : Op K} (h : Hist d dmax E w g)
    (ho : OpOk d w g op) (he : E w op) (hs : OpSafe d w op) :
    ∃ w', (w.step dmax op = .ok w' ∧ Hist d dmax E w' (g.next w True op)) ∨
      ∃ e, w.step dmax op = .thrown e w' ∧ Hist d dmax E w' (g.next w False op) := by
  cases hr : w.step dmax op with
  | ok w' => exact ⟨w', Or.inl ⟨rfl, h.ok ho he hr⟩⟩
  | thrown e w' => exact ⟨w', Or.inr ⟨e, rfl, h.thrown ho he hr⟩⟩
  | ub => exact absurd hr (c77_defined h ho hs)

/-- A call that needs no controller does not look at the controller. -/
theorem step_ub_ctl {w : World K} {l : LMPC K} {op : Op K} (hn : NeedsNone op) (h : w.step dmax op = .ub) :
    ({ w with ctl := l } : World K).step dmax op = .ub := by
  cases op <;> simp only [NeedsNone] at hn <;> simp only [step, Res.map_ub, reduceCtorEq] at h ⊢ <;> exact h

end World

/-- C77 for programs with several controllers that share objects. -/
theorem MWorld.c77_defined {n : Nat} {d : Dims} {dmax : K} {E : World K → Op K → Prop} (hE : AboutObjects E) {w : MWorld K n}
    {g : MGhost n} {k : Fin n} {op : Op K} (h : MHist d dmax E w g) (ho : OpOk d (w.view k) (g.view k) op)
    (hs : OpSafe d (w.view k) op) : w.step dmax k op ≠ .ub := by
  have := World.c77_defined (h.view hE k) ho hs
  intro hu
  cases op <;> simp only [MWorld.step, Res.map_ub, reduceCtorEq] at hu <;> exact this hu

/-- C77 for programs whose controllers are constructed, moved and destroyed. -/
theorem LWorld.c77_defined {n : Nat} {d : Dims} {dmax : K} {E : World K → Op K → Prop} (hE : AboutCalls E) {w : LWorld K n}
    {g : MGhost n} {op : LOp K n} (h : LHist d dmax E w g) (ho : LOpOk d w g op) (hs : LOpSafe d w op) :
    w.step dmax op ≠ .ub := by
  cases op with
  | move => intro hu; cases hu
  | destroy => intro hu; cases hu
  | call k op =>
    obtain ⟨ha, ho⟩ := ho
    have key : (w.w.view k).step dmax op ≠ .ub := by
      rcases ha with ha | ha
      · exact World.c77_defined (h.view hE ha) ho hs
      · obtain ⟨l, hl, _⟩ := h.inv hE k
        intro hu
        refine World.c77_defined hl ?_ ?_ (World.step_ub_ctl (l := l) ha hu)
        · cases op <;> simp only [NeedsNone] at ha <;> exact ho
        · cases op <;> simp only [NeedsNone] at ha <;> exact hs
    intro hu
    cases op <;> simp only [LWorld.step, MWorld.step, Res.map_ub, reduceCtorEq] at hu <;> exact key hu
end

/-! ## Concrete cases -/

namespace Ex
open World

/-- The client adds a fifth constraint, an equality on the whole trajectory, in the middle of a history. -/
example : w7.step 1000 (.addConstraint 7 jk) ≠ .ub :=
  World.c77_defined h7 (fun h => absurd h (by decide +kernel : (w7.cons 7).kind ≠ .ctrlBound))
    ⟨by decide +kernel, by decide +kernel, by decide +kernel⟩

/-- The rejected constraint 6 (three columns) throws. -/
example : w7.step 1000 (.addConstraint 6 jk) ≠ .ub :=
  World.c77_defined h7 (fun h => absurd h (by decide +kernel : (w7.cons 6).kind ≠ .ctrlBound))
    ⟨by decide +kernel, by decide +kernel, by decide +kernel⟩

/-- Cost 0 has two rows everywhere, cost 3 one row, and weights of one entry may be given to either. -/
example : w12.step 1000 (.spanCost 3 jk) ≠ .ub := World.c77_defined h12 trivial (by
  show Spannable (w12.costs 3).userData.parts
  unfold Spannable; decide +kernel)
example : w12.step 1000 (.weights 0 (vec [2])) ≠ .ub := World.c77_defined h12 trivial (by show 0 < (vec [2]).rows; decide +kernel)
example : w12.step 1000 .clearConstraints ≠ .ub := World.c77_defined h12 trivial (by show w12.ctl.ps ≠ none; decide +kernel)
example : w0.step 1000 opSys ≠ .ub :=
  World.c77_defined (d := d) (E := Careful) (.start w0_init) ⟨rfl, rfl, rfl⟩
    (by show FitsInt d; unfold FitsInt; decide +kernel)
example : ∃ w', (w12.step 1000 (.spanConstr 4 jk) = .ok w' ∧ Hist d 1000 Careful w' g12) ∨
    ∃ e, w12.step 1000 (.spanConstr 4 jk) = .thrown e w' ∧ Hist d 1000 Careful w' g12 :=
  World.c77_run (op := .spanConstr 4 jk) h12 trivial
    ⟨fun h => absurd h (by decide +kernel : (w12.cons 4).kind ≠ .trajBound), trivial, trivial⟩
    (by show Spannable (w12.cons 4).userData.parts; unfold Spannable; decide +kernel)

/-- Several controllers, one of which was destroyed: the surviving one goes on. -/
example : ∃ g, LHist d 1000 Ex.Multi.Nice Life.l10 g ∧ ∀ i : Fin 3, i = 2 →
    Life.l10.step 1000 (.call i (.clearConstraints)) ≠ .ub := by
  obtain ⟨g, h, _⟩ := Life.hl10
  refine ⟨g, h, fun i hi => ?_⟩
  subst hi
  exact LWorld.c77_defined Life.nice_calls h ⟨Or.inl (by decide +kernel), trivial⟩
    (by show (Life.l10.w.view 2).ctl.ps ≠ none; decide +kernel)

/-! ### Each condition is needed: calls that keep the rules about sizes and are undefined behaviour -/

/-- The call is undefined behaviour. -/
def ubB (w : World ℚ) (op : Op ℚ) : Bool :=
  match w.step 1000 op with
  | .ub => true
  | _ => false

theorem ubB_step {w : World ℚ} {op : Op ℚ} (h : ubB w op = true) : w.step 1000 op = .ub := by
  unfold ubB at h
  cases hs : w.step 1000 op <;> rw [hs] at h <;> first | rfl | cases h

/-- No controller was given a system: `addCost`, `addConstraint`, `clearConstraints` read through a null pointer. -/
theorem c77_no_system_counterexample : Hist d 1000 Careful w0 Ghost.start ∧
    w0.step 1000 (.addCost 0 jk) = .ub ∧ w0.step 1000 (.addConstraint 0 jk) = .ub ∧ w0.step 1000 .clearConstraints = .ub :=
  ⟨.start w0_init, rfl, rfl, rfl⟩

/-- Empty weights: `weights()` divides by zero. -/
theorem c77_empty_weights_counterexample : Hist d 1000 Careful w12 g12 ∧ w12.step 1000 (.weights 0 (vec [])) = .ub :=
  ⟨h12, ubB_step (by decide +kernel)⟩

/-- The programs of this paragraph: constraint 0 has an empty matrix and two right-hand sides, constraint 1 has as many
rows as an `int` can count, given per step, constraints 2 and 3 as many rows on the whole trajectory; cost 0 has an empty
matrix. -/
def ub0 : World ℚ :=
  { w0 with
    cons := fun i => if i = 0 then Constr.mkTrajectory (mat 0 2 []) (evec [.fin 1, .fin 2]) true
      else if i = 1 then Constr.mkTrajectory ⟨intMax, 2, fun _ _ => 1⟩ ⟨intMax, fun _ => .fin 1⟩ true
      else Constr.mkTrajectory ⟨intMax, 6, fun _ _ => 1⟩ ⟨intMax, fun _ => .fin 1⟩ true
    costs := fun _ => Cost.mkTrajectory (mat 0 2 []) (vec [1]) }

theorem ub0_init : World.Init ub0 := by
  refine ⟨fun _ => rfl, fun i => ?_, fun i => .inl ⟨_, _, rfl⟩, false, solver, rfl⟩
  show World.FreshConstr (if i = 0 then _ else if i = 1 then _ else _)
  split
  · exact .inl ⟨_, _, _, rfl⟩
  · split <;> exact .inl ⟨_, _, _, rfl⟩

def ub1 := after 1000 ub0 opSys
def ub2 := after 1000 ub1 opCtl
def ub3 := after 1000 ub2 (.addConstraint 2 jk)

/-- Empty matrices: `autoSpan()` divides by zero. -/
theorem c77_empty_part_counterexample : Hist d 1000 Careful ub0 Ghost.start ∧ ub0.step 1000 (.spanConstr 0 jk) = .ub ∧
    ub0.step 1000 (.spanCost 0 jk) = .ub :=
  ⟨.start ub0_init, rfl, rfl⟩

theorem hub2 : Hist d 1000 Careful ub2 Ghost.start := by
  have a1 := hist_after (d := d) (dmax := 1000) (E := Careful) (op := opSys) (.start ub0_init) ⟨rfl, rfl, rfl⟩
    ⟨trivial, trivial, trivial⟩ (by decide +kernel)
  exact hist_after (op := opCtl) a1 (show HasSystem ub1 0 by unfold HasSystem; decide +kernel)
    ⟨trivial, trivial, trivial⟩ (by decide +kernel : okB 1000 ub1 _ = true)

/-- Too many rows for one constraint, and for several constraints together: an `int` overflows. -/
theorem c77_overflow_counterexample : (∃ g, Hist d 1000 Careful ub2 g) ∧ ub2.step 1000 (.addConstraint 1 jk) = .ub ∧
    (∃ g, Hist d 1000 Careful ub3 g) ∧ ub3.step 1000 (.addConstraint 3 jk) = .ub := by
  refine ⟨⟨_, hub2⟩, ?_, ⟨_, hist_after (op := .addConstraint 2 jk) hub2 (fun _ => by decide +kernel) ⟨trivial, trivial, trivial⟩
    (by decide +kernel)⟩, ?_⟩
  · exact ubB_step (by decide +kernel)
  · exact ubB_step (by decide +kernel)

/-- Dimensions that do not fit: `system()` overflows. -/
theorem c77_dims_counterexample : Hist ⟨2, 1, intMax⟩ 1000 Careful w0 Ghost.start ∧
    OpOk ⟨2, 1, intMax⟩ w0 Ghost.start (.system 0 (mat 2 2 [[1, 1], [0, 1]]) (mat 2 1 [[0], [1]]) (vec [0, 0]) (vec [1, 0]) intMax) ∧
    w0.step 1000 (.system 0 (mat 2 2 [[1, 1], [0, 1]]) (mat 2 1 [[0], [1]]) (vec [0, 0]) (vec [1, 0]) intMax) = .ub := by
  exact ⟨.start w0_init, ⟨rfl, rfl, rfl⟩, ubB_step (by decide +kernel)⟩

end Ex
end Copra
