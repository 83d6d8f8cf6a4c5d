import Verif.Proofs.Changes

/-! # Further invariants of histories with fixed dimensions -/

namespace Copra
open Spec

set_option linter.unusedSectionVars false
set_option linter.unusedSimpArgs false

variable {K : Type} [Field K] [LinearOrder K] [IsStrictOrderedRing K]

namespace World

/-- Induction over histories for predicates of the world. -/
theorem _root_.Copra.Spec.Hist.inv {d : Dims} {dmax : K} {E : World K → Op K → Prop} {P : World K → Ghost → Prop}
    (h0 : ∀ w, Init w → P w Ghost.start)
    (hs : ∀ w w' g op ok, Good d dmax w g → Good d dmax w' (g.next w ok op) → P w g → OpOk d w g op → E w op →
      Steps dmax w op w' → ((ok ∧ w.step dmax op = .ok w') ∨ (¬ ok ∧ ∃ e, w.step dmax op = .thrown e w')) →
      P w' (g.next w ok op))
    {w : World K} {g : Ghost} (h : Hist d dmax E w g) : P w g := by
  induction h with
  | start h => exact h0 _ h
  | @ok w w' g op hh ho he hst ih =>
    have hg := hh.good
    exact hs w w' g op True hg (hg.step ho (Or.inl ⟨trivial, hst⟩)) ih ho he (Or.inl hst) (Or.inl ⟨trivial, hst⟩)
  | @thrown w w' g op e hh ho he hst ih =>
    have hg := hh.good
    exact hs w w' g op False hg (hg.step ho (Or.inr ⟨fun h => h, _, hst⟩)) ih ho he (Or.inr ⟨e, hst⟩)
      (Or.inr ⟨fun h => h, _, hst⟩)

/-! ## Recorded lines of trajectory bounds -/

/-- The recorded lines of a trajectory bound are the finite entries of its vectors. -/
def LinesCurrent (c : Constr K) : Prop := c.kind = .trajBound →
  c.lowerLines = Constr.finiteLines Ext.isNinf c.lower ∧ c.upperLines = Constr.finiteLines Ext.isPinf c.upper

theorem _root_.Copra.Constr.update_chain_keeps {ps : PreviewSystem K} {c c' : Constr K}
    (h : Relation.ReflTransGen (fun a b : Constr K => a.update ps = some b) c c') : Constr.Keeps c c' := by
  induction h with
  | refl => exact Constr.Keeps.refl _
  | tail _ h ih => exact ih.trans (Constr.update_keeps h)

theorem GoodRaw.usable {d : Dims} {dmax : K} {w : World K} {g : Ghost} (h : GoodRaw d dmax w g) (i : Nat) :
    Constr.Unreg (w.cons i) ∨ Constr.Reg d (w.cons i) := by
  by_cases hc : g.constr i
  · exact Or.inr (h.consReg i hc)
  · exact Or.inl (h.consUn i hc)

/-- Acceptance keeps the declared data, whatever happened to the constraint before. -/
theorem GoodRaw.init_keeps {d : Dims} {dmax : K} {w : World K} {g : Ghost} (h : GoodRaw d dmax w g) {i p : Nat} {junk : Junk K}
    {c : Constr K} (hp : HasSystem w p) (hi : (w.cons i).initializeConstraint junk (w.pss p) = .ok c) :
    c.userData = (w.cons i).userData ∧ c.kind = (w.cons i).kind ∧ c.isIneq = (w.cons i).isIneq ∧
    c.lowerLines = (w.cons i).lowerLines ∧ c.upperLines = (w.cons i).upperLines := by
  have S := (h.raw p hp).1.dims.toSysShape
  have H := Constr.initializeConstraint_spec (c := w.cons i) junk S
  obtain ⟨ho, hf, hn⟩ := Constr.init_ok S hi
  obtain ⟨c2, e, h2, h3, h4, h5, h6, h7, h8⟩ := H.accept ho hf hn
  rw [hi] at e
  cases e
  refine ⟨(h8 ?_).2, h2, h3, h6, h7⟩
  rcases h.usable i with h | h
  · exact Or.inl h
  · exact Or.inr h

/-- Which system an accepting call uses. -/
theorem GoodRaw.initSys {d : Dims} {dmax : K} {w : World K} {g : Ghost} {op : Op K} (h : GoodRaw d dmax w g) (ho : OpOk d w g op)
    {i p : Nat} {junk : Junk K}
    (hop : op = .initConstr i p junk ∨ (op = .addConstraint i junk ∧ w.ctl.ps = some p)) : HasSystem w p := by
  rcases hop with rfl | ⟨rfl, hp⟩
  · exact ho
  · exact (h.ctl p hp).1

theorem GoodRaw.initSysCost {d : Dims} {dmax : K} {w : World K} {g : Ghost} {op : Op K} (h : GoodRaw d dmax w g) (ho : OpOk d w g op)
    {i p : Nat} {junk : Junk K}
    (hop : op = .initCost i p junk ∨ (op = .addCost i junk ∧ w.ctl.ps = some p)) : HasSystem w p := by
  rcases hop with rfl | ⟨rfl, hp⟩
  · exact ho
  · exact (h.ctl p hp).1

theorem lines_start {w : World K} (h : Init w) : ∀ i, LinesCurrent (w.cons i) := by
  obtain ⟨_, h2, _⟩ := h
  intro i hk
  rcases h2 i with ⟨_, _, _, e⟩ | ⟨_, _, _, e⟩ | ⟨_, _, _, _, e⟩ | ⟨l, u, e⟩ | ⟨_, _, e⟩ <;> rw [e] at hk ⊢
  all_goals first | (exact ⟨rfl, rfl⟩) | (cases hk)

theorem lines_step {d : Dims} {dmax : K} {w w' : World K} {g : Ghost} {op : Op K} (hg : GoodRaw d dmax w g)
    (ih : ∀ i, LinesCurrent (w.cons i)) (ho : OpOk d w g op) (he : NoBoundSpan w op) (hst : Steps dmax w op w') :
    ∀ i, LinesCurrent (w'.cons i) := by
  intro i
  cases hst.constrChange i with
  | same e => rw [e]; exact ih i
  | span junk e hsp =>
    subst e
    intro hk
    have hn := he
    unfold NoBoundSpan at hn
    have hk0 : (w.cons i).kind = .trajBound := by
      have := (hst.ident i).kind
      rw [← this]; exact hk
    have hra : Constr.RowsAgree (w.cons i) := by
      unfold Constr.RowsAgree; rw [hk0]; exact (hn hk0).symm
    have := Constr.autoSpan_rowsAgree junk hra
    rw [this] at hsp
    rcases hsp with hsp | ⟨_, hsp⟩
    · injection hsp with hsp
      rw [← hsp]; exact ih i hk0
    · cases hsp
  | init p junk hop hi =>
    obtain ⟨a1, a2, a3, a4, a5⟩ := hg.init_keeps (hg.initSys ho hop) hi
    intro hk
    have hk0 : (w.cons i).kind = .trajBound := by rw [← a2]; exact hk
    have e := a1
    unfold Constr.userData at e
    rw [hk, hk0] at e
    simp only [ConstrData.trajBound.injEq] at e
    rw [a4, a5, e.1, e.2]
    exact ih i hk0
  | update p hop hc =>
    have k := Constr.update_chain_keeps hc
    intro hk
    rw [k.lowerLines, k.upperLines, k.lower, k.upper]
    exact ih i (by rw [← k.kind]; exact hk)

theorem _root_.Copra.Spec.Hist.lines {d : Dims} {dmax : K} {E : World K → Op K → Prop}
    (hE : ∀ w op, E w op → NoBoundSpan w op) {w : World K} {g : Ghost} (h : Hist d dmax E w g) :
    ∀ i, LinesCurrent (w.cons i) :=
  Hist.inv (P := fun w _ => ∀ i, LinesCurrent (w.cons i)) (fun _ h => lines_start h)
    (fun _ _ _ _ _ hg _ ih ho he hst _ => lines_step hg.toGoodRaw ih ho (hE _ _ he) hst) h

/-! ## Nonnegative weights -/

theorem _root_.Copra.AutoSpan.spanVector_all {α : Type} {P : α → Prop} {junk : Nat → α} {v r : Vec α} {n : Nat}
    (h : AutoSpan.spanVector junk v n = .ok r) (hv : ∀ i < v.rows, P (v.e i)) : ∀ i < r.rows, P (r.e i) := by
  rcases Nat.eq_zero_or_pos v.rows with h0 | h0
  · by_cases hn : n = 0
    · subst hn
      rw [← h0, AutoSpan.spanVector_id] at h
      cases h; exact hv
    · rw [AutoSpan.spanVector_ub junk v h0 hn] at h; cases h
  · by_cases hd : v.rows ∣ n
    · obtain ⟨s, rfl⟩ := hd
      rw [Nat.mul_comm] at h
      obtain ⟨r', e, h1, h2⟩ := AutoSpan.spanVector_rep junk v (s := s) h0
      rw [h] at e; cases e
      intro i hi
      rw [h1] at hi
      obtain ⟨k, t, hk, ht, rfl⟩ := blk_split hi
      rw [h2 k hk t ht]; exact hv t ht
    · rw [AutoSpan.spanVector_throw junk v h0 hd] at h; cases h

theorem _root_.Copra.Cost.autoSpan_nonneg {junk : Junk K} {c c' : Cost K}
    (h : c.autoSpan junk = .ok c' ∨ ∃ e, c.autoSpan junk = .thrown e c') (hw : Cost.NonnegW c) : Cost.NonnegW c' := by
  unfold Cost.autoSpan at h
  unfold Cost.NonnegW at *
  cases hk : c.kind <;> rw [hk] at h <;> simp only at h
  · unfold Cost.autoSpanTrajectory at h
    simp only [Res.andThen_thrown, Res.map_thrown, Res.map_ok, Res.andThen_ok] at h
    rcases h with ⟨_, ⟨E, hE, rfl⟩, _, ⟨f, hf, rfl⟩, w, hw', rfl⟩ | ⟨_, ⟨E, hE, rfl⟩ | ⟨_, ⟨E, hE, rfl⟩, ⟨f, hf, rfl⟩ | ⟨_, ⟨f, hf, rfl⟩, w, hw', rfl⟩⟩⟩
    · exact AutoSpan.spanVector_all (P := fun x : K => 0 ≤ x) hw' hw
    · exact hw
    · exact hw
    · rw [(AutoSpan.spanVector_thrown hw').1]; exact hw
  · rcases h with h | ⟨_, h⟩ <;> cases h
    exact hw
  · unfold Cost.autoSpanControl at h
    simp only [Res.andThen_thrown, Res.map_thrown, Res.map_ok, Res.andThen_ok] at h
    rcases h with ⟨_, ⟨E, hE, rfl⟩, _, ⟨f, hf, rfl⟩, w, hw', rfl⟩ | ⟨_, ⟨E, hE, rfl⟩ | ⟨_, ⟨E, hE, rfl⟩, ⟨f, hf, rfl⟩ | ⟨_, ⟨f, hf, rfl⟩, w, hw', rfl⟩⟩⟩
    · exact AutoSpan.spanVector_all (P := fun x : K => 0 ≤ x) hw' hw
    · exact hw
    · exact hw
    · rw [(AutoSpan.spanVector_thrown hw').1]; exact hw
  · unfold Cost.autoSpanMixed at h
    simp only [Res.andThen_thrown, Res.map_thrown, Res.map_ok, Res.andThen_ok] at h
    rcases h with ⟨_, ⟨E, hE, rfl⟩, _, ⟨N, hN, rfl⟩, _, ⟨f, hf, rfl⟩, w, hw', rfl⟩ | ⟨_, ⟨E, hE, rfl⟩ | ⟨_, ⟨E, hE, rfl⟩, ⟨N, hN, rfl⟩ | ⟨_, ⟨N, hN, rfl⟩, ⟨f, hf, rfl⟩ | ⟨_, ⟨f, hf, rfl⟩, w, hw', rfl⟩⟩⟩⟩
    · exact AutoSpan.spanVector_all (P := fun x : K => 0 ≤ x) hw' hw
    · exact hw
    · exact hw
    · exact hw
    · rw [(AutoSpan.spanVector_thrown hw').1]; exact hw

theorem _root_.Copra.Cost.setWeights_nonneg {v : Vec K} {c c' : Cost K}
    (h : c.setWeights v = .ok c' ∨ ∃ e, c.setWeights v = .thrown e c') (hv : ∀ j < v.rows, 0 ≤ v.e j)
    (hw : Cost.NonnegW c) : Cost.NonnegW c' := by
  obtain ⟨h1, h2, h3, h4⟩ := Cost.setWeights_cases c v
  by_cases a : v.rows = c.weights.rows
  · rw [h1 a] at h
    rcases h with h | ⟨e, h⟩ <;> cases h
    exact hv
  · rcases Nat.eq_zero_or_pos v.rows with h0 | h0
    · rw [h3 h0 (by omega)] at h
      rcases h with h | ⟨e, h⟩ <;> cases h
    · by_cases hd : v.rows ∣ c.weights.rows
      · obtain ⟨s, hs⟩ := hd
        rw [Nat.mul_comm] at hs
        obtain ⟨u, e, hu1, hu2⟩ := h2 s h0 hs
        rw [e] at h
        rcases h with h | ⟨e, h⟩ <;> cases h
        intro i hi
        simp only at hi ⊢
        rw [hu1, hs] at hi
        obtain ⟨k, t, hk, ht, rfl⟩ := blk_split hi
        rw [hu2 k hk t ht]; exact hv t ht
      · rw [h4 h0 hd] at h
        rcases h with h | ⟨e, h⟩ <;> cases h
        exact hw

theorem _root_.Copra.Cost.update_chain_same {ps : PreviewSystem K} {c c' : Cost K}
    (h : Relation.ReflTransGen (fun a b : Cost K => a.update ps = some b) c c') : Cost.Same c c' := by
  induction h with
  | refl => exact Cost.Same.refl _
  | tail _ h ih => exact ih.trans (Cost.update_same h)

theorem _root_.Copra.Spec.Hist.nonneg {d : Dims} {dmax : K} {E : World K → Op K → Prop}
    (hE : ∀ w op, E w op → NonnegWeights w op) {w : World K} {g : Ghost} (h : Hist d dmax E w g) :
    ∀ i, Cost.NonnegW (w.costs i) := by
  refine Hist.inv (P := fun w _ => ∀ i, Cost.NonnegW (w.costs i)) ?_ ?_ h
  · rintro w ⟨_, _, h2, _⟩ i r _
    have one : (0 : K) ≤ 1 := zero_le_one
    rcases h2 i with ⟨_, _, e⟩ | ⟨_, _, e⟩ | ⟨_, _, e⟩ | ⟨_, _, _, e⟩ <;> rw [e] <;> exact one
  · intro w w' g op ok hg _ ih ho he hst _ i
    cases hst.costChange i with
    | same e => rw [e]; exact ih i
    | span junk e hsp => exact Cost.autoSpan_nonneg hsp (ih i)
    | weights v e hv =>
      subst e
      exact Cost.setWeights_nonneg hv (hE _ _ he) (ih i)
    | weight x e hv =>
      subst e
      rw [hv]
      intro r _
      exact hE _ _ he
    | init p junk hop hi =>
      have := (Cost.init_frame hi).1
      unfold Cost.NonnegW
      rw [this.weights]; exact ih i
    | update p hop hc =>
      have s := Cost.update_chain_same hc
      unfold Cost.NonnegW
      rw [s.weights]; exact ih i

/-- An object counts as accepted after a call if it did before or was accepted by the call. -/
theorem Ghost.cost_next {g : Ghost} {w : World K} {ok : Prop} {op : Op K} {i : Nat}
    (h : (g.next w ok op).cost i) : g.cost i ∨ (g.next w ok op).fresh i := by
  cases op <;> try exact Or.inl h
  all_goals
    rcases h with h | h
    · exact Or.inl h
    · exact Or.inr (Or.inr h)

theorem Good.update_chain_psd {d : Dims} {ps : PreviewSystem K} (S : SysShape d ps) (hx : ps.x0.rows = d.n) {c c' : Cost K}
    (h : Relation.ReflTransGen (fun a b : Cost K => a.update ps = some b) c c') (hr : Cost.Pre d c)
    (hw : Cost.NonnegW c) (hp : Cost.Accumulates c → PSD (d.m * d.N) c.Q) :
    Cost.Pre d c' ∧ Cost.NonnegW c' ∧ (Cost.Accumulates c' → PSD (d.m * d.N) c'.Q) := by
  induction h with
  | refl => exact ⟨hr, hw, hp⟩
  | tail _ hu ih =>
    obtain ⟨r, nw, p⟩ := ih
    obtain ⟨r', u⟩ := (Cost.update_ok r S hx).of_eq hu
    refine ⟨r'.pre, ?_, fun _ => u.psd r nw p⟩
    unfold Cost.NonnegW
    rw [u.same.weights]; exact nw

/-- Whatever a nonnegatively weighted cost has accumulated is positive semidefinite. -/
theorem _root_.Copra.Spec.Hist.psd {d : Dims} {dmax : K} {E : World K → Op K → Prop}
    (hE : ∀ w op, E w op → NonnegWeights w op) {w : World K} {g : Ghost} (h : Hist d dmax E w g) :
    ∀ i, Cost.NonnegW (w.costs i) ∧ (g.cost i → Cost.Accumulates (w.costs i) → PSD (d.m * d.N) (w.costs i).Q) := by
  refine fun i => ⟨h.nonneg hE i, ?_⟩
  induction h with
  | start _ => intro h; exact h.elim
  | @ok w w' g op hh ho he hst ih => exact step hE hh ho (Or.inl hst) (Or.inl ⟨trivial, hst⟩) ih
  | @thrown w w' g op e hh ho he hst ih => exact step hE hh ho (Or.inr ⟨e, hst⟩) (Or.inr ⟨fun h => h, e, hst⟩) ih
where
  step {d : Dims} {dmax : K} {E : World K → Op K → Prop}
    (hE : ∀ w op, E w op → NonnegWeights w op) {w w' : World K} {g : Ghost} {op : Op K} {ok : Prop} {i : Nat}
    (hh : Hist d dmax E w g) (ho : OpOk d w g op) (hst : Steps dmax w op w')
    (hok : (ok ∧ w.step dmax op = .ok w') ∨ (¬ ok ∧ ∃ e, w.step dmax op = .thrown e w'))
    (ih : g.cost i → Cost.Accumulates (w.costs i) → PSD (d.m * d.N) (w.costs i).Q) :
    (g.next w ok op).cost i → Cost.Accumulates (w'.costs i) → PSD (d.m * d.N) (w'.costs i).Q := by
    intro hc ha
    have hg := hh.good
    have hg' := hg.step ho hok
    have fresh : (g.next w ok op).fresh i → PSD (d.m * d.N) (w'.costs i).Q :=
      fun hf => Cost.PSD.zero (((hg'.fresh i hf).2 ha).1)
    rcases Ghost.cost_next hc with h0 | h0
    · have r0 := hg.costReg i h0
      cases hst.costChange i with
      | same e => rw [e] at ha ⊢; exact ih h0 ha
      | span junk e hsp =>
        have e := Cost.autoSpan_rowsAgree junk r0.rowsAgree
        rw [e] at hsp
        rcases hsp with hsp | ⟨_, hsp⟩
        · injection hsp with hsp
          rw [← hsp] at ha ⊢; exact ih h0 ha
        · cases hsp
      | weights v e hv =>
        obtain ⟨v, e', hv⟩ := Cost.setWeights_frame hv
        rw [e'] at ha ⊢; exact ih h0 ha
      | weight x e hv => rw [hv] at ha ⊢; exact ih h0 ha
      | init p junk hop hi =>
        have S := (hg.sys p (hg.initSysCost ho hop)).1.dims.toSysShape
        rcases hi with hi | ⟨e, hi⟩
        · obtain ⟨_, cl, _⟩ := Cost.reinit_reg S r0 hi
          exact Cost.PSD.zero (cl ha).1
        · obtain ⟨c2, e2, _⟩ := (Cost.init_spec junk S r0.wr (Or.inr r0.data)).1 r0.data.fits
          rw [hi] at e2; cases e2
      | update p hop hch =>
        have hsys : HasSystem w' p := by
          apply (hg.stepSys ho hst).1
          rcases hop with rfl | ⟨_, hp⟩
          · exact ho.2
          · exact (hg.ctl p hp).1
        obtain ⟨s1, s2⟩ := hg'.sys p hsys
        exact (Good.update_chain_psd s1.dims.toSysShape s2 hch r0 (hh.nonneg hE i) (ih h0)).2.2 ha
    · exact fresh h0

/-- A registered cost is updated at least once by a solve. -/
theorem updateCosts_last {ps : PreviewSystem K} {costs costs' : Nat → Cost K} {L : List Nat}
    (h : L.foldlM (updateCost ps) costs = some costs') {i : Nat} (hi : i ∈ L) :
    ∃ c, Relation.ReflTransGen (fun a b : Cost K => a.update ps = some b) (costs i) c ∧ c.update ps = some (costs' i) := by
  induction L using List.reverseRecOn generalizing costs' with
  | nil => exact absurd hi List.not_mem_nil
  | append_singleton L x ih =>
    rw [List.foldlM_append] at h
    simp only [Option.bind_eq_bind, Option.bind_eq_some_iff, List.foldlM_cons, List.foldlM_nil, Option.pure_def,
      Option.some.injEq] at h
    obtain ⟨s, h1, s', h2, rfl⟩ := h
    unfold updateCost at h2
    simp only [Option.bind_eq_bind, Option.bind_eq_some_iff, Option.pure_def, Option.some.injEq] at h2
    obtain ⟨c, hc, rfl⟩ := h2
    by_cases e : i = x
    · subst e
      exact ⟨s i, updateCosts_chain h1 i, by rw [upd_same]; exact hc⟩
    · rw [upd_ne _ _ e]
      refine ih h1 ?_
      rcases List.mem_append.1 hi with hi | hi
      · exact hi
      · exact absurd (List.mem_singleton.1 hi) e

/-- After a solve every registered, nonnegatively weighted cost has a positive semidefinite Hessian. -/
theorem _root_.Copra.Spec.Hist.solve_psd {d : Dims} {dmax : K} {E : World K → Op K → Prop}
    (hE : ∀ w op, E w op → NonnegWeights w op) {w w' : World K} {g : Ghost} (h : Hist d dmax E w g) {env : SolveEnv K}
    (ho : OpOk d w g (.solve env)) {b : Bool} {q : QP K} (hs : w.solve env = some (w', b, q)) :
    ∀ i ∈ w.ctl.spCost, PSD (d.m * d.N) (w'.costs i).Q := by
  intro i hi
  have hg := h.good
  obtain ⟨p, hp, S⟩ := hg.solved ho.2 hs
  have sh := S.heap.sys.dims.toSysShape
  have hx : (w'.pss p).x0.rows = d.n := by rw [S.heap.x0]; exact (hg.sys p (hg.ctl p hp).1).2
  have hk : ∃ ps', w'.pss p = ps' ∧ w.ctl.spCost.foldlM (updateCost ps') w.costs = some w'.costs := by
    obtain ⟨w1, p2, l, s, l', h1, _, hl, _, rfl, rfl, hl', rfl⟩ := solve_inv hs
    obtain ⟨p1, ps, l1, l2, cons, costs, hp1, hps, e1, e2, hc, hk, rfl, f⟩ := updateSystem_inv h1
    rw [hp] at hp1
    cases hp1
    exact ⟨ps, by simp only [upd_same], hk⟩
  obtain ⟨ps', rfl, hk⟩ := hk
  obtain ⟨c, hc1, hc2⟩ := updateCosts_last hk hi
  obtain ⟨n0, p0⟩ := h.psd hE i
  have hgi := hg.subK i hi
  obtain ⟨r, nw, pp⟩ := Good.update_chain_psd sh hx hc1 (hg.costReg i hgi) n0 (p0 hgi)
  obtain ⟨_, u⟩ := (Cost.update_ok r sh hx).of_eq hc2
  exact u.psd r nw pp

end World
end Copra
