import Verif.Proofs.World
import Verif.Props.Costs

/-! # Updating and stacking the registered constraints and costs -/

namespace Copra
open Spec

set_option linter.unusedSectionVars false
set_option linter.unusedSimpArgs false

variable {K : Type} [Field K]

/-! ## Constraints -/

namespace Constr

/-- The matrices are those of the declared data for the current state of the system. -/
structure UpToDate (d : Dims) (ps : PreviewSystem K) (c : Constr K) : Prop where
  rows : c.kind ≠ .ctrlBound → ∀ i < c.nrConstr, RowIs d ps c i (c.row d i)
  bounds : c.kind = .ctrlBound → c.fullSizeEntry = false → ∀ k < d.N, ∀ r < d.m,
    c.lb.e (k * d.m + r) = c.lower.e r ∧ c.ub.e (k * d.m + r) = c.upper.e r

theorem update_upToDate {d : Dims} {ps : PreviewSystem K} {c : Constr K} (h : Reg d c) (S : SysShape d ps)
    (hx : ps.x0.rows = d.n) :
    Ok (c.update ps) fun c' => Reg d c' ∧ Frame c c' ∧ (Suits d ps c' → UpToDate d ps c') := by
  refine (update_raw h S hx).mono ?_
  rintro c' ⟨r, f, h1, h2⟩
  refine ⟨r, f, fun hs => ⟨?_, ?_⟩⟩
  · intro hk i hi
    rw [f.row]
    exact h1 (f.suits.1 hs) (by rw [← f.kind]; exact hk) i (by rw [← f.nr]; exact hi)
  · intro hk hf
    rw [f.lower, f.upper]
    exact h2 (by rw [← f.kind]; exact hk) (by rw [← f.full]; exact hf)

end Constr

namespace World

theorem updateConstrs_raw {d : Dims} {ps : PreviewSystem K} {cons : Nat → Constr K} {L : List Nat}
    (S : SysShape d ps) (hx : ps.x0.rows = d.n) (hr : ∀ i ∈ L, Constr.Reg d (cons i)) :
    Ok (L.foldlM (updateConstr ps) cons) fun cons' => ∀ i,
      (i ∈ L → Constr.Reg d (cons' i) ∧ Constr.Frame (cons i) (cons' i) ∧ (Constr.Suits d ps (cons' i) → Constr.UpToDate d ps (cons' i))) ∧
      (i ∉ L → cons' i = cons i) := by
  refine Ok.foldlM (I := fun done _ cons' => ∀ i,
      (i ∈ done → Constr.Reg d (cons' i) ∧ Constr.Frame (cons i) (cons' i) ∧ (Constr.Suits d ps (cons' i) → Constr.UpToDate d ps (cons' i))) ∧
      (i ∉ done → cons' i = cons i)) ?_ ?_ ?_
  · intro i; exact ⟨fun h => absurd h List.not_mem_nil, fun _ => rfl⟩
  · intro done x rest s hl hI
    have hxL : x ∈ L := by rw [hl]; simp
    have hreg : Constr.Reg d (s x) ∧ Constr.Frame (cons x) (s x) := by
      by_cases hd : x ∈ done
      · exact ⟨((hI x).1 hd).1, ((hI x).1 hd).2.1⟩
      · rw [(hI x).2 hd]; exact ⟨hr x hxL, Constr.Frame.refl _⟩
    unfold updateConstr
    apply Ok.bind
    refine (Constr.update_upToDate hreg.1 S hx).mono ?_
    rintro c' ⟨r', f', u'⟩
    apply Ok.pure'
    intro i
    by_cases e : i = x
    · subst e
      rw [upd_same]
      exact ⟨fun _ => ⟨r', hreg.2.trans f', u'⟩, fun h => absurd (List.mem_append_right _ (List.mem_singleton_self _)) h⟩
    · rw [upd_ne _ _ e]
      refine ⟨fun h => (hI i).1 ?_, fun h => (hI i).2 fun h' => h (List.mem_append_left _ h')⟩
      rcases List.mem_append.1 h with h | h
      · exact h
      · exact absurd (List.mem_singleton.1 h) e
  · exact fun s h => h

theorem updateConstrs_ok {d : Dims} {ps : PreviewSystem K} {cons : Nat → Constr K} {L : List Nat}
    (S : SysShape d ps) (P : SysPred d ps) (hx : ps.x0.rows = d.n) (hr : ∀ i ∈ L, Constr.Reg d (cons i)) :
    Ok (L.foldlM (updateConstr ps) cons) fun cons' => ∀ i,
      (i ∈ L → Constr.Reg d (cons' i) ∧ Constr.Frame (cons i) (cons' i) ∧ Constr.UpToDate d ps (cons' i)) ∧
      (i ∉ L → cons' i = cons i) :=
  (updateConstrs_raw S hx hr).mono fun _ h i =>
    ⟨fun hi => ⟨((h i).1 hi).1, ((h i).1 hi).2.1, ((h i).1 hi).2.2 fun _ _ => P.shifts⟩, (h i).2⟩

end World

/-! ## Costs -/

namespace Cost

/-- The results are those of the declared cost, with nothing accumulated before. -/
structure Entries (d : Dims) (ps : PreviewSystem K) (c : Cost K) : Prop where
  Q : ∀ a < d.m * d.N, ∀ b < d.m * d.N, c.Q.e a b =
    ∑ k ∈ Finset.range (c.steps d), eE c.p.rows c.weights.e (c.T d ps k) (c.T d ps k) a b
  E : ∀ a < d.n, ∀ b < d.m * d.N, c.E.e a b =
    ∑ k ∈ Finset.range (c.steps d), eE c.p.rows c.weights.e (c.P d ps k) (c.T d ps k) a b
  f : ∀ b < d.m * d.N, c.f.e b =
    ∑ k ∈ Finset.range (c.steps d), fE c.p.rows c.weights.e (c.V d ps k) (c.T d ps k) b
  c : ∀ b < d.m * d.N, c.c.e b = (∑ a ∈ Finset.range d.n, c.E.e a b * ps.x0.e a) + c.f.e b

theorem Same.acc {c c' : Cost K} (h : Same c c') : Accumulates c' ↔ Accumulates c := h.frame.acc

theorem Same.steps {c c' : Cost K} {d : Dims} (h : Same c c') : c'.steps d = c.steps d := by
  unfold Cost.steps; rw [h.kind, h.full]

theorem Same.stateRow {c c' : Cost K} {d : Dims} (h : Same c c') : c'.stateRow d = c.stateRow d := by
  unfold Cost.stateRow; rw [h.kind, h.full, h.M]

theorem Same.ctrlRow {c c' : Cost K} {d : Dims} (h : Same c c') : c'.ctrlRow d = c.ctrlRow d := by
  unfold Cost.ctrlRow; rw [h.kind, h.full, h.N]

theorem Same.T {c c' : Cost K} {d : Dims} {ps : PreviewSystem K} (h : Same c c') : c'.T d ps = c.T d ps := by
  unfold Cost.T; rw [h.stateRow, h.ctrlRow]

theorem Same.P {c c' : Cost K} {d : Dims} {ps : PreviewSystem K} (h : Same c c') : c'.P d ps = c.P d ps := by
  unfold Cost.P; rw [h.stateRow]

theorem Same.V {c c' : Cost K} {d : Dims} {ps : PreviewSystem K} (h : Same c c') : c'.V d ps = c.V d ps := by
  unfold Cost.V; rw [h.stateRow, h.p]

theorem Updated.entries {d : Dims} {ps : PreviewSystem K} {c c' : Cost K} (hu : Updated d ps c c') (hc : Clean d c) :
    Entries d ps c' := by
  have s := hu.same
  refine ⟨?_, ?_, ?_, hu.lin hc⟩
  · intro a ha b hb
    rw [hu.Q a ha b hb, s.steps, s.p, s.weights, s.T]
    split
    · next h => rw [(hc h).1 a ha b hb, zero_add]
    · rw [zero_add]
  · intro a ha b hb
    rw [hu.E a ha b hb, s.steps, s.p, s.weights, s.T, s.P]
    split
    · next h => rw [(hc h).2.1 a ha b hb, zero_add]
    · rw [zero_add]
  · intro b hb
    rw [hu.f b hb, s.steps, s.p, s.weights, s.T, s.V]
    split
    · next h => rw [(hc h).2.2.1 b hb, zero_add]
    · rw [zero_add]

/-- The value of the results, for any description `X` of the predicted trajectory. -/
theorem Entries.form {d : Dims} {ps : PreviewSystem K} {c : Cost K} (h2 : (2 : K) ≠ 0) (h : Entries d ps c)
    (hr : Reg d c) {X : (Nat → K) → (Nat → K) → Nat → Nat → K}
    (h1 : ∀ x U, ∀ k ≤ d.N, ∀ r < d.n, predF d ps x U (k * d.n + r) = X x U k r) (x U : Nat → K) :
    c.formValue d x U = 1 / 2 * (c.userData.value d (X x U) U - c.userData.value d (X x fun _ => 0) fun _ => 0) := by
  rw [value_of hr.pre (h1 x U), value_of hr.pre (h1 x _), ← terms_value h2]
  unfold formValue
  congr 1
  · congr 1
    apply Finset.sum_congr rfl; intro i hi
    apply Finset.sum_congr rfl; intro j hj
    rw [h.Q i (Finset.mem_range.1 hi) j (Finset.mem_range.1 hj)]
  · apply Finset.sum_congr rfl; intro j hj
    rw [h.f j (Finset.mem_range.1 hj)]
    congr 2
    apply Finset.sum_congr rfl; intro i hi
    rw [h.E i (Finset.mem_range.1 hi) j (Finset.mem_range.1 hj)]

theorem Entries.quad {d : Dims} {ps : PreviewSystem K} {c : Cost K} (h : Entries d ps c) (U : Nat → K) :
    quadValue (d.m * d.N) c.Q c.c U = c.formValue d ps.x0.e U := by
  unfold quadValue formValue
  congr 1
  apply Finset.sum_congr rfl; intro j hj
  rw [h.c j (Finset.mem_range.1 hj)]

theorem Entries.exact {d : Dims} {ps : PreviewSystem K} {c : Cost K} (h2 : (2 : K) ≠ 0) (h : Entries d ps c)
    (hr : Reg d c) (P : SysPred d ps) : CostExact d ps c c.userData := by
  have joint := h.form h2 hr (X := sim d ps.A ps.B ps.d) fun x U _ hk _ hr => predF_sim P x U hk hr
  refine ⟨⟨hr.sizes.Qr, hr.sizes.Qc, hr.sizes.cr, hr.sizes.Er, hr.sizes.Ec, hr.sizes.fr⟩, ?_, joint⟩
  intro U
  rw [← joint ps.x0.e U]
  exact h.quad U

end Cost

namespace World

/-- After the cost loop of one solve. -/
theorem updateCosts_ok {d : Dims} {ps : PreviewSystem K} {costs : Nat → Cost K} {L : List Nat}
    (S : SysShape d ps) (hx : ps.x0.rows = d.n) (hr : ∀ i ∈ L, Cost.Pre d (costs i)) :
    Ok (L.foldlM (updateCost ps) costs) fun costs' => ∀ i,
      (i ∈ L → Cost.Reg d (costs' i) ∧ Cost.Same (costs i) (costs' i) ∧
        (Cost.Clean d (costs i) → (Cost.Accumulates (costs i) → L.count i ≤ 1) → Cost.Entries d ps (costs' i))) ∧
      (i ∉ L → costs' i = costs i) := by
  refine Ok.foldlM (I := fun done _ costs' => ∀ i,
      (i ∈ done → Cost.Reg d (costs' i) ∧ Cost.Same (costs i) (costs' i) ∧
        (Cost.Clean d (costs i) → (Cost.Accumulates (costs i) → L.count i ≤ 1) → Cost.Entries d ps (costs' i))) ∧
      (i ∉ done → costs' i = costs i)) ?_ ?_ ?_
  · intro i; exact ⟨fun h => absurd h List.not_mem_nil, fun _ => rfl⟩
  · intro done x rest s hl hI
    have hxL : x ∈ L := by rw [hl]; simp
    have hreg : Cost.Pre d (s x) ∧ Cost.Same (costs x) (s x) ∧
        (Cost.Clean d (costs x) → (Cost.Accumulates (costs x) → L.count x ≤ 1) → Cost.Clean d (s x)) := by
      by_cases hd : x ∈ done
      · refine ⟨((hI x).1 hd).1.pre, ((hI x).1 hd).2.1, fun _ hc ha => ?_⟩
        have := hc ((((hI x).1 hd).2.1).acc.1 ha)
        rw [hl, List.count_append, List.count_cons_self] at this
        have := List.count_pos_iff.2 hd
        omega
      · rw [(hI x).2 hd]; exact ⟨hr x hxL, Cost.Same.refl _, fun h _ => h⟩
    unfold updateCost
    apply Ok.bind
    refine (Cost.update_ok hreg.1 S hx).mono ?_
    rintro c' ⟨r', u'⟩
    apply Ok.pure'
    intro i
    by_cases e : i = x
    · subst e
      rw [upd_same]
      exact ⟨fun _ => ⟨r', hreg.2.1.trans u'.same, fun h1 h2 => u'.entries (hreg.2.2 h1 h2)⟩,
        fun h => absurd (List.mem_append_right _ (List.mem_singleton_self _)) h⟩
    · rw [upd_ne _ _ e]
      refine ⟨fun h => (hI i).1 ?_, fun h => (hI i).2 fun h' => h (List.mem_append_left _ h')⟩
      rcases List.mem_append.1 h with h | h
      · exact h
      · exact absurd (List.mem_singleton.1 h) e
  · exact fun s h => h

/-- The cost loop keeps every predicate that single updates keep. -/
theorem updateCosts_inv {ps : PreviewSystem K} {costs costs' : Nat → Cost K} {L : List Nat} {R : Nat → Cost K → Prop}
    (h : L.foldlM (updateCost ps) costs = some costs') (h0 : ∀ i, R i (costs i))
    (hs : ∀ i ∈ L, ∀ c c', R i c → c.update ps = some c' → R i c') : ∀ i, R i (costs' i) := by
  induction L generalizing costs with
  | nil => simp only [List.foldlM_nil, Option.pure_def, Option.some.injEq] at h; rw [← h]; exact h0
  | cons x L ih =>
    rw [List.foldlM_cons, Option.bind_eq_bind, Option.bind_eq_some_iff] at h
    obtain ⟨s, h1, h2⟩ := h
    refine ih h2 ?_ (fun i hi => hs i (List.mem_cons_of_mem _ hi))
    unfold updateCost at h1
    simp only [Option.bind_eq_bind, Option.bind_eq_some_iff, Option.pure_def, Option.some.injEq] at h1
    obtain ⟨c', hc, rfl⟩ := h1
    intro i
    by_cases e : i = x
    · subst e; rw [upd_same]; exact hs i List.mem_cons_self _ _ (h0 i) hc
    · rw [upd_ne _ _ e]; exact h0 i

end World

/-! ## Stacking -/

/-- Total number of rows of a list of constraints. -/
def total (sz : Nat → Nat) (L : List Nat) : Nat := (L.map sz).sum

@[simp] theorem total_nil (sz : Nat → Nat) : total sz [] = 0 := rfl
theorem total_append (sz : Nat → Nat) (a b : List Nat) : total sz (a ++ b) = total sz a + total sz b := by
  simp [total]
@[simp] theorem total_cons (sz : Nat → Nat) (i : Nat) (L : List Nat) : total sz (i :: L) = sz i + total sz L := by
  simp [total]

theorem total_congr {sz sz' : Nat → Nat} {L : List Nat} (h : ∀ i ∈ L, sz i = sz' i) : total sz L = total sz' L := by
  unfold total; rw [List.map_congr_left h]

/-- `A`, `b` are the rows `F i`, `g i` of the listed constraints, one below the other. -/
structure Stack (L : List Nat) (sz : Nat → Nat) (F : Nat → Nat → Nat → K) (g : Nat → Nat → Ext K) (wd : Nat)
    (A : Mat K) (b : Vec (Ext K)) : Prop where
  rows : A.rows = total sz L
  cols : A.cols = wd
  brows : b.rows = total sz L
  at_ : ∀ pre i post, L = pre ++ i :: post → ∀ r < sz i,
    (∀ j < wd, A.e (total sz pre + r) j = F i r j) ∧ b.e (total sz pre + r) = g i r

theorem stack_ok {f : Nat × Mat K × Vec (Ext K) → Nat → Option (Nat × Mat K × Vec (Ext K))} {L : List Nat}
    {sz : Nat → Nat} {F : Nat → Nat → Nat → K} {g : Nat → Nat → Ext K} {cols : Nat}
    (hf : ∀ i ∈ L, ∀ nr A b, A.cols = cols → nr + sz i ≤ A.rows → b.rows = A.rows →
      Ok (f (nr, A, b) i) fun s => s.1 = nr + sz i ∧ s.2.1.rows = A.rows ∧ s.2.1.cols = cols ∧
        s.2.2.rows = A.rows ∧
        (∀ r < sz i, (∀ j < cols, s.2.1.e (nr + r) j = F i r j) ∧ s.2.2.e (nr + r) = g i r) ∧
        (∀ r < nr, (∀ j < cols, s.2.1.e r j = A.e r j) ∧ s.2.2.e r = b.e r))
    {A0 : Mat K} {b0 : Vec (Ext K)} (hr : A0.rows = total sz L) (hc : A0.cols = cols) (hb : b0.rows = total sz L) :
    Ok (L.foldlM f (0, A0, b0)) fun s => Stack L sz F g cols s.2.1 s.2.2 := by
  refine Ok.foldlM (I := fun done _ s => s.1 = total sz done ∧ s.2.1.rows = total sz L ∧ s.2.1.cols = cols ∧
      s.2.2.rows = total sz L ∧ ∀ pre i post, done = pre ++ i :: post → ∀ r < sz i,
        (∀ j < cols, s.2.1.e (total sz pre + r) j = F i r j) ∧ s.2.2.e (total sz pre + r) = g i r) ?_ ?_ ?_
  · refine ⟨rfl, hr, hc, hb, ?_⟩
    intro pre i post h
    simp at h
  · rintro done x rest ⟨nr, A, b⟩ hl ⟨h1, h2, h3, h4, h5⟩
    simp only at h1 h2 h3 h4 h5
    have ht : total sz done + sz x ≤ total sz L := by rw [hl, total_append, total_cons]; omega
    refine (hf x (by rw [hl]; simp) nr A b h3 (by rw [h1, h2]; exact ht) (by rw [h2, h4])).mono ?_
    rintro ⟨nr', A', b'⟩ ⟨g1, g2, g3, g4, g5, g6⟩
    simp only at g1 g2 g3 g4 g5 g6
    refine ⟨?_, g2.trans h2, g3, by rw [g4, h2], ?_⟩
    · show nr' = _
      rw [g1, h1, total_append]; simp
    intro pre i post he r hri
    rcases List.eq_nil_or_concat post with rfl | ⟨post', y, rfl⟩
    · have e : pre = done ∧ i = x := by
        have := List.append_inj' he rfl
        exact ⟨this.1.symm, by simpa using this.2.symm⟩
      obtain ⟨rfl, rfl⟩ := e
      have := g5 r hri
      rw [h1] at this
      exact this
    · have e : done = pre ++ i :: post' := by
        have : done ++ [x] = (pre ++ i :: post') ++ [y] := by rw [he]; simp
        exact (List.append_inj' this rfl).1
      have hlt : total sz pre + r < nr := by
        rw [h1, e, total_append, total_cons]; omega
      obtain ⟨a1, a2⟩ := g6 _ hlt
      obtain ⟨b1, b2⟩ := h5 pre i post' e r hri
      exact ⟨fun j hj => (a1 j hj).trans (b1 j hj), a2.trans b2⟩
  · rintro ⟨nr, A, b⟩ ⟨_, h2, h3, h4, h5⟩
    exact ⟨h2, h3, h4, h5⟩

/-- A property of all stacked rows is a property of all rows of all constraints. -/
theorem forall_stack {sz : Nat → Nat} {P : Nat → Prop} : ∀ (L : List Nat),
    (∀ t < total sz L, P t) ↔ ∀ pre i post, L = pre ++ i :: post → ∀ r < sz i, P (total sz pre + r) := by
  intro L
  constructor
  · rintro h pre i post rfl r hr
    apply h
    rw [total_append, total_cons]; omega
  · intro h
    have key : ∀ (post pre : List Nat), L = pre ++ post → ∀ t < total sz post, P (total sz pre + t) := by
      intro post
      induction post with
      | nil => intro pre _ t ht; simp at ht
      | cons x post ih =>
        intro pre hl t ht
        rw [total_cons] at ht
        by_cases hx : t < sz x
        · exact h pre x post hl t hx
        · have := ih (pre ++ [x]) (by rw [hl]; simp) (t - sz x) (by omega)
          rw [total_append] at this
          have e : total sz pre + total sz [x] + (t - sz x) = total sz pre + t := by simp; omega
          rwa [e] at this
    intro t ht
    have := key L [] rfl t ht
    simpa using this

/-- What all the stacked rows say. -/
theorem Stack.forall {L : List Nat} {sz : Nat → Nat} {F : Nat → Nat → Nat → K} {g : Nat → Nat → Ext K} {cols : Nat}
    {A : Mat K} {b : Vec (Ext K)} (h : Stack L sz F g cols A b) (R : K → Ext K → Prop) (x : Nat → K) :
    (∀ t < A.rows, R (rowValue A x t) (b.e t)) ↔
      ∀ i ∈ L, ∀ r < sz i, R (∑ j ∈ Finset.range cols, F i r j * x j) (g i r) := by
  rw [h.rows, forall_stack (P := fun t => R (rowValue A x t) (b.e t))]
  have e : ∀ pre i post, L = pre ++ i :: post → ∀ r < sz i,
      (R (rowValue A x (total sz pre + r)) (b.e (total sz pre + r)) ↔
        R (∑ j ∈ Finset.range cols, F i r j * x j) (g i r)) := by
    intro pre i post hl r hr
    obtain ⟨h1, h2⟩ := h.at_ pre i post hl r hr
    have : rowValue A x (total sz pre + r) = ∑ j ∈ Finset.range cols, F i r j * x j := by
      unfold rowValue
      rw [h.cols]
      apply Finset.sum_congr rfl; intro j hj
      rw [h1 j (Finset.mem_range.1 hj)]
    rw [this, h2]
  constructor
  · intro H i hi r hr
    obtain ⟨pre, post, hl⟩ := List.append_of_mem hi
    exact (e pre i post hl r hr).1 (H pre i post hl r hr)
  · intro H pre i post hl r hr
    exact (e pre i post hl r hr).2 (H i (by rw [hl]; simp) r hr)

namespace LMPC

theorem putRows_ok {d : Dims} {cons : Nat → Constr K} {ps : PreviewSystem K} {L : List Nat} (S : SysShape d ps)
    (hz : ∀ i ∈ L, Constr.RowSizes d (cons i)) {A0 : Mat K} {b0 : Vec (Ext K)}
    (hr : A0.rows = total (fun i => (cons i).nrConstr) L) (hc : A0.cols = d.m * d.N)
    (hb : b0.rows = total (fun i => (cons i).nrConstr) L) :
    Ok (L.foldlM (putRows cons ps) (0, A0, b0)) fun s =>
      Stack L (fun i => (cons i).nrConstr) (fun i => (cons i).A.e) (fun i => (cons i).b.e) (d.m * d.N) s.2.1 s.2.2 := by
  refine stack_ok ?_ hr hc hb
  intro i hi nr A b hA hn hbr
  have Z := hz i hi
  unfold putRows
  simp only [S.fullU]
  apply Ok.bind; apply Ok.setBlock? hn (by rw [hA]; omega) Z.Ar Z.Ac
  apply Ok.bind; apply Ok.setSegment? (by rw [hbr]; exact hn) Z.br
  apply Ok.pure'
  refine ⟨rfl, rfl, hA, hbr, ?_, ?_⟩
  · intro r hr
    refine ⟨fun j hj => ?_, ?_⟩
    · show (A.setBlock nr 0 (cons i).nrConstr (d.m * d.N) (cons i).A).e (nr + r) j = _
      rw [Mat.setBlock_e, if_pos ⟨by omega, by omega, by omega, by omega⟩]
      congr 1; omega
    · show (b.setSegment nr (cons i).nrConstr (cons i).b).e (nr + r) = _
      rw [Vec.setSegment_e, if_pos ⟨by omega, by omega⟩]
      congr 1; omega
  · intro r hr
    refine ⟨fun j hj => ?_, ?_⟩
    · show (A.setBlock nr 0 (cons i).nrConstr (d.m * d.N) (cons i).A).e r j = _
      rw [Mat.setBlock_e, if_neg (by omega)]
    · show (b.setSegment nr (cons i).nrConstr (cons i).b).e r = _
      rw [Vec.setSegment_e, if_neg (by omega)]

theorem putRowsInit_ok {d : Dims} {cons : Nat → Constr K} {ps : PreviewSystem K} {L : List Nat} (S : SysShape d ps)
    (hz : ∀ i ∈ L, Constr.RowSizes d (cons i)) {A0 : Mat K} {b0 : Vec (Ext K)}
    (hr : A0.rows = total (fun i => (cons i).nrConstr) L) (hc : A0.cols = d.n + d.m * d.N)
    (hb : b0.rows = total (fun i => (cons i).nrConstr) L) :
    Ok (L.foldlM (putRowsInit cons ps) (0, A0, b0)) fun s =>
      Stack L (fun i => (cons i).nrConstr)
        (fun i r j => if j < d.n then (cons i).Y.e r j else (cons i).A.e r (j - d.n))
        (fun i => (cons i).z.e) (d.n + d.m * d.N) s.2.1 s.2.2 := by
  refine stack_ok ?_ hr hc hb
  intro i hi nr A b hA hn hbr
  have Z := hz i hi
  unfold putRowsInit
  simp only [S.fullU, S.xDim]
  apply Ok.bind; apply Ok.setBlock? hn (by rw [hA]; omega) Z.Yr Z.Yc
  apply Ok.bind; apply Ok.setBlock? (by exact hn) (by rw [Mat.setBlock_cols, hA]) Z.Ar Z.Ac
  apply Ok.bind; apply Ok.setSegment? (by rw [hbr]; exact hn) Z.zr
  apply Ok.pure'
  refine ⟨rfl, rfl, hA, hbr, ?_, ?_⟩
  · intro r hr
    refine ⟨fun j hj => ?_, ?_⟩
    · show ((A.setBlock nr 0 (cons i).nrConstr d.n (cons i).Y).setBlock nr d.n (cons i).nrConstr (d.m * d.N)
        (cons i).A).e (nr + r) j = _
      rw [Mat.setBlock_e, Mat.setBlock_e]
      by_cases hj' : j < d.n
      · rw [if_neg (by omega), if_pos ⟨by omega, by omega, by omega, by omega⟩, if_pos hj']
        congr 1; omega
      · rw [if_pos ⟨by omega, by omega, by omega, by omega⟩, if_neg hj']
        congr 1; omega
    · show (b.setSegment nr (cons i).nrConstr (cons i).z).e (nr + r) = _
      rw [Vec.setSegment_e, if_pos ⟨by omega, by omega⟩]
      congr 1; omega
  · intro r hr
    refine ⟨fun j hj => ?_, ?_⟩
    · show ((A.setBlock nr 0 (cons i).nrConstr d.n (cons i).Y).setBlock nr d.n (cons i).nrConstr (d.m * d.N)
        (cons i).A).e r j = _
      rw [Mat.setBlock_e, Mat.setBlock_e, if_neg (by omega), if_neg (by omega)]
    · show (b.setSegment nr (cons i).nrConstr (cons i).z).e r = _
      rw [Vec.setSegment_e, if_neg (by omega)]

/-- The bound loop, with at most one bound constraint. -/
theorem putBounds_ok {d : Dims} {cons : Nat → Constr K} {L : List Nat} (hL : L.length ≤ 1)
    (hz : ∀ i ∈ L, Constr.RegCtrlBound d (cons i)) {off : Nat} {lb ub : Vec (Ext K)}
    (hl : lb.rows = off + d.m * d.N) (hu : ub.rows = off + d.m * d.N) :
    Ok (L.foldlM (putBounds cons) (off, lb, ub)) fun s =>
      s.2.1.rows = off + d.m * d.N ∧ s.2.2.rows = off + d.m * d.N ∧
      (∀ j < off, s.2.1.e j = lb.e j ∧ s.2.2.e j = ub.e j) ∧
      (L = [] → s.2.1 = lb ∧ s.2.2 = ub) ∧
      ∀ i, L = [i] → ∀ j < d.m * d.N, s.2.1.e (off + j) = (cons i).lb.e j ∧ s.2.2.e (off + j) = (cons i).ub.e j := by
  match L, hL, hz with
  | [], _, _ =>
    exact Ok.pure' ⟨hl, hu, fun _ _ => ⟨rfl, rfl⟩, fun _ => ⟨rfl, rfl⟩, fun i h => by simp at h⟩
  | [i], _, hz =>
    have Z := hz i (List.mem_singleton_self _)
    rw [List.foldlM_cons]
    unfold putBounds
    simp only [Z.nr]
    apply Ok.bind
    apply Ok.bind; apply Ok.setSegment? (by rw [hl]) Z.lbr
    apply Ok.bind; apply Ok.setSegment? (by rw [hu]) Z.ubr
    apply Ok.pure'
    rw [List.foldlM_nil]
    apply Ok.pure'
    refine ⟨hl, hu, ?_, fun h => by simp at h, ?_⟩
    · intro j hj
      simp only [Vec.setSegment_e]
      rw [if_neg (by omega), if_neg (by omega)]; exact ⟨rfl, rfl⟩
    · intro i' h j hj
      have : i = i' := by simpa using h
      subst this
      simp only [Vec.setSegment_e]
      rw [if_pos ⟨by omega, by omega⟩, if_pos ⟨by omega, by omega⟩]
      simp
  | _ :: _ :: _, h, _ => simp at h

/-- The cost loop of the plain controller. -/
theorem addCosts_ok {d : Dims} {costs : Nat → Cost K} {L : List Nat} {l : LMPC K}
    (hz : ∀ i ∈ L, Cost.Sizes d (costs i)) (h1 : l.Q.rows = d.m * d.N) (h2 : l.Q.cols = d.m * d.N)
    (h3 : l.c.rows = d.m * d.N) :
    Ok (L.foldlM (addCostTerms costs) l) fun l' => l' = { l with Q := l'.Q, c := l'.c } ∧
      l'.Q.rows = d.m * d.N ∧ l'.Q.cols = d.m * d.N ∧ l'.c.rows = d.m * d.N ∧
      (∀ a b, l'.Q.e a b = l.Q.e a b + (L.map fun i => (costs i).Q.e a b).sum) ∧
      ∀ a, l'.c.e a = l.c.e a + (L.map fun i => (costs i).c.e a).sum := by
  refine Ok.foldlM (I := fun done _ l' => l' = { l with Q := l'.Q, c := l'.c } ∧
      l'.Q.rows = d.m * d.N ∧ l'.Q.cols = d.m * d.N ∧ l'.c.rows = d.m * d.N ∧
      (∀ a b, l'.Q.e a b = l.Q.e a b + (done.map fun i => (costs i).Q.e a b).sum) ∧
      ∀ a, l'.c.e a = l.c.e a + (done.map fun i => (costs i).c.e a).sum) ?_ ?_ ?_
  · exact ⟨rfl, h1, h2, h3, fun a b => by simp, fun a => by simp⟩
  · rintro done x rest s hl ⟨i1, i2, i3, i4, i5, i6⟩
    have Z := hz x (by rw [hl]; simp)
    unfold addCostTerms
    apply Ok.bind; apply Ok.add? (by rw [i2, Z.Qr]) (by rw [i3, Z.Qc])
    apply Ok.bind; apply Ok.vadd? (by rw [i4, Z.cr])
    apply Ok.pure'
    refine ⟨?_, i2, i3, i4, ?_, ?_⟩
    · rw [i1]
    · intro a b
      show s.Q.e a b + _ = _
      rw [i5]; simp [add_assoc]
    · intro a
      show s.c.e a + _ = _
      rw [i6]; simp [add_assoc]
  · exact fun s h => h

theorem cornerOff_ok {d n : Nat} (h : n ≤ d) : cornerOff d n = some (d - n) := if_pos h

/-- The cost loop of the initial-state controller. -/
theorem addCostsInit_ok {d : Dims} {costs : Nat → Cost K} {ps : PreviewSystem K} {L : List Nat} {l : LMPC K}
    (S : SysShape d ps) (hz : ∀ i ∈ L, Cost.Sizes d (costs i)) (h1 : l.Q.rows = d.n + d.m * d.N)
    (h2 : l.Q.cols = d.n + d.m * d.N) (h3 : l.c.rows = d.n + d.m * d.N) :
    Ok (L.foldlM (addCostTermsInit costs ps) l) fun l' => l' = { l with Q := l'.Q, c := l'.c } ∧
      l'.Q.rows = d.n + d.m * d.N ∧ l'.Q.cols = d.n + d.m * d.N ∧ l'.c.rows = d.n + d.m * d.N ∧
      (∀ a < d.m * d.N, ∀ b < d.m * d.N,
        l'.Q.e (d.n + a) (d.n + b) = l.Q.e (d.n + a) (d.n + b) + (L.map fun i => (costs i).Q.e a b).sum) ∧
      (∀ a < d.n, ∀ b < d.m * d.N,
        l'.Q.e a (d.n + b) = l.Q.e a (d.n + b) + (L.map fun i => (costs i).E.e a b).sum) ∧
      ∀ a < d.m * d.N, l'.c.e (d.n + a) = l.c.e (d.n + a) + (L.map fun i => (costs i).f.e a).sum := by
  refine Ok.foldlM (I := fun done _ l' => l' = { l with Q := l'.Q, c := l'.c } ∧
      l'.Q.rows = d.n + d.m * d.N ∧ l'.Q.cols = d.n + d.m * d.N ∧ l'.c.rows = d.n + d.m * d.N ∧
      (∀ a < d.m * d.N, ∀ b < d.m * d.N,
        l'.Q.e (d.n + a) (d.n + b) = l.Q.e (d.n + a) (d.n + b) + (done.map fun i => (costs i).Q.e a b).sum) ∧
      (∀ a < d.n, ∀ b < d.m * d.N,
        l'.Q.e a (d.n + b) = l.Q.e a (d.n + b) + (done.map fun i => (costs i).E.e a b).sum) ∧
      ∀ a < d.m * d.N, l'.c.e (d.n + a) = l.c.e (d.n + a) + (done.map fun i => (costs i).f.e a).sum) ?_ ?_ ?_
  · exact ⟨rfl, h1, h2, h3, fun a _ b _ => by simp, fun a _ b _ => by simp, fun a _ => by simp⟩
  · rintro done x rest s hl ⟨i1, i2, i3, i4, i5, i6, i7⟩
    have Z := hz x (by rw [hl]; simp)
    unfold addCostTermsInit
    rw [S.fullU, S.xDim, i2, i3, i4, cornerOff_ok (by omega), Nat.add_sub_cancel]
    simp only [Option.bind_eq_bind, Option.bind_some]
    apply Ok.bind; apply Ok.addBlock? (by rw [i2]) (by rw [i3]) Z.Qr Z.Qc
    apply Ok.bind; apply Ok.addBlock? (by rw [Mat.setBlock_rows, i2]; omega) (by rw [Mat.setBlock_cols, i3]) Z.Er Z.Ec
    apply Ok.bind; apply Ok.addSegment? (by rw [i4]) Z.fr
    apply Ok.pure'
    refine ⟨?_, i2, i3, i4, ?_, ?_, ?_⟩
    · rw [i1]
    · intro a ha b hb
      simp only [Mat.setBlock_e, Mat.add_e, Mat.block_e]
      rw [if_neg (by omega), if_pos ⟨by omega, by omega, by omega, by omega⟩]
      rw [show d.n + (d.n + a - d.n) = d.n + a by omega, show d.n + (d.n + b - d.n) = d.n + b by omega,
        show d.n + a - d.n = a by omega, show d.n + b - d.n = b by omega, i5 a ha b hb]
      simp [add_assoc]
    · intro a ha b hb
      simp only [Mat.setBlock_e, Mat.add_e, Mat.block_e]
      rw [if_pos ⟨by omega, by omega, by omega, by omega⟩]
      rw [show 0 + (a - 0) = a by omega, show d.n + (d.n + b - d.n) = d.n + b by omega,
        show a - 0 = a by omega, show d.n + b - d.n = b by omega, if_neg (by omega), i6 a ha b hb]
      simp [add_assoc]
    · intro a ha
      simp only [Vec.setSegment_e, Vec.add_e, Vec.segment_e]
      rw [if_pos ⟨by omega, by omega⟩, show d.n + (d.n + a - d.n) = d.n + a by omega,
        show d.n + a - d.n = a by omega, i7 a ha]
      simp [add_assoc]
  · exact fun s h => h

end LMPC
end Copra
