import Verif.Proofs.Determined
import Verif.Props.System

/-! # The problem handed to the solver is a function of the declared data -/

namespace Copra
open Spec

set_option linter.unusedSectionVars false
set_option linter.unusedSimpArgs false

variable {K : Type} [Field K]

/-! ## Stacks of rows -/

theorem total_forall₂ {sz sz' : Nat → Nat} {L L' : List Nat} (h : List.Forall₂ (fun i j => sz i = sz' j) L L') :
    total sz L = total sz' L' := by
  induction h with
  | nil => rfl
  | cons h _ ih => rw [total_cons, total_cons, h, ih]

theorem forall₂_split {R : Nat → Nat → Prop} {L L' : List Nat} (h : List.Forall₂ R L L') :
    ∀ pre i post, L = pre ++ i :: post → ∃ pre' i' post', L' = pre' ++ i' :: post' ∧ List.Forall₂ R pre pre' ∧ R i i' := by
  induction h with
  | nil => intro pre i post h; simp at h
  | @cons a b l l' hab _ ih =>
    intro pre i post h
    cases pre with
    | nil =>
      simp only [List.nil_append, List.cons.injEq] at h
      obtain ⟨rfl, rfl⟩ := h
      exact ⟨[], b, l', rfl, .nil, hab⟩
    | cons x pre =>
      simp only [List.cons_append, List.cons.injEq] at h
      obtain ⟨rfl, h⟩ := h
      obtain ⟨pre', i', post', e, h1, h2⟩ := ih pre i post h
      exact ⟨b :: pre', i', post', by rw [e]; rfl, .cons hab h1, h2⟩

theorem Stack.unique {L L' : List Nat} {sz sz' : Nat → Nat} {F F' : Nat → Nat → Nat → K} {g g' : Nat → Nat → Ext K} {wd : Nat}
    {A A' : Mat K} {b b' : Vec (Ext K)} (S : Stack L sz F g wd A b) (S' : Stack L' sz' F' g' wd A' b')
    (h : List.Forall₂ (fun i j => sz i = sz' j ∧ ∀ r < sz i, (∀ k < wd, F i r k = F' j r k) ∧ g i r = g' j r) L L') :
    MatEq A A' ∧ VecEq b b' := by
  have ht := total_forall₂ (h.imp fun _ _ h => h.1)
  have key : ∀ t < total sz L, (∀ k < wd, A.e t k = A'.e t k) ∧ b.e t = b'.e t := by
    rw [forall_stack]
    intro pre i post e r hr
    obtain ⟨pre', i', post', e', h1, h2, h3⟩ := forall₂_split h pre i post e
    have hp := total_forall₂ (h1.imp fun _ _ h => h.1)
    obtain ⟨s1, s2⟩ := S.at_ pre i post e r hr
    obtain ⟨s1', s2'⟩ := S'.at_ pre' i' post' e' r (by rw [← h2]; exact hr)
    rw [← hp] at s1' s2'
    obtain ⟨c1, c2⟩ := h3 r hr
    refine ⟨fun k hk => ?_, ?_⟩
    · rw [s1 k hk, s1' k hk, c1 k hk]
    · rw [s2, s2', c2]
  refine ⟨⟨?_, ?_, ?_⟩, ?_, ?_⟩
  · rw [S.rows, S'.rows, ht]
  · rw [S.cols, S'.cols]
  · intro i hi j hj
    rw [S.rows] at hi; rw [S.cols] at hj
    exact (key i hi).1 j hj
  · rw [S.brows, S'.brows, ht]
  · intro i hi
    rw [S.brows] at hi
    exact (key i hi).2

theorem sum_forall₂ {f g : Nat → K} {L L' : List Nat} (h : List.Forall₂ (fun i j => f i = g j) L L') :
    (L.map f).sum = (L'.map g).sum := by
  induction h with
  | nil => rfl
  | cons h _ ih => simp only [List.map_cons, List.sum_cons, h, ih]

theorem filter_forall₂ {R : Nat → Nat → Prop} {P P' : Nat → Bool} {L L' : List Nat} (h : List.Forall₂ R L L')
    (hp : ∀ i j, R i j → P i = P' j) : List.Forall₂ R (L.filter P) (L'.filter P') := by
  induction h with
  | nil => exact .nil
  | @cons a b _ _ h _ ih =>
    have := hp a b h
    cases hq : P' b
    · rw [List.filter_cons_of_neg (by rw [this, hq]; exact Bool.false_ne_true), List.filter_cons_of_neg (by rw [hq]; exact Bool.false_ne_true)]
      exact ih
    · rw [List.filter_cons_of_pos (by rw [this, hq]), List.filter_cons_of_pos hq]
      exact .cons h ih

/-! ## Rows and cost terms -/

/-- Two preview systems with the same predictions and initial state. -/
structure SysEq (d : Dims) (ps ps' : PreviewSystem K) : Prop where
  phi : ∀ s < d.n * (d.N + 1), ∀ c < d.n, ps.Phi.e s c = ps'.Phi.e s c
  psi : ∀ s < d.n * (d.N + 1), ∀ c < d.m * d.N, ps.Psi.e s c = ps'.Psi.e s c
  xi : ∀ s < d.n * (d.N + 1), ps.xi.e s = ps'.xi.e s
  x0 : ∀ j < d.n, ps.x0.e j = ps'.x0.e j

theorem RowIs.unique {d : Dims} {ps ps' : PreviewSystem K} {c c' : Constr K} {i : Nat} {ρ ρ' : Row K} (h : RowIs d ps c i ρ)
    (h' : RowIs d ps' c' i ρ') (e : RowEq d ρ ρ') (s : SysEq d ps ps') :
    (∀ j < d.m * d.N, c.A.e i j = c'.A.e i j) ∧ (∀ j < d.n, c.Y.e i j = c'.Y.e i j) ∧ c.z.e i = c'.z.e i ∧ c.b.e i = c'.b.e i := by
  have g := h.of_eq e
  have hA : ∀ j < d.m * d.N, c.A.e i j = c'.A.e i j := by
    intro j hj
    rw [g.A j hj, h'.A j hj]
    congr 1
    apply Finset.sum_congr rfl; intro t ht
    rw [s.psi t (Finset.mem_range.1 ht) j hj]
  have hY : ∀ j < d.n, c.Y.e i j = c'.Y.e i j := by
    intro j hj
    rw [g.Y j hj, h'.Y j hj]
    apply Finset.sum_congr rfl; intro t ht
    rw [s.phi t (Finset.mem_range.1 ht) j hj]
  have hz : c.z.e i = c'.z.e i := by
    rw [g.z, h'.z]
    congr 1
    apply Finset.sum_congr rfl; intro t ht
    rw [s.xi t (Finset.mem_range.1 ht)]
  refine ⟨hA, hY, hz, ?_⟩
  rw [g.b, h'.b, hz]
  congr 1
  apply Finset.sum_congr rfl; intro j hj
  rw [hY j (Finset.mem_range.1 hj), s.x0 j (Finset.mem_range.1 hj)]

/-- Equal results of two cost objects. -/
structure Cost.ResEq (d : Dims) (c c' : Cost K) : Prop where
  Q : ∀ a < d.m * d.N, ∀ b < d.m * d.N, c.Q.e a b = c'.Q.e a b
  E : ∀ a < d.n, ∀ b < d.m * d.N, c.E.e a b = c'.E.e a b
  f : ∀ b < d.m * d.N, c.f.e b = c'.f.e b
  c : ∀ b < d.m * d.N, c.c.e b = c'.c.e b

section
variable {d : Dims} {ps ps' : PreviewSystem K} {c c' : Cost K}

theorem Cost.Det.T (D : Cost.Det d c c') (s : SysEq d ps ps') {k r j : Nat} (hk : k < c.steps d) (hr : r < c.p.rows)
    (hj : j < d.m * d.N) : c.T d ps k r j = c'.T d ps' k r j := by
  unfold Cost.T
  rw [D.state k hk r hr _ (fun t => ps'.Psi.e t j) (fun t ht => s.psi t ht j hj), D.ctrl k hk r hr j hj]

theorem Cost.Det.P (D : Cost.Det d c c') (s : SysEq d ps ps') {k r j : Nat} (hk : k < c.steps d) (hr : r < c.p.rows)
    (hj : j < d.n) : c.P d ps k r j = c'.P d ps' k r j := by
  unfold Cost.P
  exact D.state k hk r hr _ (fun t => ps'.Phi.e t j) (fun t ht => s.phi t ht j hj)

theorem Cost.Det.V (D : Cost.Det d c c') (s : SysEq d ps ps') {k r : Nat} (hk : k < c.steps d) (hr : r < c.p.rows) :
    c.V d ps k r = c'.V d ps' k r := by
  unfold Cost.V
  rw [D.state k hk r hr _ ps'.xi.e s.xi, D.p r hr]

theorem Cost.Det.termQ (D : Cost.Det d c c') (s : SysEq d ps ps') {a b : Nat} (ha : a < d.m * d.N) (hb : b < d.m * d.N) :
    ∑ k ∈ Finset.range (c.steps d), Cost.eE c.p.rows c.weights.e (c.T d ps k) (c.T d ps k) a b =
    ∑ k ∈ Finset.range (c'.steps d), Cost.eE c'.p.rows c'.weights.e (c'.T d ps' k) (c'.T d ps' k) a b := by
  rw [← D.steps, ← D.pr]
  apply Finset.sum_congr rfl; intro k hk
  unfold Cost.eE
  apply Finset.sum_congr rfl; intro r hr
  have hk := Finset.mem_range.1 hk
  have hr := Finset.mem_range.1 hr
  rw [D.T s hk hr ha, D.T s hk hr hb, D.w r hr]

theorem Cost.Det.termE (D : Cost.Det d c c') (s : SysEq d ps ps') {a b : Nat} (ha : a < d.n) (hb : b < d.m * d.N) :
    ∑ k ∈ Finset.range (c.steps d), Cost.eE c.p.rows c.weights.e (c.P d ps k) (c.T d ps k) a b =
    ∑ k ∈ Finset.range (c'.steps d), Cost.eE c'.p.rows c'.weights.e (c'.P d ps' k) (c'.T d ps' k) a b := by
  rw [← D.steps, ← D.pr]
  apply Finset.sum_congr rfl; intro k hk
  unfold Cost.eE
  apply Finset.sum_congr rfl; intro r hr
  have hk := Finset.mem_range.1 hk
  have hr := Finset.mem_range.1 hr
  rw [D.P s hk hr ha, D.T s hk hr hb, D.w r hr]

theorem Cost.Det.termF (D : Cost.Det d c c') (s : SysEq d ps ps') {b : Nat} (hb : b < d.m * d.N) :
    ∑ k ∈ Finset.range (c.steps d), Cost.fE c.p.rows c.weights.e (c.V d ps k) (c.T d ps k) b =
    ∑ k ∈ Finset.range (c'.steps d), Cost.fE c'.p.rows c'.weights.e (c'.V d ps' k) (c'.T d ps' k) b := by
  rw [← D.steps, ← D.pr]
  apply Finset.sum_congr rfl; intro k hk
  unfold Cost.fE
  apply Finset.sum_congr rfl; intro r hr
  have hk := Finset.mem_range.1 hk
  have hr := Finset.mem_range.1 hr
  rw [D.V s hk hr, D.T s hk hr hb, D.w r hr]

theorem Cost.Det.resEq (D : Cost.Det d c c') (s : SysEq d ps ps') (e : Cost.Entries d ps c) (e' : Cost.Entries d ps' c') :
    Cost.ResEq d c c' := by
  have hE : ∀ a < d.n, ∀ b < d.m * d.N, c.E.e a b = c'.E.e a b := by
    intro a ha b hb; rw [e.E a ha b hb, e'.E a ha b hb]; exact D.termE s ha hb
  have hf : ∀ b < d.m * d.N, c.f.e b = c'.f.e b := by
    intro b hb; rw [e.f b hb, e'.f b hb]; exact D.termF s hb
  refine ⟨?_, hE, hf, ?_⟩
  · intro a ha b hb; rw [e.Q a ha b hb, e'.Q a ha b hb]; exact D.termQ s ha hb
  · intro b hb
    rw [e.c b hb, e'.c b hb, hf b hb]
    congr 1
    apply Finset.sum_congr rfl; intro a ha
    rw [hE a (Finset.mem_range.1 ha) b hb, s.x0 a (Finset.mem_range.1 ha)]

end

/-! ## Problems -/

section
variable [LinearOrder K] [IsStrictOrderedRing K]

namespace World

theorem sysEq {d : Dims} {p p' : Nat} {w0 w w0' w' : World K} (h : HeapUpdated d p w0 w) (h' : HeapUpdated d p' w0' w')
    (hA : (w0.pss p).A = (w0'.pss p').A) (hB : (w0.pss p).B = (w0'.pss p').B) (hd : (w0.pss p).d = (w0'.pss p').d)
    (hx : ∀ j < d.n, (w0.pss p).x0.e j = (w0'.pss p').x0.e j) : SysEq d (w.pss p) (w'.pss p') := by
  have S := h.sys.dims.toSysShape
  have S' := h'.sys.dims.toSysShape
  obtain ⟨u1, u2, u3⟩ := SysPred.unique h.pred h'.pred S S' (by rw [h.A, h'.A, hA]) (by rw [h.B, h'.B, hB])
    (by rw [h.bias, h'.bias, hd])
  refine ⟨?_, ?_, ?_, ?_⟩
  · intro s hs c hc; exact u1.2.2 s (by rw [S.Phir]; exact hs) c (by rw [S.Phic]; exact hc)
  · intro s hs c hc; exact u2.2.2 s (by rw [S.Psir]; exact hs) c (by rw [S.Psic]; exact hc)
  · intro s hs; exact u3.2 s (by rw [S.xir]; exact hs)
  · intro j hj; rw [h.x0, h'.x0]; exact hx j hj

/-- The same registered data up to what declared data determines, in two programs. -/
structure SameDet (d : Dims) (w1 : World K) (p1 : Nat) (w2 : World K) (p2 : Nat) : Prop where
  A : (w1.pss p1).A = (w2.pss p2).A
  B : (w1.pss p1).B = (w2.pss p2).B
  bias : (w1.pss p1).d = (w2.pss p2).d
  x0 : ∀ j < d.n, (w1.pss p1).x0.e j = (w2.pss p2).x0.e j
  cons : List.Forall₂ (fun i j => i ∈ w1.ctl.spConstr ∧ j ∈ w2.ctl.spConstr ∧ Constr.Det d (w1.cons i) (w2.cons j))
    w1.ctl.spConstr w2.ctl.spConstr

theorem forall₂_mem {R : Nat → Nat → Prop} {L L' : List Nat} (h : List.Forall₂ R L L') :
    List.Forall₂ (fun i j => i ∈ L ∧ j ∈ L' ∧ R i j) L L' := by
  induction h with
  | nil => exact .nil
  | cons h _ ih =>
    exact .cons ⟨List.mem_cons_self, List.mem_cons_self, h⟩
      (ih.imp fun _ _ h => ⟨List.mem_cons_of_mem _ h.1, List.mem_cons_of_mem _ h.2.1, h.2.2⟩)

variable {d : Dims} {w1 w1' w2 w2' : World K} {p1 p2 : Nat}

theorem SameDet.eqs (h : SameDet d w1 p1 w2 p2) (P1 : LMPC.Partition w1.cons w1.ctl) (P2 : LMPC.Partition w2.cons w2.ctl) :
    List.Forall₂ (fun i j => i ∈ w1.ctl.spConstr ∧ j ∈ w2.ctl.spConstr ∧ Constr.Det d (w1.cons i) (w2.cons j))
      w1.ctl.spEqConstr w2.ctl.spEqConstr ∧
    List.Forall₂ (fun i j => i ∈ w1.ctl.spConstr ∧ j ∈ w2.ctl.spConstr ∧ Constr.Det d (w1.cons i) (w2.cons j))
      w1.ctl.spIneqConstr w2.ctl.spIneqConstr ∧
    List.Forall₂ (fun i j => i ∈ w1.ctl.spConstr ∧ j ∈ w2.ctl.spConstr ∧ Constr.Det d (w1.cons i) (w2.cons j))
      w1.ctl.spBoundConstr w2.ctl.spBoundConstr := by
  rw [P1.eq, P1.ineq, P1.bound, P2.eq, P2.ineq, P2.bound]
  refine ⟨?_, ?_, ?_⟩ <;>
    exact filter_forall₂ h.cons fun i j hij => by rw [hij.2.2.type]

/-- The rows of corresponding constraints agree after a solve. -/
theorem rows_agree (H1 : HeapUpdated d p1 w1 w1') (H2 : HeapUpdated d p2 w2 w2') (s : SysEq d (w1'.pss p1) (w2'.pss p2))
    {i j : Nat} (hi : i ∈ w1.ctl.spConstr) (hj : j ∈ w2.ctl.spConstr) (D : Constr.Det d (w1.cons i) (w2.cons j))
    (hk : (w1.cons i).kind ≠ .ctrlBound) :
    (w1'.cons i).nrConstr = (w2'.cons j).nrConstr ∧ ∀ r < (w1'.cons i).nrConstr,
      (∀ k < d.m * d.N, (w1'.cons i).A.e r k = (w2'.cons j).A.e r k) ∧ (∀ k < d.n, (w1'.cons i).Y.e r k = (w2'.cons j).Y.e r k) ∧
      (w1'.cons i).z.e r = (w2'.cons j).z.e r ∧ (w1'.cons i).b.e r = (w2'.cons j).b.e r := by
  obtain ⟨r1, f1, u1⟩ := (H1.cons i).1 hi
  obtain ⟨r2, f2, u2⟩ := (H2.cons j).1 hj
  have hnr : (w1'.cons i).nrConstr = (w2'.cons j).nrConstr := by rw [f1.nr, f2.nr, D.nr]
  refine ⟨hnr, ?_⟩
  intro r hr
  refine (u1.rows (by rw [f1.kind]; exact hk) r hr).unique
    (u2.rows (by rw [f2.kind, ← D.kind]; exact hk) r (by rw [← hnr]; exact hr)) ?_ s
  rw [f1.row, f2.row]
  exact D.rows hk r (by rw [← f1.nr]; exact hr)

theorem bounds_agree (H1 : HeapUpdated d p1 w1 w1') (H2 : HeapUpdated d p2 w2 w2')
    {i j : Nat} (hi : i ∈ w1.ctl.spConstr) (hj : j ∈ w2.ctl.spConstr) (D : Constr.Det d (w1.cons i) (w2.cons j))
    (hk : (w1.cons i).kind = .ctrlBound) :
    ∀ t < d.m * d.N, (w1'.cons i).lb.e t = (w2'.cons j).lb.e t ∧ (w1'.cons i).ub.e t = (w2'.cons j).ub.e t := by
  obtain ⟨r1, f1, u1⟩ := (H1.cons i).1 hi
  obtain ⟨r2, f2, u2⟩ := (H2.cons j).1 hj
  have hk2 : (w2.cons j).kind = .ctrlBound := by rw [← D.kind]; exact hk
  intro t ht
  cases hf : (w1.cons i).fullSizeEntry
  · rw [Nat.mul_comm] at ht
    obtain ⟨k, r, hkN, hr, rfl⟩ := blk_split ht
    have b1 := u1.bounds (by rw [f1.kind]; exact hk) (by rw [f1.full]; exact hf) k hkN r hr
    have b2 := u2.bounds (by rw [f2.kind]; exact hk2) (by rw [f2.full, ← D.full]; exact hf) k hkN r hr
    rw [b1.1, b1.2, b2.1, b2.2, f1.lower, f1.upper, f2.lower, f2.upper]
    exact D.lower hk hf r hr
  · rw [(f1.movedB hf hk).1, (f1.movedB hf hk).2, (f2.movedB (by rw [← D.full]; exact hf) hk2).1,
      (f2.movedB (by rw [← D.full]; exact hf) hk2).2]
    exact D.lb hk hf t ht

variable {env1 env2 : SolveEnv K} {b1 b2 : Bool} {q1 q2 : QP K}

/-- The constraint part of the problem of an `LMPC`. -/
theorem stacks_agree (C1 : CanUpdate d p1 w1) (C2 : CanUpdate d p2 w2) (H1 : HeapUpdated d p1 w1 w1')
    (H2 : HeapUpdated d p2 w2 w2') (D : SameDet d w1 p1 w2 p2) :
    List.Forall₂ (fun i j => (w1'.cons i).nrConstr = (w2'.cons j).nrConstr ∧ ∀ r < (w1'.cons i).nrConstr,
      (∀ k < d.m * d.N, (w1'.cons i).A.e r k = (w2'.cons j).A.e r k) ∧ (∀ k < d.n, (w1'.cons i).Y.e r k = (w2'.cons j).Y.e r k) ∧
      (w1'.cons i).z.e r = (w2'.cons j).z.e r ∧ (w1'.cons i).b.e r = (w2'.cons j).b.e r)
      w1.ctl.spEqConstr w2.ctl.spEqConstr ∧
    List.Forall₂ (fun i j => (w1'.cons i).nrConstr = (w2'.cons j).nrConstr ∧ ∀ r < (w1'.cons i).nrConstr,
      (∀ k < d.m * d.N, (w1'.cons i).A.e r k = (w2'.cons j).A.e r k) ∧ (∀ k < d.n, (w1'.cons i).Y.e r k = (w2'.cons j).Y.e r k) ∧
      (w1'.cons i).z.e r = (w2'.cons j).z.e r ∧ (w1'.cons i).b.e r = (w2'.cons j).b.e r)
      w1.ctl.spIneqConstr w2.ctl.spIneqConstr ∧
    (w1.ctl.spBoundConstr = [] ↔ w2.ctl.spBoundConstr = []) ∧
    ∀ i, w1.ctl.spBoundConstr = [i] → ∃ j, w2.ctl.spBoundConstr = [j] ∧
      ∀ t < d.m * d.N, (w1'.cons i).lb.e t = (w2'.cons j).lb.e t ∧ (w1'.cons i).ub.e t = (w2'.cons j).ub.e t := by
  have s := sysEq H1 H2 D.A D.B D.bias D.x0
  obtain ⟨e1, e2, e3⟩ := D.eqs C1.part C2.part
  obtain ⟨t1, t2, t3⟩ := C1.typed
  refine ⟨?_, ?_, ?_, ?_⟩
  · exact (forall₂_mem e1).imp fun i j h => rows_agree H1 H2 s h.2.2.1 h.2.2.2.1 h.2.2.2.2 (t1 i h.1).2.1
  · exact (forall₂_mem e2).imp fun i j h => rows_agree H1 H2 s h.2.2.1 h.2.2.2.1 h.2.2.2.2 (t2 i h.1).2.1
  · constructor
    · intro h; rw [h] at e3; exact List.forall₂_nil_left_iff.1 e3
    · intro h; rw [h] at e3; exact List.forall₂_nil_right_iff.1 e3
  · intro i hi
    have := t3 i (by rw [hi]; exact List.mem_singleton_self _)
    rw [hi] at e3
    generalize w2.ctl.spBoundConstr = L at e3
    cases e3 with
    | @cons _ j _ L' h tl =>
      cases tl
      exact ⟨j, rfl, bounds_agree H1 H2 h.1 h.2.1 h.2.2 this.2⟩

/-- Two `LMPC` solves with the same declared data and the same cost results hand the solver the same problem. -/
theorem qp_eq_plain (C1 : CanUpdate d p1 w1) (C2 : CanUpdate d p2 w2) (S1 : Solved d p1 env1 w1 w1' b1 q1)
    (S2 : Solved d p2 env2 w2 w2' b2 q2) (i1 : w1.ctl.isInit = false) (i2 : w2.ctl.isInit = false)
    (D : SameDet d w1 p1 w2 p2)
    (hK : List.Forall₂ (fun i j => Cost.ResEq d (w1'.costs i) (w2'.costs j)) w1.ctl.spCost w2.ctl.spCost)
    (hb : w1.ctl.spBoundConstr = [] → ∀ t < d.m * d.N, w1.ctl.lb.e t = w2.ctl.lb.e t ∧ w1.ctl.ub.e t = w2.ctl.ub.e t) :
    QPEq q1 q2 := by
  have A1 := S1.plain i1
  have A2 := S2.plain i2
  obtain ⟨e1, e2, e3, e4⟩ := stacks_agree C1 C2 S1.heap S2.heap D
  obtain ⟨m1, v1⟩ := A1.eq.unique A2.eq (e1.imp fun i j h => ⟨h.1, fun r hr => ⟨(h.2 r hr).1, (h.2 r hr).2.2.2⟩⟩)
  obtain ⟨m2, v2⟩ := A1.ineq.unique A2.ineq (e2.imp fun i j h => ⟨h.1, fun r hr => ⟨(h.2 r hr).1, (h.2 r hr).2.2.2⟩⟩)
  have hB : ∀ t < d.m * d.N, q1.lb.e t = q2.lb.e t ∧ q1.ub.e t = q2.ub.e t := by
    intro t ht
    have hlen := C1.one
    rcases hl : w1.ctl.spBoundConstr with _ | ⟨i, _ | ⟨i', r⟩⟩
    · rw [(A1.keep hl).1, (A1.keep hl).2, (A2.keep (e3.1 hl)).1, (A2.keep (e3.1 hl)).2]
      exact hb hl t ht
    · obtain ⟨j, hj, h⟩ := e4 i hl
      rw [(A1.bound i hl t ht).1, (A1.bound i hl t ht).2, (A2.bound j hj t ht).1, (A2.bound j hj t ht).2]
      exact h t ht
    · rw [hl] at hlen; simp at hlen
  refine ⟨?_, ?_, ?_, ⟨?_, ?_, ?_⟩, ⟨?_, ?_⟩, m1, v1, m2, v2, ⟨?_, ?_⟩, ?_, ?_⟩
  · rw [A1.nrVar, A2.nrVar, A1.cr, A2.cr]
  · rw [A1.nrEq, A2.nrEq]; exact total_forall₂ (e1.imp fun _ _ h => h.1)
  · rw [A1.nrIneq, A2.nrIneq]; exact total_forall₂ (e2.imp fun _ _ h => h.1)
  · rw [A1.Qr, A2.Qr]
  · rw [A1.Qc, A2.Qc]
  · intro a ha b hb
    rw [A1.Qr] at ha; rw [A1.Qc] at hb
    rw [A1.Q a ha b hb, A2.Q a ha b hb]
    congr 1
    exact sum_forall₂ (hK.imp fun _ _ h => h.Q a ha b hb)
  · rw [A1.cr, A2.cr]
  · intro a ha
    rw [A1.cr] at ha
    rw [A1.c a ha, A2.c a ha]
    exact sum_forall₂ (hK.imp fun _ _ h => h.c a ha)
  · rw [A1.lbr, A2.lbr]
  · intro t ht; rw [A1.lbr] at ht; exact (hB t ht).1
  · rw [A1.ubr, A2.ubr]
  · intro t ht; rw [A1.ubr] at ht; exact (hB t ht).2

/-- The initial-state block of the Hessian is determined by the other blocks and `R`. -/
theorem hxx_init {inv1 inv2 : Mat K → Mat K} {cons1 cons2 : Nat → Constr K} {costs1 costs2 : Nat → Cost K} {l1 l2 : LMPC K}
    (A1 : LMPC.AssembledInit d inv1 cons1 costs1 l1 q1) (A2 : LMPC.AssembledInit d inv2 cons2 costs2 l2 q2)
    (hR : ∀ a < d.n, ∀ b < d.n, l1.R.e a b = l2.R.e a b)
    (hI : ∀ M M' : Mat K, M.rows = d.m * d.N → M.cols = d.m * d.N → MatEq M M' → MatEq (inv1 M) (inv2 M'))
    (hI1 : ∀ M : Mat K, M.rows = d.m * d.N → M.cols = d.m * d.N →
      (inv1 M).rows = d.m * d.N ∧ (inv1 M).cols = d.m * d.N)
    (hUU : ∀ a < d.m * d.N, ∀ b < d.m * d.N, q1.Q.e (d.n + a) (d.n + b) = q2.Q.e (d.n + a) (d.n + b))
    (hxU : ∀ a < d.n, ∀ b < d.m * d.N, q1.Q.e a (d.n + b) = q2.Q.e a (d.n + b)) :
    ∀ a < d.n, ∀ b < d.n, q1.Q.e a b = q2.Q.e a b := by
  obtain ⟨U1, X1, x1, x2, x3, x4, x5, x6, x7⟩ := A1.Qxx
  obtain ⟨U2, X2, y1, y2, y3, y4, y5, y6, y7⟩ := A2.Qxx
  have hU : MatEq U1 U2 := by
    refine ⟨x1.trans y1.symm, x2.trans y2.symm, fun a ha b hb => ?_⟩
    rw [x1] at ha; rw [x2] at hb
    rw [x5, y5]; exact hUU a ha b hb
  have hX : ∀ a < d.n, ∀ b < d.m * d.N, X1.e a b = X2.e a b := by
    intro a ha b hb; rw [x6, y6]; exact hxU a ha b hb
  obtain ⟨n1, n2, n3⟩ := hI U1 U2 x1 x2 hU
  obtain ⟨z1, z2⟩ := hI1 U1 x1 x2
  intro a ha b hb
  rw [x7 a ha b hb, y7 a ha b hb, hR a ha b hb]
  congr 1
  show ∑ k ∈ Finset.range (inv1 U1).cols, (∑ l ∈ Finset.range X1.cols, X1.e a l * (inv1 U1).e l k) * X1.e b k =
    ∑ k ∈ Finset.range (inv2 U2).cols, (∑ l ∈ Finset.range X2.cols, X2.e a l * (inv2 U2).e l k) * X2.e b k
  rw [← n2, z2, x4, y4]
  apply Finset.sum_congr rfl; intro k hk
  have hk := Finset.mem_range.1 hk
  rw [hX b hb k hk]
  congr 1
  apply Finset.sum_congr rfl; intro l hl
  have hl := Finset.mem_range.1 hl
  rw [hX a ha l hl, n3 l (by rw [z1]; exact hl) k (by rw [z2]; exact hk)]

/-- The same for initial-state controllers. -/
theorem qp_eq_init (C1 : CanUpdate d p1 w1) (C2 : CanUpdate d p2 w2) (S1 : Solved d p1 env1 w1 w1' b1 q1)
    (S2 : Solved d p2 env2 w2 w2' b2 q2) (i1 : w1.ctl.isInit = true) (i2 : w2.ctl.isInit = true)
    (D : SameDet d w1 p1 w2 p2)
    (hK : List.Forall₂ (fun i j => Cost.ResEq d (w1'.costs i) (w2'.costs j)) w1.ctl.spCost w2.ctl.spCost)
    (hb : w1.ctl.spBoundConstr = [] → ∀ t < d.m * d.N,
      w1.ctl.lb.e (d.n + t) = w2.ctl.lb.e (d.n + t) ∧ w1.ctl.ub.e (d.n + t) = w2.ctl.ub.e (d.n + t))
    (hR : ∀ a < d.n, (∀ b < d.n, w1.ctl.R.e a b = w2.ctl.R.e a b) ∧ w1.ctl.r.e a = w2.ctl.r.e a ∧
      w1.ctl.x0lb.e a = w2.ctl.x0lb.e a ∧ w1.ctl.x0ub.e a = w2.ctl.x0ub.e a)
    (hI : ∀ M M' : Mat K, M.rows = d.m * d.N → M.cols = d.m * d.N → MatEq M M' → MatEq (env1.inverse M) (env2.inverse M'))
    (hI1 : ∀ M : Mat K, M.rows = d.m * d.N → M.cols = d.m * d.N →
      (env1.inverse M).rows = d.m * d.N ∧ (env1.inverse M).cols = d.m * d.N) :
    QPEq q1 q2 := by
  have A1 := S1.init i1
  have A2 := S2.init i2
  obtain ⟨e1, e2, e3, e4⟩ := stacks_agree C1 C2 S1.heap S2.heap D
  have row : ∀ i j, ((w1'.cons i).nrConstr = (w2'.cons j).nrConstr ∧ ∀ r < (w1'.cons i).nrConstr,
      (∀ k < d.m * d.N, (w1'.cons i).A.e r k = (w2'.cons j).A.e r k) ∧ (∀ k < d.n, (w1'.cons i).Y.e r k = (w2'.cons j).Y.e r k) ∧
      (w1'.cons i).z.e r = (w2'.cons j).z.e r ∧ (w1'.cons i).b.e r = (w2'.cons j).b.e r) →
      ((w1'.cons i).nrConstr = (w2'.cons j).nrConstr ∧ ∀ r < (w1'.cons i).nrConstr,
        (∀ k < d.n + d.m * d.N, (if k < d.n then (w1'.cons i).Y.e r k else (w1'.cons i).A.e r (k - d.n)) =
          if k < d.n then (w2'.cons j).Y.e r k else (w2'.cons j).A.e r (k - d.n)) ∧ (w1'.cons i).z.e r = (w2'.cons j).z.e r) := by
    rintro i j ⟨h1, h2⟩
    refine ⟨h1, fun r hr => ⟨fun k hk => ?_, (h2 r hr).2.2.1⟩⟩
    split
    · next h => exact (h2 r hr).2.1 k h
    · exact (h2 r hr).1 _ (by omega)
  obtain ⟨m1, v1⟩ := A1.eq.unique A2.eq (e1.imp fun i j h => row i j h)
  obtain ⟨m2, v2⟩ := A1.ineq.unique A2.ineq (e2.imp fun i j h => row i j h)
  have hB : ∀ t < d.n + d.m * d.N, q1.lb.e t = q2.lb.e t ∧ q1.ub.e t = q2.ub.e t := by
    intro t ht
    by_cases hx : t < d.n
    · rw [(A1.bx t hx).1, (A1.bx t hx).2, (A2.bx t hx).1, (A2.bx t hx).2]
      exact (hR t hx).2.2
    · obtain ⟨t, rfl⟩ := Nat.exists_eq_add_of_le (Nat.le_of_not_lt hx)
      have ht : t < d.m * d.N := by omega
      have hlen := C1.one
      rcases hl : w1.ctl.spBoundConstr with _ | ⟨i, _ | ⟨i', r⟩⟩
      · rw [(A1.keep hl t ht).1, (A1.keep hl t ht).2, (A2.keep (e3.1 hl) t ht).1, (A2.keep (e3.1 hl) t ht).2]
        exact hb hl t ht
      · obtain ⟨j, hj, h⟩ := e4 i hl
        rw [(A1.bound i hl t ht).1, (A1.bound i hl t ht).2, (A2.bound j hj t ht).1, (A2.bound j hj t ht).2]
        exact h t ht
      · rw [hl] at hlen; simp at hlen
  have hUU : ∀ a < d.m * d.N, ∀ b < d.m * d.N, q1.Q.e (d.n + a) (d.n + b) = q2.Q.e (d.n + a) (d.n + b) := by
    intro a ha b hb
    rw [A1.QUU a ha b hb, A2.QUU a ha b hb]
    congr 1
    exact sum_forall₂ (hK.imp fun _ _ h => h.Q a ha b hb)
  have hxU : ∀ a < d.n, ∀ b < d.m * d.N, q1.Q.e a (d.n + b) = q2.Q.e a (d.n + b) := by
    intro a ha b hb
    rw [A1.QxU a ha b hb, A2.QxU a ha b hb]
    exact sum_forall₂ (hK.imp fun _ _ h => h.E a ha b hb)
  have hxx := hxx_init A1 A2 (fun a ha => (hR a ha).1) hI hI1 hUU hxU
  refine ⟨?_, ?_, ?_, ⟨?_, ?_, ?_⟩, ⟨?_, ?_⟩, m1, v1, m2, v2, ⟨?_, ?_⟩, ?_, ?_⟩
  · rw [A1.nrVar, A2.nrVar, A1.cr, A2.cr]
  · rw [A1.nrEq, A2.nrEq]; exact total_forall₂ (e1.imp fun _ _ h => h.1)
  · rw [A1.nrIneq, A2.nrIneq]; exact total_forall₂ (e2.imp fun _ _ h => h.1)
  · rw [A1.Qr, A2.Qr]
  · rw [A1.Qc, A2.Qc]
  · intro a ha b hb
    rw [A1.Qr] at ha; rw [A1.Qc] at hb
    by_cases ha' : a < d.n <;> by_cases hb' : b < d.n
    · exact hxx a ha' b hb'
    · obtain ⟨b, rfl⟩ := Nat.exists_eq_add_of_le (Nat.le_of_not_lt hb')
      exact hxU a ha' b (by omega)
    · obtain ⟨a, rfl⟩ := Nat.exists_eq_add_of_le (Nat.le_of_not_lt ha')
      have ha : a < d.m * d.N := by omega
      rw [A1.QUx b hb' a ha, A2.QUx b hb' a ha]
      exact hxU b hb' a ha
    · obtain ⟨a, rfl⟩ := Nat.exists_eq_add_of_le (Nat.le_of_not_lt ha')
      obtain ⟨b, rfl⟩ := Nat.exists_eq_add_of_le (Nat.le_of_not_lt hb')
      exact hUU a (by omega) b (by omega)
  · rw [A1.cr, A2.cr]
  · intro a ha
    rw [A1.cr] at ha
    by_cases ha' : a < d.n
    · rw [A1.cx a ha', A2.cx a ha']; exact (hR a ha').2.1
    · obtain ⟨a, rfl⟩ := Nat.exists_eq_add_of_le (Nat.le_of_not_lt ha')
      have ha : a < d.m * d.N := by omega
      rw [A1.cU a ha, A2.cU a ha]
      exact sum_forall₂ (hK.imp fun _ _ h => h.f a ha)
  · rw [A1.lbr, A2.lbr]
  · intro t ht; rw [A1.lbr] at ht; exact (hB t ht).1
  · rw [A1.ubr, A2.ubr]
  · intro t ht; rw [A1.ubr] at ht; exact (hB t ht).2

end World
end
end Copra
