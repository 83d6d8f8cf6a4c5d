import Verif.Props.MultiExamples
import Verif.Props.Weights
import Verif.Props.Tolerance
import Verif.Props.Solvable

/-! # C38, C62, C67, C69 and C71 for an `InitialStateLMPC` -/

namespace Copra

namespace Spec
variable {K : Type} [Field K]

/-- Half the declared costs of the simulation from the initial state `x`, with cost `i` replaced by `C`, plus the
regularisation. -/
def costWithFrom (d : Dims) (w : World K) (p i : Nat) (C : (Nat → Nat → K) → (Nat → K) → K) (x U : Nat → K) : K :=
  1 / 2 * (w.ctl.spCost.map fun j =>
      if j = i then C (trajFrom d w p x U) U else (w.costs j).userData.value d (trajFrom d w p x U) U).sum
    + 1 / 2 * (1 / 1000000) * ∑ j ∈ Finset.range (d.m * d.N), U j ^ 2

/-- The sum of the declared costs of the simulation from the initial state `x`. -/
def declaredCostFrom (d : Dims) (w : World K) (p : Nat) (x U : Nat → K) : K :=
  (w.ctl.spCost.map fun i => (w.costs i).userData.value d (trajFrom d w p x U) U).sum

/-- The initial-state bounds, violated by at most `δ`. -/
def InitBoundsWithin [LinearOrder K] (d : Dims) (δ : K) (l : LMPC K) (x : Nat → K) : Prop :=
  ∀ j < d.n, l.x0lb.e j ≤ Ext.fin (x j + δ) ∧ Ext.fin (x j - δ) ≤ l.x0ub.e j

end Spec
open Spec

set_option linter.unusedSectionVars false
set_option maxRecDepth 100000

section
variable {K : Type} [Field K] [LinearOrder K] [IsStrictOrderedRing K]

namespace World
variable {d : Dims} {dmax : K} {E : World K → Op K → Prop} {w w' : World K} {g : Ghost} {env : SolveEnv K}

/-- **C38** for an `InitialStateLMPC`: a solve right after `clearCosts()` hands over the objective
`1/2 x'Rx + r'x + 0.5e-6 |U|^2`. -/
theorem c38_clearCosts_init {w1 : World K} (h : Hist d dmax E w g) (he : E w .clearCosts)
    (h1 : w.step dmax .clearCosts = .ok w1) (hi : w.ctl.isInit = true) {w2 : World K} {b : Bool} {q : QP K}
    (hc : SolveContract d env w1.ctl) (hs : w1.solve env = some (w2, b, q)) (x U : Nat → K) :
    objective q (joined d x U) = initialCost d w.ctl x + 1 / 2 * (1 / 1000000) * ∑ j ∈ Finset.range (d.m * d.N), U j ^ 2 := by
  have H1 : Hist d dmax E w1 (g.next w True .clearCosts) := Hist.ok h trivial he h1
  have hg := H1.good
  simp only [step] at h1
  cases h1
  obtain ⟨p', hp', S⟩ := hg.solved hc hs
  have A := S.init hi
  have nil : ∀ f : Nat → K, (List.map f (w.ctl.clearCosts).spCost).sum = 0 := fun f => rfl
  have QxU : ∀ a < d.n, ∀ b < d.m * d.N, q.Q.e a (d.n + b) = 0 := fun a ha b hb => by rw [A.QxU a ha b hb]; exact nil _
  obtain ⟨QU, Ex, r1, r2, -, r4, -, hEx, hxx⟩ := A.Qxx
  have Qxx : ∀ a < d.n, ∀ b < d.n, q.Q.e a b = w.ctl.R.e a b := by
    intro a ha b hb
    have hr := ((hc.init hi).2.2.2.2.2 QU r1 r2).2
    rw [hxx a ha b hb]
    show _ + ∑ k ∈ Finset.range (env.inverse QU).cols, (∑ l ∈ Finset.range Ex.cols, Ex.e a l * (env.inverse QU).e l k) * Ex.e b k = _
    rw [Finset.sum_eq_zero, add_zero]
    · rfl
    · intro k hk
      rw [hr] at hk
      rw [hEx b k, QxU b hb k (Finset.mem_range.1 hk), mul_zero]
  rw [S.objectiveInit hi x U]
  have e1 : quadValue d.n q.Q q.c x = initialCost d w.ctl x := by
    unfold initialCost quadValue
    congr 1
    · congr 1
      exact Finset.sum_congr rfl fun a ha => Finset.sum_congr rfl fun b hb => by
        rw [Qxx a (Finset.mem_range.1 ha) b (Finset.mem_range.1 hb)]
    · exact Finset.sum_congr rfl fun a ha => by rw [A.cx a (Finset.mem_range.1 ha)]; rfl
  rw [e1]
  congr 1
  rw [quadValue_sum (L := []) (F := fun _ => Mat.empty) (G := fun _ => Vec.zero 0) (r := 1 / 1000000)]
  · rw [List.map_nil, List.sum_nil, zero_add]
  · intro a ha b hb
    show q.Q.e (d.n + a) (d.n + b) = _
    rw [A.QUU a ha b hb]; rfl
  · intro b hb
    show (∑ a ∈ Finset.range d.n, q.Q.e a (d.n + b) * x a) + q.c.e (d.n + b) = 0
    rw [A.cU b hb, Finset.sum_eq_zero]
    · rw [zero_add]; exact nil _
    · intro a ha; rw [QxU a (Finset.mem_range.1 ha) b hb, zero_mul]

/-! ## C67 -/

/-- **C67** for an `InitialStateLMPC`: at the initial state it returns, the declared costs of the returned controls exceed
those of any controls `V` admissible from there by at most `1e-6 (|V|^2 - |U|^2)`. -/
theorem c67_regularisation_init {q : QP K} {p : Nat} {k : SolverKind} {junk : Junk K} (h : Hist d dmax E w g)
    (hE : ∀ w op, E w op → NoBoundSpan w op)
    (ho : OpOk d w g (.solve env)) (hi : w.ctl.isInit = true) (hb : w.ctl.spBoundConstr = [] → g.clean)
    (hh : ∀ i ∈ w.ctl.spConstr, (w.cons i).userData.Honest) (hf : CostsFresh d w g)
    (hs : w.solve env = some (w', true, q)) (hp : w.ctl.ps = some p)
    (hn : q.nrEq + q.nrIneq + 2 * q.nrVar ≤ intMax) (hopt : BackEndOptimal dmax junk k q (env.answer q).2.e) :
    ∃ x : Vec K, w'.ctl.initialState (w'.pss p) = some x ∧
      ∀ V : Nat → K, (∀ i ∈ w.ctl.spConstr, (w.cons i).userData.Holds d (Spec.trajFrom d w p x.e V) V) →
        (∀ j < d.m * d.N, -dmax ≤ V j ∧ V j ≤ dmax) →
        (k = .osqp → ∀ i < q.Aineq.rows, -dmax ≤ rowValue q.Aineq (joined d x.e V) i) →
        declaredCostFrom d w p x.e w'.ctl.control.e ≤
          declaredCostFrom d w p x.e V + 1 / 1000000 * (normSq d V - normSq d w'.ctl.control.e) ∧
        (declaredCostFrom d w p x.e V ≤ declaredCostFrom d w p x.e w'.ctl.control.e →
          normSq d w'.ctl.control.e ≤ normSq d V) := by
  obtain ⟨x, hx, -, -, -, H⟩ := c60_initial_state_end_to_end h hE ho hi hb hh hf hs hp hn hopt
  refine ⟨x, hx, fun V hV hr hos => ?_⟩
  have := H V hV hr hos
  have key : declaredCostFrom d w p x.e w'.ctl.control.e ≤
      declaredCostFrom d w p x.e V + 1 / 1000000 * (normSq d V - normSq d w'.ctl.control.e) := by
    unfold totalCostFrom at this
    unfold declaredCostFrom normSq
    linarith
  refine ⟨key, fun hle => ?_⟩
  have h6 : (0 : K) < 1 / 1000000 := by norm_num
  nlinarith

/-! ## C69 -/

theorem totalFrom_upd {p i : Nat} {c : Cost K} {C : (Nat → Nat → K) → (Nat → K) → K} (x U : Nat → K)
    (h : c.userData.value d (Spec.trajFrom d w p x U) U = C (Spec.trajFrom d w p x U) U) :
    totalCostFrom d { w with costs := upd w.costs i c } p x U = costWithFrom d w p i C x U := by
  unfold totalCostFrom costWithFrom
  congr 2
  congr 1
  apply List.map_congr_left
  intro j _
  have e : Spec.trajFrom d { w with costs := upd w.costs i c } p x U = Spec.trajFrom d w p x U := rfl
  rw [e]
  by_cases e : j = i
  · subst e; rw [if_pos rfl]; simp only [upd_same]; exact h
  · rw [if_neg e]; simp only [upd_ne _ _ e]

/-- **C69** (`weight`) for an `InitialStateLMPC`: at every initial state, the next problem ranks controls by the declared
costs with that cost counted as `a` times its value with unit weights. -/
theorem c69_weight_init {w1 : World K} {b : Bool} {q : QP K} {p i : Nat} {a : K} (h : Hist d dmax E w g) (hE : E w (.weight i a))
    (h1 : w.step dmax (.weight i a) = .ok w1) (ho : OpOk d w1 g (.solve env)) (hi : w.ctl.isInit = true)
    (hf : CostsFresh d w g) (hs : w1.solve env = some (w', b, q)) (hp : w.ctl.ps = some p) (x : Nat → K) :
    ∃ k : K, ∀ U : Nat → K, objective q (joined d x U) =
      costWithFrom d w p i (fun X U => a * (reweighted (fun _ => 1) (w.costs i).userData).value d X U) x U + k := by
  have e : w1 = { w with costs := upd w.costs i ((w.costs i).setWeight a) } := by
    simp only [step] at h1; injection h1 with h1; exact h1.symm
  have h' : Hist d dmax E w1 g := Hist.ok (op := .weight i a) h trivial hE h1
  subst e
  have ud : ((w.costs i).setWeight a).userData = reweighted (fun _ => a) (w.costs i).userData :=
    userData_weights _ (Vec.const (w.costs i).weights.rows a) rfl
  obtain ⟨k, hk⟩ := c58_objective_per_state h' ho hi (fresh_upd hf (by rw [ud]; exact perStep_reweighted _ _)) hs hp x
  refine ⟨k, fun U => ?_⟩
  rw [hk, totalFrom_upd x U]
  show _ = a * _
  rw [ud, value_uniform]

/-- **C69** (`weights`) for an `InitialStateLMPC`. -/
theorem c69_weights_init {w1 : World K} {b : Bool} {q : QP K} {p i : Nat} {v : Vec K} (h : Hist d dmax E w g)
    (hE : E w (.weights i v)) (hv : 0 < v.rows) (hm : i ∈ w.ctl.spCost)
    (h1 : w.step dmax (.weights i v) = .ok w1) (ho : OpOk d w1 g (.solve env)) (hi : w.ctl.isInit = true)
    (hf : CostsFresh d w g) (hs : w1.solve env = some (w', b, q)) (hp : w.ctl.ps = some p) (x : Nat → K) :
    ∃ k : K, ∀ U : Nat → K, objective q (joined d x U) =
      costWithFrom d w p i (fun X U => (reweighted (fun r => v.e (r % v.rows)) (w.costs i).userData).value d X U) x U + k := by
  have hr := h.good.costReg i (h.good.subK i hm)
  have hw := hr.wr
  have hfit := hr.fits
  have hd : v.rows ∣ (w.costs i).weights.rows := by
    by_contra hn
    have := (Cost.c28_weights (w.costs i) v).2.1 hv hn
    simp only [step] at h1
    rw [this] at h1
    cases h1
  obtain ⟨s, hs'⟩ := hd
  rw [mul_comm] at hs'
  obtain ⟨c', e1, r1, t1, e2⟩ := (Cost.c28_weights (w.costs i) v).1 s hv hs'
  have e : w1 = { w with costs := upd w.costs i c' } := by
    simp only [step] at h1; rw [e1] at h1; injection h1 with h1; exact h1.symm
  have h' : Hist d dmax E w1 g := Hist.ok (op := .weights i v) h trivial hE h1
  subst e
  have ud : c'.userData = reweighted c'.weights.e (w.costs i).userData := by
    rw [e2]; exact userData_weights _ _ r1
  obtain ⟨k, hk⟩ := c58_objective_per_state h' ho hi (fresh_upd hf (by rw [ud]; exact perStep_reweighted _ _)) hs hp x
  refine ⟨k, fun U => ?_⟩
  rw [hk, totalFrom_upd x U]
  show _ = CostData.value d _ U _
  rw [ud]
  refine value_congr d _ U _ hfit fun r hr => ?_
  rw [← hw, hs'] at hr
  have := t1 (r / v.rows) (Nat.div_lt_of_lt_mul (by rw [mul_comm]; exact hr)) (r % v.rows) (Nat.mod_lt _ hv)
  rwa [Nat.div_add_mod'] at this

end World

/-! ## C71 -/

theorem _root_.Copra.RowIs.within_z {δ : K} {d : Dims} {ps : PreviewSystem K}
    {c : Constr K} {i : Nat} {ρ : Row K} (h : RowIs d ps c i ρ) (q : Bool) (x U : Nat → K) :
    RelWithin δ q (∑ j ∈ Finset.range (d.n + d.m * d.N),
        (if j < d.n then c.Y.e i j else c.A.e i (j - d.n)) * joined d x U j) (c.z.e i) ↔
      RelWithin δ q (ρ.lhs d (predC d ps x U) U) ρ.rhs := by
  rw [sum_joined (fun j => c.Y.e i j) (fun j => c.A.e i j), h.z, relWithin_sub, ← h.value]
  rfl

theorem Constr.sem_each_joint {d : Dims} {ps : PreviewSystem K} {c c' : Constr K} (hk : c.kind ≠ .ctrlBound)
    (hr : Constr.Reg d c) (hl : World.LinesCurrent c) (hh : c.userData.Honest) (P : SysPred d ps)
    (hrows : ∀ i < c.nrConstr, RowIs d ps c' i (c.row d i)) (δ : K) (x U : Nat → K) :
    (∀ i < c.nrConstr, RelWithin δ c.ineq (∑ j ∈ Finset.range (d.n + d.m * d.N),
        (if j < d.n then c'.Y.e i j else c'.A.e i (j - d.n)) * joined d x U j) (c'.z.e i)) ↔
      c.userData.HoldsWithin d δ (sim d ps.A ps.B ps.d x U) U := by
  have e := Constr.rows_each hk hr hl hh (RelWithin δ) (BoundWithin δ)
    (fun a u => ⟨fun h => h.2, fun h => ⟨trivial, h⟩⟩) (fun a => trivial) (sim d ps.A ps.B ps.d x U) U
  unfold ConstrData.HoldsWithin
  rw [← e]
  refine forall₂_congr fun i hi => ?_
  rw [(hrows i hi).within_z, Row.lhs_congr (predC_eq_sim P x U)]

namespace World
variable {d : Dims} {dmax : K} {E : World K → Op K → Prop} {w w' : World K} {g : Ghost} {env : SolveEnv K}

theorem Solved.rows_within_joint {p : Nat} {b : Bool} {q : QP K}
    (S : Solved d p env w w' b q) {i : Nat} (hi : i ∈ w.ctl.spConstr) (hk : (w.cons i).kind ≠ .ctrlBound)
    (hl : LinesCurrent (w.cons i)) (hh : (w.cons i).userData.Honest) (δ : K) (x U : Nat → K) :
    (∀ r < (w'.cons i).nrConstr, RelWithin δ (w.cons i).ineq
      (∑ j ∈ Finset.range (d.n + d.m * d.N), (if j < d.n then (w'.cons i).Y.e r j else (w'.cons i).A.e r (j - d.n))
        * joined d x U j) ((w'.cons i).z.e r)) ↔
      (w.cons i).userData.HoldsWithin d δ (Spec.trajFrom d w p x U) U := by
  obtain ⟨r, f, u⟩ := (S.heap.cons i).1 hi
  have hk' : (w'.cons i).kind ≠ .ctrlBound := by rw [f.kind]; exact hk
  have hl' : LinesCurrent (w'.cons i) := by
    intro h
    rw [f.lowerLines, f.upperLines, f.lower, f.upper]
    exact hl (by rw [← f.kind]; exact h)
  have := Constr.sem_each_joint hk' r hl' (by rw [f.userData]; exact hh) S.heap.pred (u.rows hk') δ x U
  have hq : (w'.cons i).ineq = (w.cons i).ineq := by
    unfold Constr.ineq; rw [f.kind, f.isIneq]
  rw [hq] at this
  rw [this, f.userData, ← S.trajFrom]
  rfl

/-- The feasible set of the problem handed to the solver by an `InitialStateLMPC`, within a tolerance. -/
theorem Solved.feasibleWithinInit {p : Nat} {b : Bool} {q : QP K}
    (hg : Good d dmax w g) (hp : w.ctl.ps = some p) (S : Solved d p env w w' b q) (hi : w.ctl.isInit = true)
    (hc : w.ctl.spBoundConstr = [] → g.clean) (hl : ∀ i ∈ w.ctl.spConstr, LinesCurrent (w.cons i))
    (hh : ∀ i ∈ w.ctl.spConstr, (w.cons i).userData.Honest) (δ : K) (x U : Nat → K) :
    FeasibleWithin δ q (joined d x U) ↔
      (∀ i ∈ w.ctl.spConstr, (w.cons i).userData.HoldsWithin d δ (Spec.trajFrom d w p x U) U) ∧
      InitBoundsWithin d δ w.ctl x ∧
      (w.ctl.spBoundConstr = [] → ∀ j < d.m * d.N, -dmax ≤ U j + δ ∧ U j - δ ≤ dmax) := by
  have C := hg.canUpdate hp
  have A := S.init hi
  obtain ⟨t1, t2, t3⟩ := C.typed
  have e1 : (∀ i < q.Aeq.rows, ∃ t, q.beq.e i = Ext.fin t ∧ |rowValue q.Aeq (joined d x U) i - t| ≤ δ) ↔
      ∀ i ∈ w.ctl.spEqConstr, (w.cons i).userData.HoldsWithin d δ (Spec.trajFrom d w p x U) U := by
    rw [A.eq.forall (fun a b => ∃ t, b = Ext.fin t ∧ |a - t| ≤ δ) (joined d x U)]
    refine forall₂_congr fun i hi' => ?_
    obtain ⟨a1, a2, a3⟩ := t1 i hi'
    rw [← S.rows_within_joint a1 a2 (hl i a1) (hh i a1) δ x U, a3]
    simp [RelWithin]
  have e2 : (∀ i < q.Aineq.rows, Ext.fin (rowValue q.Aineq (joined d x U) i - δ) ≤ q.bineq.e i) ↔
      ∀ i ∈ w.ctl.spIneqConstr, (w.cons i).userData.HoldsWithin d δ (Spec.trajFrom d w p x U) U := by
    rw [A.ineq.forall (fun a b => Ext.fin (a - δ) ≤ b) (joined d x U)]
    refine forall₂_congr fun i hi' => ?_
    obtain ⟨a1, a2, a3⟩ := t2 i hi'
    rw [← S.rows_within_joint a1 a2 (hl i a1) (hh i a1) δ x U, a3]
    simp [RelWithin]
  have split : ∀ P : Nat → Prop, (∀ j < d.n + d.m * d.N, P j) ↔ (∀ j < d.n, P j) ∧ ∀ j < d.m * d.N, P (d.n + j) := by
    intro P
    constructor
    · intro h; exact ⟨fun j hj => h j (by omega), fun j hj => h _ (by omega)⟩
    · rintro ⟨h1, h2⟩ j hj
      by_cases hn : j < d.n
      · exact h1 j hn
      · have := h2 (j - d.n) (by omega)
        rwa [show d.n + (j - d.n) = j by omega] at this
  have e3 : ((∀ j < q.lb.rows, q.lb.e j ≤ Ext.fin (joined d x U j + δ)) ∧
        (∀ j < q.ub.rows, Ext.fin (joined d x U j - δ) ≤ q.ub.e j)) ↔
      InitBoundsWithin d δ w.ctl x ∧
      (∀ i ∈ w.ctl.spBoundConstr, (w.cons i).userData.HoldsWithin d δ (Spec.trajFrom d w p x U) U) ∧
      (w.ctl.spBoundConstr = [] → ∀ j < d.m * d.N, -dmax ≤ U j + δ ∧ U j - δ ≤ dmax) := by
    rw [A.lbr, A.ubr, split, split]
    have hx : ((∀ j < d.n, q.lb.e j ≤ Ext.fin (joined d x U j + δ)) ∧ ∀ j < d.n, Ext.fin (joined d x U j - δ) ≤ q.ub.e j) ↔
        InitBoundsWithin d δ w.ctl x := by
      unfold InitBoundsWithin
      constructor
      · rintro ⟨h1, h2⟩ j hj
        have a := h1 j hj
        have b := h2 j hj
        rw [joined_lt hj] at a b
        rw [(A.bx j hj).1] at a
        rw [(A.bx j hj).2] at b
        exact ⟨a, b⟩
      · intro h
        constructor
        · intro j hj; rw [joined_lt hj, (A.bx j hj).1]; exact (h j hj).1
        · intro j hj; rw [joined_lt hj, (A.bx j hj).2]; exact (h j hj).2
    have hU : ((∀ j < d.m * d.N, q.lb.e (d.n + j) ≤ Ext.fin (joined d x U (d.n + j) + δ)) ∧
        ∀ j < d.m * d.N, Ext.fin (joined d x U (d.n + j) - δ) ≤ q.ub.e (d.n + j)) ↔
        (∀ i ∈ w.ctl.spBoundConstr, (w.cons i).userData.HoldsWithin d δ (Spec.trajFrom d w p x U) U) ∧
        (w.ctl.spBoundConstr = [] → ∀ j < d.m * d.N, -dmax ≤ U j + δ ∧ U j - δ ≤ dmax) := by
      simp only [joined_add]
      have hlen := C.one
      rcases hb : w.ctl.spBoundConstr with _ | ⟨i, _ | ⟨i', r⟩⟩
      · have k := A.keep hb
        have cl := hg.clean (hc hb) (by rw [hp]; exact Option.some_ne_none _)
        have off0 : off d w.ctl = d.n := by unfold off; rw [hi]; rfl
        rw [off0] at cl
        constructor
        · rintro ⟨h1, h2⟩
          refine ⟨fun i hi => absurd hi List.not_mem_nil, fun _ j hj => ⟨?_, ?_⟩⟩
          · have := h1 j hj; rw [(k j hj).1, (cl j hj).1] at this; exact this
          · have := h2 j hj; rw [(k j hj).2, (cl j hj).2] at this; exact this
        · rintro ⟨_, h2⟩
          constructor
          · intro j hj; rw [(k j hj).1, (cl j hj).1]; exact (h2 rfl j hj).1
          · intro j hj; rw [(k j hj).2, (cl j hj).2]; exact (h2 rfl j hj).2
      · have hq := A.bound i hb
        obtain ⟨a1, a2⟩ := t3 i (by rw [hb]; exact List.mem_singleton_self _)
        obtain ⟨r, f, u⟩ := (S.heap.cons i).1 a1
        have hk' : (w'.cons i).kind = .ctrlBound := by rw [f.kind]; exact a2
        unfold Constr.Reg at r
        rw [hk'] at r
        have this := Constr.bounds_within hk' r (u.bounds hk') δ (Spec.trajFrom d w p x U) U
        rw [f.userData] at this
        simp only [List.mem_singleton, forall_eq, List.cons_ne_nil, false_implies, and_true]
        rw [← this]
        unfold BoundWithin
        constructor
        · rintro ⟨h1, h2⟩ j hj
          rw [← (hq j hj).1, ← (hq j hj).2]; exact ⟨h1 j hj, h2 j hj⟩
        · intro h
          constructor
          · intro j hj; rw [(hq j hj).1]; exact (h j hj).1
          · intro j hj; rw [(hq j hj).2]; exact (h j hj).2
      · rw [hb] at hlen; simp at hlen
    rw [← hx, ← hU]
    tauto
  unfold FeasibleWithin
  rw [e1, e2, e3]
  constructor
  · rintro ⟨h1, h2, h5, h3, h4⟩
    refine ⟨?_, h5, h4⟩
    intro i hi
    rcases (mem_registered C.part i).1 hi with h | h | h
    · exact h1 i h
    · exact h2 i h
    · exact h3 i h
  · rintro ⟨h1, h5, h4⟩
    exact ⟨fun i h => h1 i ((mem_registered C.part i).2 (Or.inl h)),
      fun i h => h1 i ((mem_registered C.part i).2 (Or.inr (Or.inl h))), h5,
      fun i h => h1 i ((mem_registered C.part i).2 (Or.inr (Or.inr h))), h4⟩

/-- **C71** (residuals) for an `InitialStateLMPC`. -/
theorem c71_residuals_init {b : Bool} {q : QP K} {p : Nat} (h : Hist d dmax E w g) (hE : ∀ w op, E w op → NoBoundSpan w op)
    (ho : OpOk d w g (.solve env)) (hi : w.ctl.isInit = true) (hb : w.ctl.spBoundConstr = [] → g.clean)
    (hh : ∀ i ∈ w.ctl.spConstr, (w.cons i).userData.Honest)
    (hs : w.solve env = some (w', b, q)) (hp : w.ctl.ps = some p) (δ : K) (x U : Nat → K) :
    FeasibleWithin δ q (joined d x U) ↔
      (∀ i ∈ w.ctl.spConstr, (w.cons i).userData.HoldsWithin d δ (Spec.trajFrom d w p x U) U) ∧
      InitBoundsWithin d δ w.ctl x ∧
      (w.ctl.spBoundConstr = [] → ∀ j < d.m * d.N, -dmax ≤ U j + δ ∧ U j - δ ≤ dmax) := by
  obtain ⟨p', hp', S⟩ := h.good.solved ho.2 hs
  rw [hp] at hp'
  cases hp'
  exact S.feasibleWithinInit h.good hp hi hb (fun i _ => h.lines hE i) hh δ x U

theorem _root_.Copra.FeasibleWithin.congr {δ : K} {q : QP K} {x y : Nat → K} (hw : WellSized q) (h : ∀ j < q.nrVar, x j = y j) :
    FeasibleWithin δ q x ↔ FeasibleWithin δ q y := by
  obtain ⟨_, _, _, _, hc1, _, _, hc2, _, hl, hu⟩ := hw
  have r : ∀ (M : Mat K), M.cols = q.nrVar → ∀ i, rowValue M x i = rowValue M y i := by
    intro M hM i
    exact Finset.sum_congr rfl fun c hc => by rw [h c (by rw [← hM]; exact Finset.mem_range.1 hc)]
  unfold FeasibleWithin
  simp only [r _ hc1, r _ hc2, hl, hu]
  refine and_congr_right fun _ => and_congr_right fun _ => and_congr ?_ ?_ <;>
    exact forall₂_congr fun j hj => by rw [h j hj]

/-- **C71** for an `InitialStateLMPC`: if the solver reports success with a point that violates its problem by at most `δ`
and is within `ε` of the best feasible value, the returned initial state violates its bounds by at most `δ`, the trajectory
that starts there and the controls violate every declared constraint by at most `δ`, and (when the state respects its
bounds) the controls cost at most `ε` more than any controls admissible from that state. -/
theorem c71_tolerance_init {q : QP K} {p : Nat} {δ ε : K} (h : Hist d dmax E w g) (hE : ∀ w op, E w op → NoBoundSpan w op)
    (ho : OpOk d w g (.solve env)) (hi : w.ctl.isInit = true) (hb : w.ctl.spBoundConstr = [] → g.clean)
    (hh : ∀ i ∈ w.ctl.spConstr, (w.cons i).userData.Honest) (hf : CostsFresh d w g)
    (hs : w.solve env = some (w', true, q)) (hp : w.ctl.ps = some p) (hn : NearOptimal δ ε q (env.answer q).2.e) :
    ∃ x : Vec K, w'.ctl.initialState (w'.pss p) = some x ∧ InitBoundsWithin d δ w.ctl x.e ∧
      IsStacked d (Spec.trajFrom d w p x.e w'.ctl.control.e) w'.ctl.trajectory ∧
      (∀ i ∈ w.ctl.spConstr,
        (w.cons i).userData.HoldsWithin d δ (Spec.trajFrom d w p x.e w'.ctl.control.e) w'.ctl.control.e) ∧
      (InitBounds d w.ctl x.e → ∀ V : Nat → K,
        (∀ i ∈ w.ctl.spConstr, (w.cons i).userData.Holds d (Spec.trajFrom d w p x.e V) V) →
        (∀ j < d.m * d.N, -dmax ≤ V j ∧ V j ≤ dmax) →
        totalCostFrom d w p x.e w'.ctl.control.e ≤ totalCostFrom d w p x.e V + ε) := by
  obtain ⟨w'', b'', q'', hs'', _, hw, hnv⟩ := c50_solve_defined h ho
  rw [hs] at hs''
  obtain ⟨rfl, rfl, rfl⟩ : w' = w'' ∧ true = b'' ∧ q = q'' := by
    injection hs'' with e; injection e with e1 e2; injection e2 with e2 e3; exact ⟨e1, e2, e3⟩
  obtain ⟨hx, hm⟩ := hn
  obtain ⟨x, h1, h2, h3, h4, _, h6⟩ := c47_initial_state_partial h ho hi hs hp
  have hc := ((c40_success h ho hs hp).2.2 hi).1
  obtain ⟨κ, O⟩ := c58_objective_per_state h ho hi hf hs hp x.e
  have nv : q.nrVar = d.n + d.m * d.N := by rw [hnv]; unfold numVars; rw [hi]; rfl
  have agree : ∀ j < q.nrVar, (env.answer q).2.e j = joined d x.e w'.ctl.control.e j := by
    intro j hj
    unfold joined
    split
    · next hlt => exact (h3 j hlt).symm
    · next hge =>
      rw [hc (j - d.n) (by omega)]
      congr 1; omega
  obtain ⟨a1, a2, _⟩ := (c71_residuals_init h hE ho hi hb hh hs hp δ _ _).1 ((FeasibleWithin.congr hw agree).1 hx)
  refine ⟨x, h1, a2, h4, a1, fun hxb V hV hr => ?_⟩
  have := hm _ ((c44_joint_feasible h hE ho hi hb hh hs hp x.e V).2 ⟨hV, hxb, fun _ => hr⟩)
  rw [objective.congr hw agree, O, O] at this
  linarith

/-- **C69** (zero weight) for an `InitialStateLMPC`: `weight(0)` and `removeCost` rank controls the same way at every
initial state. -/
theorem c69_zero_weight_init {w1 w2 w1' w2' : World K}
    {env1 env2 : SolveEnv K} {b1 b2 : Bool} {q1 q2 : QP K} {p i : Nat} (h : Hist d dmax E w g) (hE1 : E w (.weight i 0))
    (hE2 : E w (.removeCost i)) (h1 : w.step dmax (.weight i 0) = .ok w1) (h2 : w.step dmax (.removeCost i) = .ok w2)
    (o1 : OpOk d w1 g (.solve env1)) (o2 : OpOk d w2 g (.solve env2)) (hi : w.ctl.isInit = true)
    (hc : w.ctl.spCost.count i ≤ 1) (hf : CostsFresh d w g) (hp : w.ctl.ps = some p)
    (s1 : w1.solve env1 = some (w1', b1, q1)) (s2 : w2.solve env2 = some (w2', b2, q2)) (x : Nat → K) :
    ∃ k : K, ∀ U : Nat → K, objective q1 (joined d x U) = objective q2 (joined d x U) + k := by
  obtain ⟨k1, a1⟩ := c69_weight_init h hE1 h1 o1 hi hf s1 hp x
  have e : w2 = { w with ctl := w.ctl.removeCost i } := by
    simp only [step] at h2; injection h2 with h2; exact h2.symm
  have h' : Hist d dmax E w2 g := Hist.ok (op := .removeCost i) h trivial hE2 h2
  subst e
  obtain ⟨k2, a2⟩ := c58_objective_per_state h' o2 hi (by
    intro j hj hps
    have hm : j ∈ w.ctl.spCost := List.mem_of_mem_erase hj
    obtain ⟨f, c⟩ := hf j hm hps
    refine ⟨f, le_antisymm ?_ (List.count_pos_iff.2 hj)⟩
    exact le_trans ((List.erase_sublist ..).count_le _) (le_of_eq c)) s2 hp x
  refine ⟨k1 - k2, fun U => ?_⟩
  rw [a1, a2]
  unfold costWithFrom totalCostFrom
  simp only [zero_mul]
  rw [sum_erase _ hc]
  show _ = _ + 1 / 2 * (1 / 1000000) * _ + k2 + (k1 - k2)
  have : Spec.trajFrom d { w with ctl := w.ctl.removeCost i } p x U = Spec.trajFrom d w p x U := rfl
  rw [this]
  show 1 / 2 * _ + _ + k1 = 1 / 2 * ((w.ctl.spCost.erase i).map _).sum + _ + k2 + (k1 - k2)
  ring

end World

/-! ## C62 -/

namespace MWorld
variable {n : Nat} {d : Dims} {dmax : K} {E : World K → Op K → Prop} {w w' : MWorld K n} {g : MGhost n} {k : Fin n}
  {env : SolveEnv K}

/-- **C62** (feasible set) for an `InitialStateLMPC` among several controllers. -/
theorem c62_feasible_set_init {b : Bool} {q : QP K} {p : Nat} (hE : AboutObjects E)
    (hE' : ∀ w op, E w op → NoBoundSpan w op) (h : MHist d dmax E w g)
    (ho : OpOk d (w.view k) (g.view k) (.solve env)) (hi : (w.ctls k).isInit = true)
    (hb : (w.ctls k).spBoundConstr = [] → g.clean k)
    (hh : ∀ i ∈ (w.ctls k).spConstr, (w.cons i).userData.Honest)
    (hs : w.solve env k = some (w', b, q)) (hp : (w.ctls k).ps = some p) (x U : Nat → K) :
    Feasible q (joined d x U) ↔
      (∀ i ∈ (w.ctls k).spConstr, (w.cons i).userData.Holds d (Spec.trajFrom d (w.view k) p x U) U) ∧
      InitBounds d (w.ctls k) x ∧
      ((w.ctls k).spBoundConstr = [] → ∀ j < d.m * d.N, -dmax ≤ U j ∧ U j ≤ dmax) := by
  obtain ⟨v, hv, rfl⟩ := solve_some hs
  exact World.c44_joint_feasible (h.view hE k) hE' ho hi hb hh hv hp x U

/-- **C62** (end to end) for an `InitialStateLMPC` among several controllers. -/
theorem c62_end_to_end_init {q : QP K} {p : Nat} {s : SolverKind} {junk : Junk K} (hE : AboutObjects E)
    (hE' : ∀ w op, E w op → NoBoundSpan w op) (h : MHist d dmax E w g)
    (ho : OpOk d (w.view k) (g.view k) (.solve env)) (hi : (w.ctls k).isInit = true)
    (hb : (w.ctls k).spBoundConstr = [] → g.clean k)
    (hh : ∀ i ∈ (w.ctls k).spConstr, (w.cons i).userData.Honest)
    (hf : ∀ i ∈ (w.ctls k).spCost, (w.costs i).userData.PerStepState d → g.fresh i ∧ (w.ctls k).spCost.count i = 1)
    (hs : w.solve env k = some (w', true, q)) (hp : (w.ctls k).ps = some p)
    (hn : q.nrEq + q.nrIneq + 2 * q.nrVar ≤ intMax)
    (hopt : BackEndOptimal dmax junk s q (env.answer q).2.e) :
    ∃ x : Vec K, (w'.ctls k).initialState (w'.pss p) = some x ∧ InitBounds d (w.ctls k) x.e ∧
      IsStacked d (Spec.trajFrom d (w.view k) p x.e (w'.ctls k).control.e) (w'.ctls k).trajectory ∧
      (∀ i ∈ (w.ctls k).spConstr,
        (w.cons i).userData.Holds d (Spec.trajFrom d (w.view k) p x.e (w'.ctls k).control.e) (w'.ctls k).control.e) ∧
      ∀ V : Nat → K, (∀ i ∈ (w.ctls k).spConstr, (w.cons i).userData.Holds d (Spec.trajFrom d (w.view k) p x.e V) V) →
        (∀ j < d.m * d.N, -dmax ≤ V j ∧ V j ≤ dmax) →
        (s = .osqp → ∀ i < q.Aineq.rows, -dmax ≤ rowValue q.Aineq (joined d x.e V) i) →
        totalCostFrom d (w.view k) p x.e (w'.ctls k).control.e ≤ totalCostFrom d (w.view k) p x.e V := by
  obtain ⟨v, hv, rfl⟩ := solve_some hs
  rw [put_ctl]
  exact World.c60_initial_state_end_to_end (h.view hE k) hE' ho hi hb hh hf hv hp hn hopt

end MWorld
end

namespace Ex
open World

def jc6 := after 1000 j7 .clearCosts

/-- C38 applies to an `InitialStateLMPC`. -/
example : ∃ r, jc6.solve (envI yJ true) = some r ∧ ∀ x U : Nat → ℚ, objective r.2.2 (joined d x U) =
    initialCost d j7.ctl x + 1 / 2 * (1 / 1000000) * ∑ j ∈ Finset.range 2, U j ^ 2 := by
  have st := okB_step (by decide +kernel : okB 1000 j7 .clearCosts = true)
  have o : OpOk d jc6 (gI.next j7 True .clearCosts) (.solve (envI yJ true)) :=
    ⟨by decide +kernel, contractI rfl (by decide +kernel) (by decide +kernel)⟩
  have H := Hist.ok (op := .clearCosts) hj7 trivial ⟨trivial, trivial, trivial⟩ st
  obtain ⟨v, b, q, s, _⟩ := c50_solve_defined H o
  exact ⟨_, s, fun x U => c38_clearCosts_init hj7 ⟨trivial, trivial, trivial⟩ st (by decide +kernel) o.2 s x U⟩

/-- C67 applies to an `InitialStateLMPC`. -/
example (k : SolverKind) (junk : Junk ℚ) :=
  c67_regularisation_init (k := k) (junk := junk) hj7 (fun _ _ h => h.1) oJ7 (by decide +kernel) (fun _ => trivial) honestJ7
    freshJ7 sJ (by decide +kernel : j7.ctl.ps = some 0) (by decide +kernel)
    (backEndOptimal_of (by decide +kernel) (by decide +kernel) (by decide +kernel) optJ)

def ja8 := after 1000 j7 (.weight 0 5)
def jb8 := after 1000 j7 (.weights 0 (vec [5, 7]))
def jz8 := after 1000 j7 (.weight 0 0)
def jr8 := after 1000 j7 (.removeCost 0)

theorem oJany {w : World ℚ} {g : Ghost} (hp : w.ctl.ps ≠ none) (hs : w.ctl.sol.isSome = true)
    (hd : w.ctl.R.rows = 2 ∧ w.ctl.R.cols = 2 ∧ w.ctl.r.rows = 2 ∧ w.ctl.x0lb.rows = 2 ∧ w.ctl.x0ub.rows = 2) :
    OpOk d w g (.solve (envI yJ true)) := ⟨hp, contractI rfl hs hd⟩

/-- C69 applies to `weight(5)` on an `InitialStateLMPC`. -/
example : ∃ r, ja8.solve (envI yJ true) = some r ∧ ∀ x : Nat → ℚ, ∃ k : ℚ, ∀ U : Nat → ℚ, objective r.2.2 (joined d x U) =
    costWithFrom d j7 0 0 (fun X U => 5 * (reweighted (fun _ => 1) (j7.costs 0).userData).value d X U) x U + k := by
  have st := okB_step (by decide +kernel : okB 1000 j7 (.weight 0 5) = true)
  have e : Careful j7 (.weight 0 5) := ⟨trivial, (by norm_num : (0 : ℚ) ≤ 5), trivial⟩
  have H := Hist.ok (op := .weight 0 5) hj7 trivial e st
  have o : OpOk d ja8 gI (.solve (envI yJ true)) := oJany (by decide +kernel) (by decide +kernel) (by decide +kernel)
  obtain ⟨v, b, q, s, _⟩ := c50_solve_defined H o
  exact ⟨_, s, c69_weight_init hj7 e st o (by decide +kernel) freshJ7 s (by decide +kernel : j7.ctl.ps = some 0)⟩

/-- C69 applies to `weights((5, 7))` on an `InitialStateLMPC`. -/
example : ∃ r, jb8.solve (envI yJ true) = some r ∧ ∀ x : Nat → ℚ, ∃ k : ℚ, ∀ U : Nat → ℚ, objective r.2.2 (joined d x U) =
    costWithFrom d j7 0 0 (fun X U => (reweighted (fun r => (vec [5, 7]).e (r % 2)) (j7.costs 0).userData).value d X U) x U + k := by
  have st := okB_step (by decide +kernel : okB 1000 j7 (.weights 0 (vec [5, 7])) = true)
  have e : Careful j7 (.weights 0 (vec [5, 7])) :=
    ⟨trivial, (by decide +kernel : ∀ j < (vec [5, 7]).rows, (0 : ℚ) ≤ (vec [5, 7]).e j), trivial⟩
  have H := Hist.ok (op := .weights 0 (vec [5, 7])) hj7 trivial e st
  have o : OpOk d jb8 gI (.solve (envI yJ true)) := oJany (by decide +kernel) (by decide +kernel) (by decide +kernel)
  obtain ⟨v, b, q, s, _⟩ := c50_solve_defined H o
  exact ⟨_, s, c69_weights_init hj7 e (by decide) (by decide +kernel) st o (by decide +kernel) freshJ7 s
    (by decide +kernel : j7.ctl.ps = some 0)⟩

/-- C69 applies to `weight(0)` and `removeCost` on an `InitialStateLMPC`. -/
example : ∃ r r', jz8.solve (envI yJ true) = some r ∧ jr8.solve (envI yJ true) = some r' ∧ ∀ x : Nat → ℚ, ∃ k : ℚ,
    ∀ U : Nat → ℚ, objective r.2.2 (joined d x U) = objective r'.2.2 (joined d x U) + k := by
  have st := okB_step (by decide +kernel : okB 1000 j7 (.weight 0 0) = true)
  have st' := okB_step (by decide +kernel : okB 1000 j7 (.removeCost 0) = true)
  have e : Careful j7 (.weight 0 0) := ⟨trivial, le_refl (0 : ℚ), trivial⟩
  have e' : Careful j7 (.removeCost 0) := ⟨trivial, trivial, trivial⟩
  have H := Hist.ok (op := .weight 0 0) hj7 trivial e st
  have H' := Hist.ok (op := .removeCost 0) hj7 trivial e' st'
  have o : OpOk d jz8 gI (.solve (envI yJ true)) := oJany (by decide +kernel) (by decide +kernel) (by decide +kernel)
  have o' : OpOk d jr8 gI (.solve (envI yJ true)) := oJany (by decide +kernel) (by decide +kernel) (by decide +kernel)
  obtain ⟨v, b, q, s, _⟩ := c50_solve_defined H o
  obtain ⟨v', b', q', s', _⟩ := c50_solve_defined H' o'
  exact ⟨_, _, s, s', c69_zero_weight_init hj7 e e' st st' o o' (by decide +kernel) (by decide +kernel) freshJ7
    (by decide +kernel : j7.ctl.ps = some 0) s s'⟩

/-- C71 applies to an `InitialStateLMPC`. -/
example := c71_tolerance_init (δ := 1 / 1000) (ε := 1 / 1000) hj7 (fun _ _ h => h.1) oJ7 (by decide +kernel) (fun _ => trivial)
  honestJ7 freshJ7 sJ (by decide +kernel : j7.ctl.ps = some 0) (by
    refine ⟨?_, fun y hy => by have := optJ.2 y hy; linarith⟩
    have f := feasibleWithin_zero.2 optJ.1
    obtain ⟨f1, f2, f3, f4⟩ := f
    refine ⟨fun i hi => ?_, fun i hi => ?_, fun i hi => ?_, fun i hi => ?_⟩
    · obtain ⟨t, e, a⟩ := f1 i hi
      exact ⟨t, e, le_trans a (by norm_num)⟩
    · revert i; decide +kernel
    · revert i; decide +kernel
    · revert i; decide +kernel)

namespace Multi
open MWorld

/-! A plain controller and an `InitialStateLMPC` that share a system, a constraint and a cost; the plain one solves first. -/

def mi0 : MWorld ℚ 2 := { m0 with ctls := fun k => LMPC.construct (k = 1) solver }
def mi1 := after 1000 mi0 0 opSys
def mi2 := after 1000 mi1 0 opCtl
def mi3 := after 1000 mi2 1 (.constructPs true solver 0 jk)
def mi4 := after 1000 mi3 0 (.addConstraint 0 jk)
def mi5 := after 1000 mi4 1 (.addConstraint 0 jk)
def mi6 := after 1000 mi5 0 (.addCost 1 jk)
def mi7 := after 1000 mi6 1 (.addCost 1 jk)
def mi8 := after 1000 mi7 1 (.resetInitialStateCost (mat 2 2 [[1, 0], [0, 1]]) (vec [1/10, 1/5]))
def mi8b := after 1000 mi8 1 (.resetInitialStateBounds (evec [.fin (-5), .fin (-5)]) (evec [.fin 5, .fin 5]))
def mi9 := after 1000 mi8b 0 (.solve best)

theorem hmi9 : ∃ g : MGhost 2, MHist d 1000 Nice mi9 g ∧ g.clean 1 := by
  have i0 : MWorld.Init mi0 := ⟨fun _ => rfl, w0_init.2.1, w0_init.2.2.1, fun k => ⟨k = 1, solver, rfl⟩⟩
  have a1 := hist_after (d := d) (dmax := 1000) (E := Nice) (op := opSys) (k := (0 : Fin 2)) (.start i0) ⟨rfl, rfl, rfl⟩
    ⟨trivial, trivial⟩ (by decide +kernel)
  have a2 := hist_after (op := opCtl) (k := 0) a1 (show HasSystem (mi1.view 0) 0 by unfold HasSystem; decide +kernel)
    ⟨trivial, trivial⟩ (by decide +kernel : okB 1000 mi1 0 _ = true)
  have a3 := hist_after (op := .constructPs true solver 0 jk) (k := 1) a2
    (show HasSystem (mi2.view 1) 0 by unfold HasSystem; decide +kernel)
    ⟨trivial, trivial⟩ (by decide +kernel : okB 1000 mi2 1 _ = true)
  have a4 := hist_after (op := .addConstraint 0 jk) (k := 0) a3
    (fun _ => (by decide +kernel : (mi3.ctls 0).spBoundConstr = [])) ⟨trivial, trivial⟩ (by decide +kernel : okB 1000 mi3 0 _ = true)
  have a5 := hist_after (op := .addConstraint 0 jk) (k := 1) a4
    (fun _ => (by decide +kernel : (mi4.ctls 1).spBoundConstr = [])) ⟨trivial, trivial⟩ (by decide +kernel : okB 1000 mi4 1 _ = true)
  have a6 := hist_after (op := .addCost 1 jk) (k := 0) a5 trivial ⟨trivial, trivial⟩ (by decide +kernel : okB 1000 mi5 0 _ = true)
  have a7 := hist_after (op := .addCost 1 jk) (k := 1) a6 trivial ⟨trivial, trivial⟩ (by decide +kernel : okB 1000 mi6 1 _ = true)
  have a8 := hist_after (op := .resetInitialStateCost (mat 2 2 [[1, 0], [0, 1]]) (vec [1/10, 1/5])) (k := 1) a7 trivial
    ⟨trivial, trivial⟩ (by decide +kernel : okB 1000 mi7 1 _ = true)
  have a9 := hist_after (op := .resetInitialStateBounds (evec [.fin (-5), .fin (-5)]) (evec [.fin 5, .fin 5])) (k := 1) a8 trivial
    ⟨trivial, trivial⟩ (by decide +kernel : okB 1000 mi8 1 _ = true)
  exact ⟨_, hist_after (op := .solve best) (k := 0) a9
    (o_of _ rfl _ (by decide +kernel) (by decide +kernel) (by decide +kernel) _) ⟨trivial, trivial⟩
    (by decide +kernel : okB 1000 mi8b 0 _ = true), trivial⟩

def yMI : Vec ℚ := vec [-1/10, -1/5, 1000000 / 1000001, 1000000 / 1000001]
def rMI : MWorld ℚ 2 × Bool × QP ℚ := (mi9.solve (envI yMI true) 1).getD (mi9, false, q13)

theorem sMI : mi9.solve (envI yMI true) 1 = some (rMI.1, true, rMI.2.2) := by
  have e : (mi9.solve (envI yMI true) 1).isSome = true := by decide +kernel
  obtain ⟨r, hr⟩ := Option.isSome_iff_exists.1 e
  have h1 : rMI = r := by unfold rMI; rw [hr]; rfl
  have h2 : rMI.2.1 = true := by decide +kernel
  rw [hr, ← h2, h1]

/-- The Hessian is diagonal with positive entries, the answer is stationary. -/
theorem optMI : IsOptimal rMI.2.2 ((envI yMI true).answer rMI.2.2).2.e := by
  refine optimal_of_stationary ?_ (by decide +kernel) (by decide +kernel)
  rw [(by decide +kernel : rMI.2.2.c.rows = 4)]
  have hd : ∀ i < 4, ∀ j < 4, rMI.2.2.Q.e i j = if i = j then (if i < 2 then 1 else 1000001 / 1000000) else 0 := by decide +kernel
  refine ⟨fun i hi j hj => by rw [hd i hi j hj, hd j hj i hi]; by_cases h : i = j <;> simp [h, eq_comm], fun x => ?_⟩
  apply Finset.sum_nonneg; intro i hi
  apply Finset.sum_nonneg; intro j hj
  rw [hd i (Finset.mem_range.1 hi) j (Finset.mem_range.1 hj)]
  by_cases h : i = j
  · subst h
    rw [if_pos rfl]
    have := mul_self_nonneg (x i)
    split <;> nlinarith
  · rw [if_neg h]; simp

/-- C62 applies to an `InitialStateLMPC`, with every back end. -/
example (s : SolverKind) (junk : Junk ℚ) :
    ∃ x : Vec ℚ, (rMI.1.ctls 1).initialState (rMI.1.pss 0) = some x ∧ InitBounds d (mi9.ctls 1) x.e ∧
      IsStacked d (Spec.trajFrom d (mi9.view 1) 0 x.e (rMI.1.ctls 1).control.e) (rMI.1.ctls 1).trajectory := by
  obtain ⟨g, h, c⟩ := hmi9
  have o : OpOk d (mi9.view 1) (g.view 1) (.solve (envI yMI true)) :=
    ⟨by decide +kernel, contractI rfl (by decide +kernel) (by decide +kernel)⟩
  have hh : ∀ i ∈ (mi9.ctls 1).spConstr, (mi9.cons i).userData.Honest := by
    intro i hi
    rw [(by decide +kernel : (mi9.ctls 1).spConstr = [0])] at hi
    rw [List.mem_singleton.1 hi]
    have : (mi9.cons 0).kind = .trajectory := by decide +kernel
    unfold Constr.userData
    rw [this]
    trivial
  obtain ⟨x, a, b, e, _⟩ := c62_end_to_end_init (s := s) (junk := junk) nice_about (fun _ _ h => h.1) h o (by decide +kernel)
    (fun _ => c) hh
    (fun i hi hps => absurd hps (plainCost (by decide +kernel : (mi9.ctls 1).spCost = [1]) (by decide +kernel) i hi))
    sMI (by decide +kernel : (mi9.ctls 1).ps = some 0) (by decide +kernel)
    (backEndOptimal_of (by decide +kernel) (by decide +kernel) (by decide +kernel) optMI)
  exact ⟨x, a, b, e⟩

end Multi
end Ex
end Copra
