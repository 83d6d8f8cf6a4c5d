import Verif.Proofs.Existence
import Verif.Props.Solvable
import Verif.Props.Answer
import Verif.Props.InitVariants

/-! # C87: every problem the controller builds has exactly one answer if its constraints can be met -/

namespace Copra

namespace Spec
variable {K : Type} [Field K] [LinearOrder K]

/-- A back end of kind `k` that is exact on the problem `q`: it reports success if and only if the problem its wrapper
hands to it has a minimiser, and then it returns a minimiser. -/
def ExactOn (dmax : K) (junk : Junk K) (k : SolverKind) (q : QP K) (a : Bool × Vec K) : Prop :=
  (a.1 = true ↔ ∃ x, BackEndOptimal dmax junk k q x) ∧ (a.1 = true → BackEndOptimal dmax junk k q a.2.e)

/-- An admissible control sequence of least total cost. -/
def BestPlan (d : Dims) (dmax : K) (w : World K) (p : Nat) (V : Nat → K) : Prop :=
  Admissible d dmax w p V ∧ ∀ V', Admissible d dmax w p V' → World.totalCost d w p V ≤ World.totalCost d w p V'

end Spec
open Spec

set_option linter.unusedSectionVars false
set_option maxRecDepth 100000

section
variable {K : Type} [Field K] [LinearOrder K] [IsStrictOrderedRing K]

/-- What a back end's minimisers are. -/
theorem backEndOptimal_iff {dmax : K} {junk : Junk K} {k : SolverKind} {q : QP K} {x : Nat → K} (hw : WellSized q)
    (hi : q.nrEq + q.nrIneq + 2 * q.nrVar ≤ intMax) : BackEndOptimal dmax junk k q x ↔
      (Feasible q x ∧ (k = .osqp → ∀ i < q.Aineq.rows, -dmax ≤ rowValue q.Aineq x i)) ∧
      ∀ y, Feasible q y ∧ (k = .osqp → ∀ i < q.Aineq.rows, -dmax ≤ rowValue q.Aineq y i) → objective q x ≤ objective q y := by
  constructor
  · intro h
    obtain ⟨a, b⟩ := BackEndOptimal.spec hw hi h
    refine ⟨⟨a, fun hk => ?_⟩, fun y hy => b y hy.1 hy.2⟩
    subst hk
    exact BackEndOptimal.rows hw hi h
  · rintro ⟨⟨f, r⟩, m⟩
    by_cases hk : k = .osqp
    · subst hk
      obtain ⟨p, hp, _, _, F, O⟩ := c42_osqp dmax junk hw (by omega)
      exact ⟨p, hp, (F x).2 ⟨f, r rfl⟩, fun y hy => by rw [O, O]; exact m y ⟨((F y).1 hy).1, fun _ => ((F y).1 hy).2⟩⟩
    · have o : IsOptimal q x := ⟨f, fun y hy => m y ⟨hy, fun h => absurd h hk⟩⟩
      cases k
      case quadProgDense =>
        obtain ⟨p, hp, _, _, F, O⟩ := c41_quadProg junk hw (by omega)
        exact ⟨p, hp, (F x).2 o.1, fun y hy => by rw [O, O]; exact o.2 y ((F y).1 hy)⟩
      case lssol =>
        obtain ⟨p, hp, _, _, F, O⟩ := c42_lssol junk hw (by omega)
        exact ⟨p, hp, (F x).2 o.1, fun y hy => by rw [O, O]; exact o.2 y ((F y).1 hy)⟩
      case osqp => exact absurd rfl hk
      case qld => exact o
      case userDefined => exact o
      case gurobi => exact o

/-- The problem handed to a back end has a minimiser if it has a solution, when the Hessian is positive definite on the
coordinates that are not fixed. -/
theorem backEnd_exists {dmax : K} {junk : Junk K} {k : SolverKind} {q : QP K} (hw : WellSized q)
    (hi : q.nrEq + q.nrIneq + 2 * q.nrVar ≤ intMax) (m : Nat) (sym : Symmetric q.nrVar q.Q)
    (P : ∀ x : Nat → K, (∀ i < m, x i = 0) → (∃ i < q.nrVar, x i ≠ 0) →
      0 < ∑ i ∈ Finset.range q.nrVar, ∑ j ∈ Finset.range q.nrVar, x i * q.Q.e i j * x j)
    (fix : ∀ x y, Feasible q x → Feasible q y → ∀ i < m, x i = y i) :
    (∃ x, BackEndOptimal dmax junk k q x) ↔ BackEndSolvable dmax junk k q := by
  rw [backEndSolvable_iff hw hi]
  constructor
  · rintro ⟨x, hx⟩; exact ⟨x, ((backEndOptimal_iff hw hi).1 hx).1⟩
  · intro hf
    have hc : q.Aineq.cols = q.nrVar := hw.2.2.2.2.2.2.2.1
    have R : Existence.Poly (K := K) fun x : Fin q.nrVar → K =>
        k = .osqp → ∀ i < q.Aineq.rows, -dmax ≤ rowValue q.Aineq (Existence.ext q.nrVar x) i := by
      by_cases hk : k = .osqp
      · have := Existence.Poly.forall q.Aineq.rows fun i _ =>
          Existence.Poly.ge (Existence.form q.nrVar q.Aineq.cols (q.Aineq.e i)) (Ext.fin (-dmax))
        obtain ⟨L, hL⟩ := this
        refine ⟨L, fun x => ?_⟩
        rw [← hL]
        simp only [Existence.form_apply]
        exact ⟨fun h i hi => h hk i hi, fun h _ i hi => h i hi⟩
      · exact ⟨[], fun x => by simp [hk]⟩
    obtain ⟨x, hx, hm⟩ := exists_min_on (F := fun x => Feasible q x ∧ (k = .osqp → ∀ i < q.Aineq.rows, -dmax ≤ rowValue q.Aineq x i))
      hw ((Existence.feasible_poly q).and R)
      (fun x y h hx => ⟨(Feasible.congr hw h).1 hx.1, fun hk i hi => by
        have : rowValue q.Aineq y i = rowValue q.Aineq x i :=
          Finset.sum_congr rfl fun c hc' => by rw [h c (by rw [← hc]; exact Finset.mem_range.1 hc')]
        rw [this]; exact hx.2 hk i hi⟩)
      m sym P (fun x y hx hy => fix x y hx.1 hy.1) hf
    exact ⟨x, (backEndOptimal_iff hw hi).2 ⟨hx, hm⟩⟩

namespace World
variable {d : Dims} {dmax : K} {E : World K → Op K → Prop} {w w' : World K} {g : Ghost} {env : SolveEnv K}

/-- **C87** (existence and uniqueness): whenever some control sequence satisfies all the registered constraints, there is
one of least total cost, and all of least total cost are equal. -/
theorem c87_one_best_plan {p : Nat} (h : Hist d dmax E w g) (hE : ∀ w op, E w op → NoBoundSpan w op ∧ NonnegWeights w op)
    (ho : OpOk d w g (.solve env)) (hi : w.ctl.isInit = false) (hb : w.ctl.spBoundConstr = [] → g.clean)
    (hh : ∀ i ∈ w.ctl.spConstr, (w.cons i).userData.Honest) (hf : CostsFresh d w g) (hp : w.ctl.ps = some p)
    (hV : ∃ V, Admissible d dmax w p V) :
    (∃ V, BestPlan d dmax w p V) ∧ ∀ V V', BestPlan d dmax w p V → BestPlan d dmax w p V' → ∀ j < d.m * d.N, V j = V' j := by
  obtain ⟨w', b, q, hs, _, hw, hnv⟩ := c50_solve_defined h ho
  have F := c30_feasible_set h (fun w op h => (hE w op h).1) ho hi hb hh hs hp
  obtain ⟨κ, O⟩ := c32_objective h ho hi hf hs hp
  have P := c29_hessian h (fun w op h => (hE w op h).2) ho hi hs
  have B : ∀ V, BestPlan d dmax w p V ↔ IsOptimal q V := fun V => by
    refine and_congr (F V).symm (forall_congr' fun V' => ?_)
    rw [F V', O, O, add_le_add_iff_right]
    exact Iff.rfl
  have nv : q.nrVar = d.m * d.N := by rw [hnv]; unfold numVars; rw [hi]; rfl
  refine ⟨?_, fun V V' h1 h2 j hj => ?_⟩
  · obtain ⟨V, hV⟩ := exists_optimal hw P (hV.imp fun V hV => (F V).2 hV)
    exact ⟨V, (B V).2 hV⟩
  · have o1 := (B V).1 h1
    have o2 := (B V').1 h2
    have fm := feasible_mid o1.1 o2.1
    rw [← hw.2.2.1] at P
    exact pd_unique P (o1.2 _ fm) (o2.2 _ fm) j (by rw [hw.2.2.1, nv]; exact hj)

/-- **C87** (success): with an exact back end, `solve()` returns `true` if and only if some control sequence satisfies
all the registered constraints — whatever the costs are and however often they were updated.  No assumption is made about
problems that have solutions but no minimiser: there are none. -/
theorem c87_exact_success {b : Bool} {q : QP K} {p : Nat} {k : SolverKind} {junk : Junk K} (h : Hist d dmax E w g)
    (hE : ∀ w op, E w op → NoBoundSpan w op ∧ NonnegWeights w op) (ho : OpOk d w g (.solve env)) (hi : w.ctl.isInit = false)
    (hb : w.ctl.spBoundConstr = [] → g.clean) (hh : ∀ i ∈ w.ctl.spConstr, (w.cons i).userData.Honest)
    (hs : w.solve env = some (w', b, q)) (hp : w.ctl.ps = some p) (hn : q.nrEq + q.nrIneq + 2 * q.nrVar ≤ intMax)
    (hx : ExactOn dmax junk k q (env.answer q)) :
    b = true ↔ ∃ V, Admissible d dmax w p V ∧ (k = .osqp → ∀ i < q.Aineq.rows, -dmax ≤ rowValue q.Aineq V i) := by
  obtain ⟨_, _, _, e, _, hw, _⟩ := c50_solve_defined h ho
  rw [hs] at e; cases e
  have P := c29_hessian h (fun w op h => (hE w op h).2) ho hi hs
  refine c73_success_iff h (fun w op h => (hE w op h).1) ho hi hb hh hs hp hn (hx.1.trans ?_) (junk := junk)
  exact backEnd_exists hw hn 0 P.1 (fun x _ => P.2 x) fun _ _ _ _ i hi => absurd hi (Nat.not_lt_zero i)

/-- **C87** (result): with an exact back end other than OSQP, a `solve()` that returns `true` leaves the one best plan in
`control()`. -/
theorem c87_exact_result {q : QP K} {p : Nat} {k : SolverKind} {junk : Junk K} (h : Hist d dmax E w g)
    (hE : ∀ w op, E w op → NoBoundSpan w op ∧ NonnegWeights w op) (ho : OpOk d w g (.solve env)) (hi : w.ctl.isInit = false)
    (hb : w.ctl.spBoundConstr = [] → g.clean) (hh : ∀ i ∈ w.ctl.spConstr, (w.cons i).userData.Honest) (hf : CostsFresh d w g)
    (hs : w.solve env = some (w', true, q)) (hp : w.ctl.ps = some p) (hn : q.nrEq + q.nrIneq + 2 * q.nrVar ≤ intMax)
    (hk : k ≠ .osqp) (hx : ExactOn dmax junk k q (env.answer q)) :
    BestPlan d dmax w p w'.ctl.control.e ∧ ∀ V, BestPlan d dmax w p V → ∀ j < d.m * d.N, V j = w'.ctl.control.e j := by
  obtain ⟨_, _, _, e, _, hw, _⟩ := c50_solve_defined h ho
  rw [hs] at e; cases e
  have F := c30_feasible_set h (fun w op h => (hE w op h).1) ho hi hb hh hs hp
  obtain ⟨κ, O⟩ := c32_objective h ho hi hf hs hp
  obtain ⟨⟨f, _⟩, m⟩ := (backEndOptimal_iff hw hn).1 (hx.2 (solve_reports hs).symm)
  rw [← c40_control_is_answer hi hs] at f m
  have B : BestPlan d dmax w p w'.ctl.control.e := by
    refine ⟨(F _).1 f, fun V hV => ?_⟩
    have := m V ⟨(F V).2 hV, fun h => absurd h hk⟩
    rw [O, O] at this
    linarith
  exact ⟨B, fun V hV => (c87_one_best_plan h hE ho hi hb hh hf hp ⟨_, B.1⟩).2 V _ hV B⟩

/-- **C87** for an `InitialStateLMPC`: the same if the initial-state cost is positive definite, or if — as after
construction, C46 — both bounds on the initial state are equal (whatever symmetric cost is set; the constructor sets
zero). -/
theorem c87_exact_success_init {b : Bool} {q : QP K} {p : Nat} {k : SolverKind} {junk : Junk K} (h : Hist d dmax E w g)
    (hE : ∀ w op, E w op → NoBoundSpan w op ∧ NonnegWeights w op) (ho : OpOk d w g (.solve env)) (hi : w.ctl.isInit = true)
    (hinv : TrueInverse d env)
    (hb : w.ctl.spBoundConstr = [] → g.clean) (hh : ∀ i ∈ w.ctl.spConstr, (w.cons i).userData.Honest)
    (hs : w.solve env = some (w', b, q)) (hp : w.ctl.ps = some p) (hn : q.nrEq + q.nrIneq + 2 * q.nrVar ≤ intMax)
    (hR : PD d.n w.ctl.R ∨
      Symmetric d.n w.ctl.R ∧ ∃ a : Nat → K, ∀ j < d.n, w.ctl.x0lb.e j = Ext.fin (a j) ∧ w.ctl.x0ub.e j = Ext.fin (a j))
    (hx : ExactOn dmax junk k q (env.answer q)) :
    b = true ↔ ∃ x V, AdmissibleFrom d dmax w p x V ∧
      (k = .osqp → ∀ i < q.Aineq.rows, -dmax ≤ rowValue q.Aineq (joined d x V) i) := by
  obtain ⟨_, _, _, e, _, hw, _⟩ := c50_solve_defined h ho
  rw [hs] at e; cases e
  refine c73_success_iff_init h (fun w op h => (hE w op h).1) ho hi hb hh hs hp hn (hx.1.trans ?_) (junk := junk)
  have C := c45_hessian_partial h (fun w op h => (hE w op h).2) ho hi hinv hs
  rcases hR with hR | ⟨sR, a, ha⟩
  · have P := C.2 hR
    exact backEnd_exists hw hn 0 P.1 (fun x _ => P.2 x) fun _ _ _ _ i hi => absurd hi (Nat.not_lt_zero i)
  · obtain ⟨nv, QU, W, Ex, hpd, hW, hUU, hxU, hUx, hxx⟩ := hessian_blocks h (fun w op h => (hE w op h).2) ho hi hinv hs
    have wsym := inverse_symm hpd.1 hW
    have sym : Symmetric q.nrVar q.Q := by
      rw [nv]
      intro i hi j hj
      by_cases h1 : i < d.n <;> by_cases h2 : j < d.n
      · rw [hxx i h1 j h2, hxx j h2 i h1, sR i h1 j h2]
        congr 1
        simp only [Finset.sum_mul]
        rw [Finset.sum_comm]
        refine Finset.sum_congr rfl fun s hs => Finset.sum_congr rfl fun t ht => ?_
        rw [wsym s (Finset.mem_range.1 hs) t (Finset.mem_range.1 ht)]; ring
      · obtain ⟨b, rfl⟩ := Nat.exists_eq_add_of_le (Nat.le_of_not_lt h2)
        rw [hxU i h1 b (by omega), hUx i h1 b (by omega)]
      · obtain ⟨b, rfl⟩ := Nat.exists_eq_add_of_le (Nat.le_of_not_lt h1)
        rw [hxU j h2 b (by omega), hUx j h2 b (by omega)]
      · obtain ⟨b, rfl⟩ := Nat.exists_eq_add_of_le (Nat.le_of_not_lt h1)
        obtain ⟨c, rfl⟩ := Nat.exists_eq_add_of_le (Nat.le_of_not_lt h2)
        rw [hUU b (by omega) c (by omega), hUU c (by omega) b (by omega), hpd.1 b (by omega) c (by omega)]
    refine backEnd_exists hw hn d.n sym (fun x h0 ⟨i, hi, hne⟩ => ?_) fun x y hx hy i hi => ?_
    · have pos := hpd.2 (fun j => x (d.n + j)) ⟨i - d.n, by
          have : ¬ i < d.n := fun hlt => hne (h0 i hlt)
          omega, by
          have : ¬ i < d.n := fun hlt => hne (h0 i hlt)
          rw [show d.n + (i - d.n) = i by omega]; exact hne⟩
      rw [nv, Finset.sum_range_add]
      have z1 : ∑ i ∈ Finset.range d.n, ∑ j ∈ Finset.range (d.n + d.m * d.N), x i * q.Q.e i j * x j = 0 :=
        Finset.sum_eq_zero fun i hi => Finset.sum_eq_zero fun j _ => by rw [h0 i (Finset.mem_range.1 hi)]; ring
      rw [z1, zero_add]
      refine lt_of_lt_of_eq pos (Finset.sum_congr rfl fun i hi => ?_)
      rw [Finset.sum_range_add]
      have z2 : ∑ j ∈ Finset.range d.n, x (d.n + i) * q.Q.e (d.n + i) j * x j = 0 :=
        Finset.sum_eq_zero fun j hj => by rw [h0 j (Finset.mem_range.1 hj)]; ring
      rw [z2, zero_add]
      exact Finset.sum_congr rfl fun j hj => by rw [hUU i (Finset.mem_range.1 hi) j (Finset.mem_range.1 hj)]
    · have b1 := feasible_initBounds h ho ‹_› hs hx i hi
      have b2 := feasible_initBounds h ho ‹_› hs hy i hi
      rw [Ext.pinned (ha i hi).1 (ha i hi).2 b1.1 b1.2, Ext.pinned (ha i hi).1 (ha i hi).2 b2.1 b2.2]

end World
end
end Copra
