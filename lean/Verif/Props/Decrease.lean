import Verif.Props.WellPosed
import Verif.Props.Convex

/-! # C88: the closed loop decreases its cost -/

namespace Copra

namespace Spec
variable {K : Type} [Field K] [LinearOrder K]

/-- A control sequence that satisfies every registered constraint of the simulation from the state `x`. -/
def PlanFrom (d : Dims) (dmax : K) (w : World K) (p : Nat) (x V : Nat → K) : Prop :=
  (∀ i ∈ w.ctl.spConstr, (w.cons i).userData.Holds d (trajFrom d w p x V) V) ∧
  (w.ctl.spBoundConstr = [] → ∀ j < d.m * d.N, -dmax ≤ V j ∧ V j ≤ dmax)

/-- Every plan `V` from any state `x` can be replaced, in the state it leads to, by a plan that costs less by at least
`ℓ x V`. -/
def Decreasing (d : Dims) (dmax : K) (w : World K) (p : Nat) (ℓ : (Nat → K) → (Nat → K) → K) : Prop :=
  ∀ x V, PlanFrom d dmax w p x V → ∃ V', PlanFrom d dmax w p (trajFrom d w p x V 1) V' ∧
    totalCostFrom d w p (trajFrom d w p x V 1) V' ≤ totalCostFrom d w p x V - ℓ x V

/-- A solver that reports success exactly on the problems that have a minimiser, with a minimiser. -/
def ExactSolver (d : Dims) (l : LMPC K) (env : SolveEnv K) : Prop :=
  ∀ q : QP K, WellSized q → q.nrVar = numVars d l →
    ((env.answer q).1 = true ↔ ∃ x, IsOptimal q x) ∧ ((env.answer q).1 = true → IsOptimal q (env.answer q).2.e)

end Spec
open Spec

set_option linter.unusedSectionVars false
set_option maxRecDepth 100000

section
variable {K : Type} [Field K] [LinearOrder K] [IsStrictOrderedRing K]

theorem wsq_nonneg {n : Nat} {w p : Vec K} (hw : ∀ r < n, 0 ≤ w.e r) (y : Nat → K) : 0 ≤ wsq n w p y :=
  Finset.sum_nonneg fun r hr => mul_nonneg (hw r (Finset.mem_range.1 hr)) (sq_nonneg _)

theorem value_nonneg {d : Dims} {D : CostData K} (hw : D.Nonneg) (X : Nat → Nat → K) (U : Nat → K) : 0 ≤ D.value d X U := by
  cases D <;> simp only [CostData.value]
  case trajectory M p w =>
    split
    · exact Finset.sum_nonneg fun k _ => wsq_nonneg hw _
    · exact wsq_nonneg hw _
  case target M p w => exact wsq_nonneg hw _
  case control N p w =>
    split
    · exact Finset.sum_nonneg fun k _ => wsq_nonneg hw _
    · exact wsq_nonneg hw _
  case mixed M N p w =>
    split
    · exact Finset.sum_nonneg fun k _ => wsq_nonneg hw _
    · exact wsq_nonneg hw _

theorem totalCostFrom_nonneg {d : Dims} {w : World K} {p : Nat} (hn : ∀ i ∈ w.ctl.spCost, (w.costs i).userData.Nonneg)
    (x U : Nat → K) : 0 ≤ totalCostFrom d w p x U := by
  unfold totalCostFrom
  have h1 : 0 ≤ (w.ctl.spCost.map fun i => (w.costs i).userData.value d (trajFrom d w p x U) U).sum := by
    refine List.sum_nonneg fun a ha => ?_
    obtain ⟨i, hi, rfl⟩ := List.mem_map.1 ha
    exact value_nonneg (hn i hi) _ _
  have h2 : (0 : K) ≤ ∑ j ∈ Finset.range (d.m * d.N), U j ^ 2 := Finset.sum_nonneg fun j _ => sq_nonneg _
  have h6 : (0 : K) ≤ 1 / 1000000 := by norm_num
  have := mul_nonneg h6 h2
  linarith

namespace World

/-- The total cost of a plan depends only on the entries of the state and of the plan. -/
theorem planFrom_congr {d : Dims} {dmax : K} {w : World K} {p : Nat} {x y : Nat → K} (h : ∀ r < d.n, x r = y r) (V : Nat → K) :
    (PlanFrom d dmax w p x V ↔ PlanFrom d dmax w p y V) ∧ totalCostFrom d w p x V = totalCostFrom d w p y V := by
  have T : ∀ k ≤ d.N, ∀ r < d.n, trajFrom d w p x V k r = trajFrom d w p y V k r := fun k hk r hr =>
    sim_congr d _ _ _ h (fun _ _ => rfl) k hk r hr
  refine ⟨and_congr_left fun _ => forall₂_congr fun i _ => holds_congr_traj T _, ?_⟩
  unfold totalCostFrom
  congr 3
  refine List.map_congr_left fun i _ => value_congr_traj T _

/-- What the next pass of the closed loop starts from. -/
structure NextPass (d : Dims) (p : Nat) (w w2 : World K) (x : Nat → K) : Prop where
  ps : w2.ctl.ps = some p
  plain : w2.ctl.isInit = false
  held : Held w2
  constr : w2.ctl.spConstr = w.ctl.spConstr
  bound : w2.ctl.spBoundConstr = w.ctl.spBoundConstr
  cost : w2.ctl.spCost = w.ctl.spCost
  consData : ∀ i, (w2.cons i).userData = (w.cons i).userData
  costData : ∀ i, (w2.costs i).userData = (w.costs i).userData
  A : (w2.pss p).A = (w.pss p).A
  B : (w2.pss p).B = (w.pss p).B
  bias : (w2.pss p).d = (w.pss p).d
  x0 : ∀ r < d.n, (w2.pss p).x0.e r = x r
  contract : ∀ e, SolveContract d e w.ctl → SolveContract d e w2.ctl
  vars : numVars d w2.ctl = numVars d w.ctl

theorem NextPass.traj {d : Dims} {p : Nat} {w w2 : World K} {x : Nat → K} (h : NextPass d p w w2 x) :
    trajFrom d w2 p = trajFrom d w p := by
  funext y U; unfold trajFrom; rw [h.A, h.B, h.bias]

theorem NextPass.plan {d : Dims} {dmax : K} {p : Nat} {w w2 : World K} {x : Nat → K} (h : NextPass d p w w2 x) :
    PlanFrom d dmax w2 p = PlanFrom d dmax w p := by
  funext y U; unfold PlanFrom; rw [h.traj, h.constr, h.bound]; simp only [h.consData]

theorem NextPass.total {d : Dims} {p : Nat} {w w2 : World K} {x : Nat → K} (h : NextPass d p w w2 x) :
    totalCostFrom d w2 p = totalCostFrom d w p := by
  funext y U; unfold totalCostFrom; rw [h.traj, h.cost]; simp only [h.costData]

/-- One pass: a successful `solve()`, then `xInit` with the second block of `trajectory()`. -/
theorem next_pass {d : Dims} {dmax : K} {E : World K → Op K → Prop} {p : Nat} {w w1 : World K} {g : Ghost} {e : SolveEnv K} {q : QP K}
    (h : Hist d dmax E w g) (hE1 : E w (.solve e)) (hE2 : ∀ x, E w1 (.xInit p x)) (o : OpOk d w g (.solve e))
    (hp : w.ctl.ps = some p) (hi : w.ctl.isInit = false) (hh : Held w)
    (sv : w.solve e = some (w1, true, q)) (st : w.step dmax (.solve e) = .ok w1) :
    ∃ w2 g2, w1.step dmax (.xInit p ⟨d.n, fun r => w1.ctl.trajectory.e (d.n + r)⟩) = .ok w2 ∧ Hist d dmax E w2 g2 ∧
      NextPass d p w w2 (trajFrom d w p (w.pss p).x0.e w1.ctl.control.e 1) ∧
      ((w.ctl.spBoundConstr = [] → g.clean) → w2.ctl.spBoundConstr = [] → g2.clean) := by
  have hN : 0 < d.N := (h.good.canUpdate hp).sys.dims.toSysShape.Npos
  have T := (c40_success h o sv hp).2.1 hi |>.2
  obtain ⟨w2, h2⟩ : ∃ w2, w1.step dmax (.xInit p ⟨d.n, fun r => w1.ctl.trajectory.e (d.n + r)⟩) = .ok w2 := ⟨_, rfl⟩
  have H1 : Hist d dmax E w1 (g.next w True (.solve e)) := .ok h o hE1 st
  have H2 := Hist.ok (op := .xInit p ⟨d.n, fun r => w1.ctl.trajectory.e (d.n + r)⟩) H1 rfl (hE2 _) h2
  have e2 : w2 = { w1 with pss := upd w1.pss p ((w1.pss p).setXInit ⟨d.n, fun r => w1.ctl.trajectory.e (d.n + r)⟩) } := by
    simp only [step, Res.ok.injEq] at h2; exact h2.symm
  obtain ⟨p', hp', S⟩ := h.good.solved o.2 sv
  rw [hp] at hp'; cases hp'
  obtain ⟨Fr, _⟩ := solve_frame sv
  obtain ⟨l1, l2, l3, l4, l5⟩ := held_lists h.good hh sv
  have c2 : w2.ctl = w1.ctl := by rw [e2]
  have k2 : w2.cons = w1.cons := by rw [e2]
  have j2 : w2.costs = w1.costs := by rw [e2]
  have pe : w2.pss p = (w1.pss p).setXInit ⟨d.n, fun r => w1.ctl.trajectory.e (d.n + r)⟩ := by rw [e2]; simp only [upd_same]
  have m4 : w2.ctl.spBoundConstr = w.ctl.spBoundConstr := by rw [c2, l4]
  refine ⟨w2, _, h2, H2, ?_, ?_⟩
  · exact
      { ps := by rw [c2, Fr.ps]; exact hp
        plain := by rw [c2, Fr.isInit]; exact hi
        held := by
          refine ⟨?_, ?_⟩
          · rw [c2, l1, e2]; show ∀ i ∈ _, 0 < w1.extCons i; rw [S.heap.extCons]; exact hh.1
          · rw [c2, l5, e2]; show ∀ i ∈ _, 0 < w1.extCosts i; rw [S.heap.extCosts]; exact hh.2
        constr := by rw [c2, l1]
        bound := m4
        cost := by rw [c2, l5]
        consData := fun i => by rw [k2, (S.heap.frame i).userData]
        costData := fun i => by rw [j2, (S.heap.same i).data.userData]
        A := by rw [pe, ← S.heap.A]; rfl
        B := by rw [pe, ← S.heap.B]; rfl
        bias := by rw [pe, ← S.heap.bias]; rfl
        x0 := fun r hr => by
          have := T.2 1 r hN hr
          rw [one_mul] at this
          rw [pe]
          exact this
        contract := fun e' a => by rw [c2]; exact contract_next Fr S a
        vars := by rw [c2]; unfold numVars; rw [Fr.isInit] }
  · intro hb hb'
    rw [m4] at hb'
    exact ⟨hb hb', hb'⟩

/-- **C88**: the closed loop decreases its cost.  No registered cost is given per step on the state (those drift, C66;
`autoSpan()`ned ones do not), every plan can be replaced, in the state it leads to, by a plan cheaper by at least `ℓ`, and
some plan `V` is admissible from the current state.  Then, with an exact solver, the closed loop `solve(); xInit(next
state)` of any length never fails, each plan is the best one from the state it is computed in, the cost of the plans
decreases by at least `ℓ` in every pass, and the sum of the `ℓ` over all passes is at most the total cost of `V`. -/
theorem c88_cost_decreases {d : Dims} {dmax : K} {p : Nat} {ℓ : (Nat → K) → (Nat → K) → K}
    (l : List (SolveEnv K)) {w : World K} {g : Ghost}
    (h : Hist d dmax (fun w op => NoBoundSpan w op ∧ NonnegWeights w op) w g) (hp : w.ctl.ps = some p)
    (hi : w.ctl.isInit = false) (hh : Held w)
    (hc : ∀ e ∈ l, SolveContract d e w.ctl ∧ ExactSolver d w.ctl e) (hb : w.ctl.spBoundConstr = [] → g.clean)
    (hu : ∀ i ∈ w.ctl.spConstr, (w.cons i).userData.Honest) (hn : NoPerStep d w)
    (hx : Decreasing d dmax w p ℓ) {V : Nat → K} (hV : PlanFrom d dmax w p (w.pss p).x0.e V) :
    ∃ w' log, closedLoop d dmax p w l = some (w', log) ∧ log.length = l.length ∧
      (∀ a ∈ log.head?, a.2.1 = (w.pss p).x0) ∧
      (∀ t (ht : t < log.length), (log[t]).1 = true ∧ PlanFrom d dmax w p (log[t]).2.1.e (log[t]).2.2.e ∧
        (∀ V', PlanFrom d dmax w p (log[t]).2.1.e V' →
          totalCostFrom d w p (log[t]).2.1.e (log[t]).2.2.e ≤ totalCostFrom d w p (log[t]).2.1.e V') ∧
        ∀ (ht' : t + 1 < log.length),
          (∀ r < d.n, (log[t + 1]).2.1.e r = trajFrom d w p (log[t]).2.1.e (log[t]).2.2.e 1 r) ∧
          totalCostFrom d w p (log[t + 1]).2.1.e (log[t + 1]).2.2.e ≤
            totalCostFrom d w p (log[t]).2.1.e (log[t]).2.2.e - ℓ (log[t]).2.1.e (log[t]).2.2.e) ∧
      (log.map fun a => ℓ a.2.1.e a.2.2.e).sum ≤ totalCostFrom d w p (w.pss p).x0.e V := by
  induction l generalizing w g V with
  | nil =>
    refine ⟨w, [], rfl, rfl, fun a ha => by simp at ha, fun t ht => absurd ht (Nat.not_lt_zero _), ?_⟩
    exact totalCostFrom_nonneg (registered_nonneg h fun _ _ h => h.2) _ _
  | cons e l ih =>
    obtain ⟨hce, hre⟩ := hc _ List.mem_cons_self
    have o : OpOk d w g (.solve e) := ⟨by rw [hp]; exact Option.some_ne_none _, hce⟩
    have hf : CostsFresh d w g := fun i hi hps => absurd hps (hn i hi)
    obtain ⟨w1, b, q, sv, st, hw, hv⟩ := c50_solve_defined h o
    have F := c30_feasible_set h (fun _ _ h => h.1) o hi hb hu sv hp
    obtain ⟨κ, O⟩ := c32_objective h o hi hf sv hp
    have P := c29_hessian h (fun _ _ h => h.2) o hi sv
    obtain ⟨R1, R2⟩ := hre q hw hv
    have ht : (e.answer q).1 = true := R1.2 (exists_optimal hw P ⟨V, (F V).2 hV⟩)
    obtain rfl : b = true := (solve_reports sv).trans ht
    have op := R2 ht
    rw [← c40_control_is_answer hi sv] at op
    have fe : PlanFrom d dmax w p (w.pss p).x0.e w1.ctl.control.e := (F _).1 op.1
    have best : ∀ V', PlanFrom d dmax w p (w.pss p).x0.e V' →
        totalCostFrom d w p (w.pss p).x0.e w1.ctl.control.e ≤ totalCostFrom d w p (w.pss p).x0.e V' := by
      intro V' hV'
      have := op.2 V' ((F V').2 hV')
      rw [O, O] at this
      have : totalCost d w p w1.ctl.control.e ≤ totalCost d w p V' := by linarith
      exact this
    obtain ⟨w2, g2, h2, H2, N, cl⟩ := next_pass h ⟨trivial, trivial⟩ (fun _ => ⟨trivial, trivial⟩) o hp hi hh sv st
    obtain ⟨V', pV', dV'⟩ := hx _ _ fe
    have cg := planFrom_congr (dmax := dmax) (w := w) (p := p) N.x0 V'
    obtain ⟨w', log, r1, r2, r0, r3, r4⟩ := ih H2 N.ps N.plain N.held
      (fun e' he' => by
        obtain ⟨a1, a2⟩ := hc e' (List.mem_cons_of_mem _ he')
        exact ⟨N.contract _ a1, fun q hq hn => a2 q hq (by rw [hn, N.vars])⟩)
      (cl hb)
      (by rw [N.constr]; intro i hi'; rw [N.consData]; exact hu i hi')
      (by unfold NoPerStep; rw [N.cost]; intro i hi'; rw [N.costData]; exact hn i hi')
      (by unfold Decreasing; rw [N.plan, N.total, N.traj]; exact hx)
      (V := V') (by rw [N.plan]; exact cg.1.2 pV')
    rw [N.total, cg.2] at r4
    refine ⟨w', (true, (w.pss p).x0, w1.ctl.control) :: log, ?_, by simp [r2], by simp, ?_, ?_⟩
    · unfold closedLoop
      simp only [sv, h2, r1]
    · intro t ht
      cases t with
      | zero =>
        refine ⟨rfl, fe, best, fun ht' => ?_⟩
        have hl : 0 < log.length := by simpa using ht'
        have e0 := r0 log[0] (by rw [List.head?_eq_getElem?, List.getElem?_eq_getElem hl]; rfl)
        obtain ⟨_, a2, a3, _⟩ := r3 0 hl
        rw [N.plan, N.total] at a3
        simp only [List.getElem_cons_succ, List.getElem_cons_zero]
        have x2 : ∀ r < d.n, (log[0]).2.1.e r = trajFrom d w p (w.pss p).x0.e w1.ctl.control.e 1 r := fun r hr => by
          rw [e0]; exact N.x0 r hr
        have cg' := planFrom_congr (dmax := dmax) (w := w) (p := p) x2 V'
        refine ⟨x2, ?_⟩
        have := a3 V' (cg'.1.2 pV')
        rw [cg'.2] at this
        linarith
      | succ t =>
        obtain ⟨a1, a2, a3, a4⟩ := r3 t (by simpa using ht)
        rw [N.plan] at a2 a3
        rw [N.total] at a3 a4
        rw [N.traj] at a4
        simp only [List.getElem_cons_succ]
        exact ⟨a1, a2, a3, fun ht' => a4 (by simpa using ht')⟩
    · rw [List.map_cons, List.sum_cons]
      have := best V hV
      simp only
      linarith

theorem few_large {log : List (Bool × Vec K × Vec K)} {ℓ : (Nat → K) → (Nat → K) → K} {J ε : K} (h0 : ∀ x U, 0 ≤ ℓ x U)
    (hs : (log.map fun a => ℓ a.2.1.e a.2.2.e).sum ≤ J) :
    ((log.filter fun a => decide (ε ≤ ℓ a.2.1.e a.2.2.e)).length : K) * ε ≤ J := by
  refine le_trans ?_ hs
  clear hs
  induction log with
  | nil => simp
  | cons a log ih =>
    rw [List.filter_cons]
    split
    case isTrue h =>
      have h := of_decide_eq_true h
      rw [List.length_cons, List.map_cons, List.sum_cons]
      push_cast
      linarith
    case isFalse h =>
      rw [List.map_cons, List.sum_cons]
      have := h0 a.2.1.e a.2.2.e
      linarith

/-- **C88** (convergence): if moreover `ℓ` is never negative, the number of passes in which it is at least `ε` times `ε`
is at most the cost of any plan that is admissible at the start — however long the loop runs. -/
theorem c88_converges {d : Dims} {dmax : K} {p : Nat} {ℓ : (Nat → K) → (Nat → K) → K} (h0 : ∀ x U, 0 ≤ ℓ x U) (ε : K)
    (l : List (SolveEnv K)) {w : World K} {g : Ghost}
    (h : Hist d dmax (fun w op => NoBoundSpan w op ∧ NonnegWeights w op) w g) (hp : w.ctl.ps = some p)
    (hi : w.ctl.isInit = false) (hh : Held w)
    (hc : ∀ e ∈ l, SolveContract d e w.ctl ∧ ExactSolver d w.ctl e) (hb : w.ctl.spBoundConstr = [] → g.clean)
    (hu : ∀ i ∈ w.ctl.spConstr, (w.cons i).userData.Honest) (hn : NoPerStep d w)
    (hx : Decreasing d dmax w p ℓ) {V : Nat → K} (hV : PlanFrom d dmax w p (w.pss p).x0.e V) :
    ∃ w' log, closedLoop d dmax p w l = some (w', log) ∧ log.length = l.length ∧
      ((log.filter fun a => decide (ε ≤ ℓ a.2.1.e a.2.2.e)).length : K) * ε ≤ totalCostFrom d w p (w.pss p).x0.e V := by
  obtain ⟨w', log, a, b, _, _, s⟩ := c88_cost_decreases l h hp hi hh hc hb hu hn hx hV
  exact ⟨w', log, a, b, few_large h0 s⟩

/-- The usual way to get a cheaper plan: drop the first control and append one that keeps the constraints (C83). -/
theorem decreasing_of_shift {d : Dims} {dmax : K} {w : World K} {p : Nat} {ℓ : (Nat → K) → (Nat → K) → K} (hN : 0 < d.N)
    (hs : ∀ i ∈ w.ctl.spConstr, (w.cons i).userData.PerStep d)
    (hv : ∀ x V, PlanFrom d dmax w p x V → ∃ u, Keeps d dmax w p (trajFrom d w p x V d.N) u ∧
      totalCostFrom d w p (trajFrom d w p x V 1) (shift d V u) ≤ totalCostFrom d w p x V - ℓ x V) :
    Decreasing d dmax w p ℓ := by
  intro x V hV
  obtain ⟨u, k, c⟩ := hv x V hV
  exact ⟨_, shifted_admissible hN hs (fun _ _ => rfl) hV.1 hV.2 k, c⟩

end World
end
end Copra
