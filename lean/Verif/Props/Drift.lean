import Verif.Props.Same
import Verif.Props.InitState
import Verif.Props.EndToEndExamples

/-! # C66: what a receding-horizon loop optimises

The loop every MPC client runs: set the measured state, solve, apply, repeat.  Costs given per step on the trajectory
accumulate from solve to solve (C27); this file gives the exact law, for loops of any length and any sequence of initial
states. -/

namespace Copra

namespace Spec
variable {K : Type} [Field K]

/-- The even part of a function of the controls. -/
def evenPart (f : (Nat → K) → K) (U : Nat → K) : K := (f U + f fun j => -U j) / 2

/-- The odd part of a function of the controls. -/
def oddPart (f : (Nat → K) → K) (U : Nat → K) : K := (f U - f fun j => -U j) / 2

/-- What a cost `D` registered `n` times contributes (each time it is listed) to the objective of the `t`-th solve
(counting from 0) of a loop whose initial states are `x 0, x 1, ..`; `V x U` is its declared value from the initial state
`x` under the controls `U`.  A per-step trajectory cost is weighted by the number of its updates so far.  A per-step
mixed cost has its even (quadratic) part weighted like that, but its odd (linear) part accumulates the linear parts of
all earlier solves as well. -/
def drifted (d : Dims) (V : (Nat → K) → (Nat → K) → K) (n t : Nat) (x : Nat → Nat → K) (U : Nat → K) : CostData K → K
  | .trajectory M _ _ => if M.cols = d.n then (((t + 1) * n : Nat) : K) * V (x t) U else V (x t) U
  | .mixed M N _ _ =>
    if M.cols = d.n ∧ N.cols = d.m then
      (((t + 1) * n : Nat) : K) * evenPart (V (x t)) U
        + ∑ s ∈ Finset.range (t + 1), (∑ r ∈ Finset.range n, ((s * n + r + 1 : Nat) : K)) * oddPart (V (x s)) U
    else V (x t) U
  | _ => V (x t) U

/-- The declared value of the cost `D` from the initial state `x` under the controls `U`. -/
def valueFrom (d : Dims) (w : World K) (p : Nat) (D : CostData K) (x U : Nat → K) : K := D.value d (trajFrom d w p x U) U

variable [LinearOrder K]

/-- The loop: `xInit(x)`, then `solve()`, once for each list element; the problems handed to the solver, in order. -/
def recede (dmax : K) (p : Nat) (w : World K) : List (Vec K × SolveEnv K) → Option (World K × List (QP K))
  | [] => some (w, [])
  | (x, e) :: l =>
    match w.step dmax (.xInit p x) with
    | .ok w1 => do
      let (w2, _, q) ← w1.solve e
      let (w', qs) ← recede dmax p w2 l
      return (w', q :: qs)
    | _ => none

end Spec
open Spec

set_option linter.unusedSectionVars false
set_option maxRecDepth 100000

section
variable {K : Type} [Field K] [LinearOrder K] [IsStrictOrderedRing K]

namespace Cost

/-- `n` updates in a row. -/
inductive Times (d : Dims) (ps : PreviewSystem K) : Nat → Cost K → Cost K → Prop
  | zero {c} : Times d ps 0 c c
  | succ {n c c' c''} : Times d ps n c c' → Pre d c' → Updated d ps c' c'' → Times d ps (n + 1) c c''

theorem Times.same {d : Dims} {ps : PreviewSystem K} {n : Nat} {c c' : Cost K} (h : Times d ps n c c') : Same c c' := by
  induction h with
  | zero => exact Same.refl _
  | succ _ _ u ih => exact ih.trans u.same

/-- The linear part as stored in `c_`. -/
def lin (d : Dims) (c : Cost K) (U : Nat → K) : K := ∑ j ∈ Finset.range (d.m * d.N), c.c.e j * U j

theorem form_odd (d : Dims) (c : Cost K) (x U : Nat → K) : oddPart (c.formValue d x) U =
    ∑ j ∈ Finset.range (d.m * d.N), ((∑ i ∈ Finset.range d.n, c.E.e i j * x i) + c.f.e j) * U j := by
  unfold oddPart formValue
  simp only [mul_neg, neg_mul, neg_neg, Finset.sum_neg_distrib]
  ring

theorem form_even (d : Dims) (c : Cost K) (x U : Nat → K) : evenPart (c.formValue d x) U =
    1 / 2 * ∑ i ∈ Finset.range (d.m * d.N), ∑ j ∈ Finset.range (d.m * d.N), U i * c.Q.e i j * U j := by
  unfold evenPart formValue
  simp only [mul_neg, neg_mul, neg_neg, Finset.sum_neg_distrib]
  ring

theorem quad_form (d : Dims) (c : Cost K) (x U : Nat → K) :
    quadValue (d.m * d.N) c.Q c.c U = evenPart (c.formValue d x) U + c.lin d U := by
  rw [form_even]; rfl

/-- The law for `n` updates in a row. -/
theorem Times.law {d : Dims} {ps : PreviewSystem K} {n : Nat} {c c' : Cost K} (h : Times d ps n c c') (ha : Accumulates c)
    (P : SysPred d ps) (V : (Nat → K) → (Nat → K) → K)
    (hV : ∀ x U, V x U = c.userData.value d (sim d ps.A ps.B ps.d x U) U) (a : K)
    (h0 : ∀ x U, c.formValue d x U = a * (1 / 2 * (V x U - V x fun _ => 0))) :
    (∀ x U, c'.formValue d x U = (a + n) * (1 / 2 * (V x U - V x fun _ => 0))) ∧
    (c.kind = .mixed → ∀ U, c'.lin d U = c.lin d U +
      ∑ r ∈ Finset.range n, (a + r + 1) * (1 / 2 * oddPart (V ps.x0.e) U)) ∧
    (c.kind = .trajectory → 0 < n → ∀ U, c'.lin d U = (a + n) * (1 / 2 * oddPart (V ps.x0.e) U)) := by
  classical
  induction h with
  | zero => exact ⟨by simpa using h0, by simp, fun _ h => absurd h (lt_irrefl 0)⟩
  | @succ n c c' c'' ht hr hu ih =>
    obtain ⟨i1, i2, _⟩ := ih ha hV h0
    have s := ht.same
    have ha' : Accumulates c' := s.acc.2 ha
    have f : ∀ x U, c''.formValue d x U = (a + (n + 1 : Nat)) * (1 / 2 * (V x U - V x fun _ => 0)) := by
      intro x U
      rw [hu.value two_ne_zero hr P, if_pos ha', i1, hV x U, hV x fun _ => 0, s.data.userData]
      push_cast; ring
    have l : ∀ U, c''.lin d U = (if c.kind = .mixed then c'.lin d U else 0)
        + (a + (n + 1 : Nat)) * (1 / 2 * oddPart (V ps.x0.e) U) := by
      intro U
      have : (a + (n + 1 : Nat)) * (1 / 2 * oddPart (V ps.x0.e) U) = oddPart (c''.formValue d ps.x0.e) U := by
        unfold oddPart; rw [f, f]; ring
      rw [this, form_odd]
      unfold lin
      split
      · next hk =>
        rw [← Finset.sum_add_distrib]
        apply Finset.sum_congr rfl; intro j hj
        rw [hu.c j (Finset.mem_range.1 hj), if_pos ⟨ha', s.kind.trans hk⟩]
        ring
      · next hk =>
        rw [zero_add]
        apply Finset.sum_congr rfl; intro j hj
        rw [hu.c j (Finset.mem_range.1 hj), if_neg (fun h => hk (s.kind.symm.trans h.2)), zero_add]
    refine ⟨f, fun hk U => ?_, fun hk _ U => ?_⟩
    · rw [l, if_pos hk, i2 hk, Finset.sum_range_succ]
      push_cast; ring
    · rw [l, if_neg (by rw [hk]; decide), zero_add]

theorem Pre.accumulates_iff {d : Dims} {c : Cost K} (h : Pre d c) : Accumulates c ↔ c.userData.PerStepState d := by
  refine ⟨h.acc, fun hp => ?_⟩
  have D := h.data
  unfold DataOk at D
  unfold userData at hp
  unfold Accumulates
  cases hk : c.kind <;> rw [hk] at D hp <;> simp only at D hp
  · refine ⟨Or.inl rfl, ?_⟩
    cases hf : c.fullSizeEntry
    · rfl
    · rw [hf] at D; exact absurd hp D.2.1
  · exact hp.elim
  · exact hp.elim
  · refine ⟨Or.inr rfl, ?_⟩
    cases hf : c.fullSizeEntry
    · rfl
    · rw [hf] at D; exact absurd hp D.2.2.1

end Cost

namespace World

/-- The cost loop of a solve updates each cost as often as it is listed. -/
theorem updateCosts_times {d : Dims} {ps : PreviewSystem K} {costs costs' : Nat → Cost K} {L : List Nat}
    (S : SysShape d ps) (hx : ps.x0.rows = d.n) (hr : ∀ i ∈ L, Cost.Pre d (costs i))
    (h : L.foldlM (updateCost ps) costs = some costs') : ∀ i, Cost.Times d ps (L.count i) (costs i) (costs' i) := by
  induction L using List.reverseRecOn generalizing costs' with
  | nil =>
    simp only [List.foldlM_nil, Option.pure_def, Option.some.injEq] at h
    subst h
    exact fun i => .zero
  | append_singleton L x ih =>
    rw [List.foldlM_append] at h
    simp only [Option.bind_eq_bind, Option.bind_eq_some_iff, List.foldlM_cons, List.foldlM_nil, Option.pure_def,
      Option.some.injEq] at h
    obtain ⟨s, h1, s', h2, rfl⟩ := h
    unfold updateCost at h2
    simp only [Option.bind_eq_bind, Option.bind_eq_some_iff, Option.pure_def, Option.some.injEq] at h2
    obtain ⟨c, hc, rfl⟩ := h2
    have H := ih (fun i hi => hr i (List.mem_append_left _ hi)) h1
    have rs : Cost.Pre d (s x) := by
      have := (updateCosts_ok S hx (costs := costs) (L := L) fun i hi => hr i (List.mem_append_left _ hi)).of_eq h1
      by_cases hm : x ∈ L
      · exact ((this x).1 hm).1.pre
      · rw [(this x).2 hm]; exact hr x (by simp)
    intro i
    by_cases e : i = x
    · subst e
      rw [upd_same, List.count_append, List.count_singleton_self]
      exact .succ (H i) rs ((Cost.update_ok rs S hx).of_eq hc).2
    · rw [upd_ne _ _ e, List.count_append, List.count_singleton]
      have : (x == i) = false := by simp [Ne.symm e]
      rw [this]
      exact H i

theorem solve_times {d : Dims} {dmax : K} {w w' : World K} {g : Ghost} {env : SolveEnv K} {b : Bool} {q : QP K} {p : Nat}
    (hg : Good d dmax w g) (hp : w.ctl.ps = some p) (S : Solved d p env w w' b q) (hs : w.solve env = some (w', b, q)) :
    ∀ i, Cost.Times d (w'.pss p) (w.ctl.spCost.count i) (w.costs i) (w'.costs i) := by
  have sh := S.heap.sys.dims.toSysShape
  have hx : (w'.pss p).x0.rows = d.n := by rw [S.heap.x0]; exact (hg.sys p (hg.ctl p hp).1).2
  have hk : ∃ ps', w'.pss p = ps' ∧ w.ctl.spCost.foldlM (updateCost ps') w.costs = some w'.costs := by
    obtain ⟨w1, p2, l, s, l', h1, _, hl, _, rfl, rfl, hl', rfl⟩ := solve_inv hs
    obtain ⟨p1, ps, l1, l2, cons, costs, hp1, hps, e1, e2, hc, hk, rfl, f⟩ := updateSystem_inv h1
    rw [hp] at hp1
    cases hp1
    exact ⟨ps, by simp only [upd_same], hk⟩
  obtain ⟨ps', rfl, hk⟩ := hk
  exact updateCosts_times sh hx (hg.canUpdate hp).costs hk

/-- After `t` solves from the initial states `x 0, .., x (t-1)`: what the accumulating costs hold. -/
def Drift (d : Dims) (p : Nat) (w : World K) (t : Nat) (x : Nat → Nat → K) : Prop :=
  ∀ i ∈ w.ctl.spCost, Cost.Accumulates (w.costs i) →
    (∀ y U, (w.costs i).formValue d y U = ((t * w.ctl.spCost.count i : Nat) : K) *
      (1 / 2 * (valueFrom d w p (w.costs i).userData y U - valueFrom d w p (w.costs i).userData y fun _ => 0))) ∧
    ((w.costs i).kind = .mixed → ∀ U, (w.costs i).lin d U = ∑ s ∈ Finset.range t,
      (∑ r ∈ Finset.range (w.ctl.spCost.count i), ((s * w.ctl.spCost.count i + r + 1 : Nat) : K)) *
        (1 / 2 * oddPart (valueFrom d w p (w.costs i).userData (x s)) U))

theorem drift_start {d : Dims} {dmax : K} {p : Nat} {w : World K} {g : Ghost} (hg : Good d dmax w g)
    (hf : ∀ i ∈ w.ctl.spCost, (w.costs i).userData.PerStepState d → g.fresh i) (x : Nat → Nat → K) : Drift d p w 0 x := by
  intro i hi ha
  have hc := (hg.fresh i (hf i hi ((hg.costReg i (hg.subK i hi)).acc ha))).2
  refine ⟨fun y U => ?_, fun _ U => ?_⟩
  · rw [Cost.formValue_clean hc ha]; simp
  · unfold Cost.lin
    rw [Finset.range_zero, Finset.sum_empty]
    exact Finset.sum_eq_zero fun j hj => by rw [(hc ha).2.2.2 j (Finset.mem_range.1 hj), zero_mul]

theorem drift_solve {d : Dims} {dmax : K} {w w' : World K} {g : Ghost} {env : SolveEnv K} {b : Bool} {q : QP K} {p t : Nat}
    {x : Nat → Nat → K} (hg : Good d dmax w g) (hp : w.ctl.ps = some p) (S : Solved d p env w w' b q)
    (hs : w.solve env = some (w', b, q)) (hl : w'.ctl.spCost = w.ctl.spCost) (hx : (w.pss p).x0.e = x t)
    (hd : Drift d p w t x) :
    Drift d p w' (t + 1) x ∧ ∀ i ∈ w.ctl.spCost, ∃ k, ∀ U, quadValue (d.m * d.N) (w'.costs i).Q (w'.costs i).c U =
      1 / 2 * drifted d (valueFrom d w p (w.costs i).userData) (w.ctl.spCost.count i) t x U (w.costs i).userData + k := by
  have T := solve_times hg hp S hs
  have D : ∀ i, (w'.costs i).userData = (w.costs i).userData := fun i => (S.heap.same i).data.userData
  have V : ∀ D : CostData K, valueFrom d w' p D = valueFrom d w p D := by
    intro D; funext y U
    unfold valueFrom trajFrom
    rw [S.heap.A, S.heap.B, S.heap.bias]
  have hx' : (w'.pss p).x0.e = x t := by rw [S.heap.x0, hx]
  have law : ∀ i ∈ w.ctl.spCost, Cost.Accumulates (w.costs i) → _ := fun i hi ha =>
    (T i).law ha S.heap.pred (valueFrom d w p (w.costs i).userData) (by
      intro y U; unfold valueFrom trajFrom; rw [S.heap.A, S.heap.B, S.heap.bias]) _ (hd i hi ha).1
  refine ⟨?_, ?_⟩
  · intro i hi ha
    rw [hl] at hi
    have ha0 : Cost.Accumulates (w.costs i) := (S.heap.same i).acc.1 ha
    obtain ⟨l1, l2, l3⟩ := law i hi ha0
    rw [hl, D, V]
    refine ⟨fun y U => ?_, fun hk U => ?_⟩
    · rw [l1]; push_cast; ring
    · have hk0 : (w.costs i).kind = .mixed := by rw [← (S.heap.same i).kind]; exact hk
      rw [l2 hk0, (hd i hi ha0).2 hk0, Finset.sum_range_succ, hx', ← Finset.sum_mul]
      push_cast; rfl
  · intro i hi
    have r0 := hg.costReg i (hg.subK i hi)
    by_cases ha : Cost.Accumulates (w.costs i)
    · obtain ⟨l1, l2, l3⟩ := law i hi ha
      have hps := r0.acc ha
      have hn : 0 < w.ctl.spCost.count i := List.count_pos_iff.2 hi
      refine ⟨-((((t + 1) * w.ctl.spCost.count i : Nat) : K) * (1 / 2 * valueFrom d w p (w.costs i).userData (x t) fun _ => 0)), fun U => ?_⟩
      have ev : evenPart ((w'.costs i).formValue d (x t)) U = (((t + 1) * w.ctl.spCost.count i : Nat) : K) * (1 / 2 *
          (evenPart (valueFrom d w p (w.costs i).userData (x t)) U - valueFrom d w p (w.costs i).userData (x t) fun _ => 0)) := by
        unfold evenPart; rw [l1, l1]; push_cast; ring
      rw [Cost.quad_form d _ (x t), ev]
      rcases ha.1 with hk | hk
      · have ud : (w.costs i).userData = .trajectory (w.costs i).M (w.costs i).p (w.costs i).weights := by
          unfold Cost.userData; rw [hk]
        have hc : (w.costs i).M.cols = d.n := by rw [ud] at hps; exact hps
        rw [l3 hk hn, hx']
        generalize valueFrom d w p (w.costs i).userData = V
        rw [ud]
        unfold drifted evenPart oddPart
        simp only
        rw [if_pos hc]
        push_cast; ring
      · have ud : (w.costs i).userData = .mixed (w.costs i).M (w.costs i).N (w.costs i).p (w.costs i).weights := by
          unfold Cost.userData; rw [hk]
        have hc : (w.costs i).M.cols = d.n ∧ (w.costs i).N.cols = d.m := by rw [ud] at hps; exact hps
        rw [l2 hk, (hd i hi ha).2 hk, hx']
        generalize valueFrom d w p (w.costs i).userData = V
        rw [ud]
        unfold drifted
        simp only
        rw [if_pos hc, Finset.sum_range_succ, mul_add, mul_add, Finset.mul_sum, ← Finset.sum_mul]
        have : ∀ s, (1 : K) / 2 * ((∑ r ∈ Finset.range (w.ctl.spCost.count i), ((s * w.ctl.spCost.count i + r + 1 : Nat) : K)) * oddPart (V (x s)) U)
          = (∑ r ∈ Finset.range (w.ctl.spCost.count i), ((s * w.ctl.spCost.count i + r + 1 : Nat) : K)) * (1 / 2 * oddPart (V (x s)) U) := by
          intro s; ring
        simp only [this]
        push_cast; ring
    · have hn : ¬ (w.costs i).userData.PerStepState d := fun h => ha (r0.accumulates_iff.2 h)
      obtain ⟨r, _, e⟩ := (S.heap.costs i).1 hi
      have := ((e (fun h => absurd h ha) fun h => absurd h ha).exact two_ne_zero r S.heap.pred).value
      refine ⟨-(1 / 2 * valueFrom d w p (w.costs i).userData (x t) fun _ => 0), fun U => ?_⟩
      have hd' : drifted d (valueFrom d w p (w.costs i).userData) (w.ctl.spCost.count i) t x U (w.costs i).userData =
          valueFrom d w p (w.costs i).userData (x t) U := by
        generalize valueFrom d w p (w.costs i).userData = V
        generalize (w.costs i).userData = D at hn
        unfold drifted
        cases D <;> simp only
        · exact if_neg hn
        · exact if_neg hn
      rw [this, hd', D, hx', ← V]
      unfold valueFrom trajFrom
      ring

/-- The objective of a problem assembled from costs whose quadratic forms are known up to constants. -/
theorem objective_of_costs {d : Dims} {p : Nat} {w w' : World K} {env : SolveEnv K} {b : Bool} {q : QP K}
    (S : Solved d p env w w' b q) (hi : w.ctl.isInit = false) (F : Nat → (Nat → K) → K)
    (h : ∀ i ∈ w.ctl.spCost, ∃ k, ∀ U, quadValue (d.m * d.N) (w'.costs i).Q (w'.costs i).c U = F i U + k) :
    ∃ k, ∀ U, objective q U = (w.ctl.spCost.map fun i => F i U).sum
      + 1 / 2 * (1 / 1000000) * ∑ j ∈ Finset.range (d.m * d.N), U j ^ 2 + k := by
  have A := S.plain hi
  have key : ∀ L : List Nat, (∀ i ∈ L, i ∈ w.ctl.spCost) → ∃ k, ∀ U,
      (L.map fun i => quadValue (d.m * d.N) (w'.costs i).Q (w'.costs i).c U).sum = (L.map fun i => F i U).sum + k := by
    intro L
    induction L with
    | nil => intro _; exact ⟨0, fun U => by simp⟩
    | cons a L ih =>
      intro hL
      obtain ⟨k1, h1⟩ := h a (hL a List.mem_cons_self)
      obtain ⟨k2, h2⟩ := ih fun i hi => hL i (List.mem_cons_of_mem _ hi)
      refine ⟨k1 + k2, fun U => ?_⟩
      simp only [List.map_cons, List.sum_cons]
      rw [h1, h2]; ring
  obtain ⟨k, hk⟩ := key _ fun i hi => hi
  refine ⟨k, fun U => ?_⟩
  unfold objective
  rw [A.cr, quadValue_sum (F := fun i => (w'.costs i).Q) (G := fun i => (w'.costs i).c) A.Q A.c U, hk]
  ring

/-- What the `t`-th problem of the loop is: feasible points are the controls admissible from the `t`-th initial state,
the objective is the sum of the drifted costs. -/
def LoopProblem (d : Dims) (dmax : K) (w : World K) (p t : Nat) (x : Nat → Nat → K) (q : QP K) : Prop :=
  (∀ U, Feasible q U ↔ (∀ i ∈ w.ctl.spConstr, (w.cons i).userData.Holds d (trajFrom d w p (x t) U) U) ∧
    (w.ctl.spBoundConstr = [] → ∀ j < d.m * d.N, -dmax ≤ U j ∧ U j ≤ dmax)) ∧
  ∃ k, ∀ U, objective q U =
    1 / 2 * (w.ctl.spCost.map fun i => drifted d (valueFrom d w p (w.costs i).userData) (w.ctl.spCost.count i) t x U
      (w.costs i).userData).sum
    + 1 / 2 * (1 / 1000000) * ∑ j ∈ Finset.range (d.m * d.N), U j ^ 2 + k

theorem recede_law {d : Dims} {dmax : K} {p : Nat} {x : Nat → Nat → K} (l : List (Vec K × SolveEnv K)) (w : World K) (g : Ghost)
    (t : Nat) (h : Hist d dmax NoBoundSpan w g) (hp : w.ctl.ps = some p) (hi : w.ctl.isInit = false) (hh : Held w)
    (hc : ∀ a ∈ l, a.1.rows = d.n ∧ SolveContract d a.2 w.ctl) (hb : w.ctl.spBoundConstr = [] → g.clean)
    (hu : ∀ i ∈ w.ctl.spConstr, (w.cons i).userData.Honest) (hx : ∀ j (hj : j < l.length), x (t + j) = (l[j]).1.e)
    (hd : Drift d p w t x) :
    ∃ w' qs, recede dmax p w l = some (w', qs) ∧ qs.length = l.length ∧
      ∀ j (hj : j < qs.length), LoopProblem d dmax w p (t + j) x qs[j] := by
  induction l generalizing w g t with
  | nil => exact ⟨w, [], rfl, rfl, fun j hj => absurd hj (Nat.not_lt_zero _)⟩
  | cons a l ih =>
    obtain ⟨x0, e⟩ := a
    obtain ⟨hr, hce⟩ := hc _ List.mem_cons_self
    obtain ⟨w1, h1⟩ : ∃ w1, w.step dmax (.xInit p x0) = .ok w1 := ⟨_, rfl⟩
    have H1 : Hist d dmax NoBoundSpan w1 g := .ok (op := .xInit p x0) h hr trivial h1
    have e1 : w1 = { w with pss := upd w.pss p ((w.pss p).setXInit x0) } := by
      simp only [step, Res.ok.injEq] at h1; exact h1.symm
    have c1 : w1.ctl = w.ctl := by rw [e1]
    have k1 : w1.cons = w.cons := by rw [e1]
    have s1 : w1.costs = w.costs := by rw [e1]
    have pe : w1.pss p = (w.pss p).setXInit x0 := by rw [e1]; simp only [upd_same]
    have vf : ∀ D : CostData K, valueFrom d w1 p D = valueFrom d w p D := by
      intro D; funext y U; unfold valueFrom trajFrom; rw [pe]; rfl
    have tf : trajFrom d w1 p = trajFrom d w p := by
      funext y U; unfold trajFrom; rw [pe]; rfl
    have o : OpOk d w1 g (.solve e) := ⟨by rw [c1, hp]; exact Option.some_ne_none _, by rw [c1]; exact hce⟩
    obtain ⟨w2, b, q, hs, hst, _⟩ := c50_solve_defined H1 o
    have H2 : Hist d dmax NoBoundSpan w2 (g.next w1 True (.solve e)) := .ok H1 o trivial hst
    have hp1 : w1.ctl.ps = some p := by rw [c1]; exact hp
    obtain ⟨p', hp', S⟩ := H1.good.solved o.2 hs
    rw [hp1] at hp'; cases hp'
    have hh1 : Held w1 := by rw [e1]; exact hh
    obtain ⟨F, _⟩ := solve_frame hs
    obtain ⟨l1, l2, l3, l4, l5⟩ := held_lists H1.good hh1 hs
    have hd1 : Drift d p w1 t x := by
      intro i hi' ha
      rw [c1] at hi'
      rw [s1] at ha ⊢
      rw [c1, vf]
      exact hd i hi' ha
    have xe : (w1.pss p).x0.e = x t := by
      rw [pe]
      have := hx 0 (by simp)
      exact (by simpa using this.symm : x0.e = x t)
    obtain ⟨D2, Q⟩ := drift_solve H1.good hp1 S hs l5 xe hd1
    have i1 : w1.ctl.isInit = false := by rw [c1]; exact hi
    have P0 : LoopProblem d dmax w p t x q := by
      refine ⟨fun U => ?_, ?_⟩
      · have := c30_feasible_set H1 (fun _ _ h => h) o i1 (by rw [c1]; exact hb) (by rw [c1, k1]; exact hu) hs hp1 U
        rw [this, c1, k1]
        have : Spec.traj d w1 p U = trajFrom d w p (x t) U := by
          rw [← tf, ← xe]; rfl
        rw [this]
      · obtain ⟨k, hk⟩ := objective_of_costs S i1 _ Q
        refine ⟨k, fun U => ?_⟩
        rw [hk, c1, s1, list_sum_mul]
        simp only [vf]
    have ud : ∀ i, (w2.cons i).userData = (w.cons i).userData := fun i => by
      rw [(S.heap.frame i).userData, k1]
    have kd : ∀ i, (w2.costs i).userData = (w.costs i).userData := fun i => by
      rw [(S.heap.same i).data.userData, s1]
    have vf2 : ∀ D : CostData K, valueFrom d w2 p D = valueFrom d w p D := by
      intro D; rw [← vf]; funext y U; unfold valueFrom trajFrom; rw [S.heap.A, S.heap.B, S.heap.bias]
    have tf2 : trajFrom d w2 p = trajFrom d w p := by
      rw [← tf]; funext y U; unfold trajFrom; rw [S.heap.A, S.heap.B, S.heap.bias]
    have m1 : w2.ctl.spConstr = w.ctl.spConstr := by rw [l1, c1]
    have m4 : w2.ctl.spBoundConstr = w.ctl.spBoundConstr := by rw [l4, c1]
    have m5 : w2.ctl.spCost = w.ctl.spCost := by rw [l5, c1]
    obtain ⟨w', qs, r1, r2, r3⟩ := ih w2 _ (t + 1) H2 (by rw [F.ps]; exact hp1) (by rw [F.isInit]; exact i1)
      (by
        refine ⟨?_, ?_⟩
        · rw [m1, S.heap.extCons, e1]; exact hh.1
        · rw [m5, S.heap.extCosts, e1]; exact hh.2)
      (fun a ha => ⟨(hc a (List.mem_cons_of_mem _ ha)).1,
        contract_next F S (by rw [c1]; exact (hc a (List.mem_cons_of_mem _ ha)).2)⟩)
      (by rw [m4]; exact fun hb' => ⟨hb hb', by rw [c1]; exact hb'⟩)
      (by rw [m1]; intro i hi'; rw [ud]; exact hu i hi')
      (by
        intro j hj
        have := hx (j + 1) (by simpa using hj)
        rw [show t + 1 + j = t + (j + 1) by omega, this]
        simp)
      D2
    refine ⟨w', q :: qs, ?_, by simp [r2], ?_⟩
    · unfold recede
      rw [h1]
      simp only [hs, r1, Option.bind_eq_bind, Option.bind_some, Option.pure_def]
    · intro j hj
      cases j with
      | zero => exact P0
      | succ j =>
        have := r3 j (by simpa using hj)
        unfold LoopProblem at this ⊢
        rw [m1, m4, m5, tf2] at this
        simp only [ud, kd, vf2] at this
        rw [show t + (j + 1) = t + 1 + j by omega]
        exact this

/-- **C66**: in a receding-horizon loop of any length — `xInit(x_t)`, then `solve()`, for any initial states — that
starts with no registered per-step cost updated since it was accepted, every solve is defined, and the `t`-th problem is,
for every `t`: the controls admissible from `x_t` under the registered constraints, and the sum of the drifted costs plus
`0.5e-6 |U|^2`.  In particular constraints never drift, and costs other than per-step trajectory and mixed costs
contribute their declared value at every solve. -/
theorem c66_receding_horizon {d : Dims} {dmax : K} {p : Nat} {l : List (Vec K × SolveEnv K)} {w : World K} {g : Ghost}
    (h : Hist d dmax NoBoundSpan w g) (hp : w.ctl.ps = some p) (hi : w.ctl.isInit = false) (hh : Held w)
    (hc : ∀ a ∈ l, a.1.rows = d.n ∧ SolveContract d a.2 w.ctl) (hb : w.ctl.spBoundConstr = [] → g.clean)
    (hu : ∀ i ∈ w.ctl.spConstr, (w.cons i).userData.Honest)
    (hf : ∀ i ∈ w.ctl.spCost, (w.costs i).userData.PerStepState d → g.fresh i) :
    ∃ w' qs, recede dmax p w l = some (w', qs) ∧ qs.length = l.length ∧
      ∀ t (ht : t < qs.length), LoopProblem d dmax w p t (fun s => ((l[s]?).map fun a => a.1.e).getD fun _ => 0) qs[t] := by
  obtain ⟨w', qs, r1, r2, r3⟩ := recede_law l w g 0 h hp hi hh hc hb hu
    (x := fun s => ((l[s]?).map fun a => a.1.e).getD fun _ => 0) (by
      intro j hj
      simp [hj]) (drift_start h.good hf _)
  exact ⟨w', qs, r1, r2, fun t ht => by simpa using r3 t ht⟩

/-- Costs other than per-step trajectory and mixed costs do not drift. -/
theorem drifted_declared {d : Dims} {V : (Nat → K) → (Nat → K) → K} {n t : Nat} {x : Nat → Nat → K} {U : Nat → K}
    {D : CostData K} (h : ¬ D.PerStepState d) : drifted d V n t x U D = V (x t) U := by
  unfold drifted
  cases D <;> simp only
  · exact if_neg h
  · exact if_neg h

/-- At the first solve no cost that is registered once has drifted. -/
theorem drifted_first {d : Dims} {V : (Nat → K) → (Nat → K) → K} {x : Nat → Nat → K} {U : Nat → K} {D : CostData K} :
    drifted d V 1 0 x U D = V (x 0) U := by
  unfold drifted evenPart oddPart
  cases D <;> simp only
  · split
    · simp
    · rfl
  · split
    · simp; ring
    · rfl

/-- In a loop with a constant initial state, a mixed cost registered once has its quadratic part weighted `t + 1` times
and its linear part `(t + 1)(t + 2) / 2` times at the `t`-th solve. -/
theorem drifted_mixed {d : Dims} {V : (Nat → K) → (Nat → K) → K} {t : Nat} {x : Nat → K} {U : Nat → K} {M N : Mat K}
    {p w : Vec K} (h : M.cols = d.n ∧ N.cols = d.m) : drifted d V 1 t (fun _ => x) U (.mixed M N p w) =
      (t + 1) * evenPart (V x) U + (t + 1) * (t + 2) / 2 * oddPart (V x) U := by
  unfold drifted
  simp only
  rw [if_pos h, ← Finset.sum_mul]
  have : ∀ t : Nat, ∑ s ∈ Finset.range (t + 1), ∑ r ∈ Finset.range 1, ((s * 1 + r + 1 : Nat) : K) = (t + 1) * (t + 2) / 2 := by
    intro t
    induction t with
    | zero => simp
    | succ t ih => rw [Finset.sum_range_succ, ih]; simp; ring
  rw [this]
  push_cast; ring

/-- **C66** (no drift): with no registered per-step trajectory or mixed cost, the objective of every problem of the loop
is the declared total cost from the current initial state. -/
theorem c66_no_drift {d : Dims} {dmax : K} {p t : Nat} {w : World K} {x : Nat → Nat → K} {q : QP K}
    (hn : NoPerStep d w) (h : LoopProblem d dmax w p t x q) : ∃ k, ∀ U, objective q U = totalCostFrom d w p (x t) U + k := by
  obtain ⟨k, hk⟩ := h.2
  refine ⟨k, fun U => ?_⟩
  rw [hk]
  unfold totalCostFrom
  congr 3
  congr 1
  apply List.map_congr_left
  intro i hi
  exact drifted_declared (hn i hi)

end World
end

namespace Ex
open World

/-- The premises are met by the program of `ExWorld` with a loop of three different initial states (its costs include a
per-step trajectory and a per-step mixed cost). -/
theorem hist12 : Hist d 1000 NoBoundSpan w12 g12 := by
  have : ∀ {w g}, Hist d 1000 Careful w g → Hist d 1000 NoBoundSpan w g := by
    intro w g h
    induction h with
    | start h => exact .start h
    | ok _ ho he hs ih => exact .ok ih ho he.1 hs
    | thrown _ ho he hs ih => exact .thrown ih ho he.1 hs
  exact this h12

example := c66_receding_horizon (l := [(vec [1, 0], opt), (vec [3, -1], opt), (vec [0, 2], opt)]) hist12 ps12 plain12
  ⟨fun _ _ => Nat.one_pos, fun _ _ => Nat.one_pos⟩
  (by
    have k : SolveContract d opt w12.ctl := o13.2
    intro a ha
    simp only [List.mem_cons, List.not_mem_nil, or_false] at ha
    rcases ha with rfl | rfl | rfl <;> exact ⟨rfl, k⟩)
  (fun _ => trivial) honest12 (fun i hi h => (fresh12 i hi h).1)

/-- And the no-drift law applies to the same controller with only a control and a target cost. -/
example {q : QP ℚ} {x : Nat → Nat → ℚ} {t : Nat} (h : LoopProblem d 1000 u9 0 t x q) := c66_no_drift (w := u9) (by
  intro i hi
  rw [(by decide +kernel : u9.ctl.spCost = [1, 2])] at hi
  simp only [List.mem_cons, List.not_mem_nil, or_false] at hi
  rcases hi with rfl | rfl
  · unfold Cost.userData; rw [(by decide +kernel : (u9.costs 1).kind = .control)]; exact id
  · unfold Cost.userData; rw [(by decide +kernel : (u9.costs 2).kind = .target)]; exact id) h

/-! The drift is not a rescaling: a controller whose only cost is a mixed cost, solved twice without any change, has
another optimal control the second time. -/

def mx3 := after 1000 w2 (.addCost 3 jk)
def mx4 := after 1000 mx3 (.xInit 0 (vec [1, 2]))
def y1 : Vec ℚ := vec [-2000004000000/1000003000001, -2000000/1000003000001]
def y2 : Vec ℚ := vec [-12000012000000/4000006000001, -6000000/4000006000001]
def rm1 : World ℚ × Bool × QP ℚ := (mx4.solve (env y1 true)).getD (mx4, false, q13)
def rm2 : World ℚ × Bool × QP ℚ := (rm1.1.solve (env y2 true)).getD (mx4, false, q13)

theorem sm1 : mx4.solve (env y1 true) = some (rm1.1, true, rm1.2.2) := by
  have e : (mx4.solve (env y1 true)).isSome = true := by decide +kernel
  obtain ⟨r, hr⟩ := Option.isSome_iff_exists.1 e
  have h1 : rm1 = r := by unfold rm1; rw [hr]; rfl
  have h2 : rm1.2.1 = true := by decide +kernel
  rw [hr, ← h2, h1]

theorem sm2 : rm1.1.solve (env y2 true) = some (rm2.1, true, rm2.2.2) := by
  have e : (rm1.1.solve (env y2 true)).isSome = true := by decide +kernel
  obtain ⟨r, hr⟩ := Option.isSome_iff_exists.1 e
  have h1 : rm2 = r := by unfold rm2; rw [hr]; rfl
  have h2 : rm2.2.1 = true := by decide +kernel
  rw [hr, ← h2, h1]

/-- C27 is false of the code also for the answer: two solves in a row of an unchanged controller with one mixed cost, each
time with the exact minimiser of the problem handed over, return different controls (about -2 and -3). -/
theorem c27_answer_false : ∃ (w w' w'' : World ℚ) (g : Ghost) (e e' : SolveEnv ℚ) (q q' : QP ℚ),
    Hist d 1000 Careful w g ∧ Held w ∧ OpOk d w g (.solve e) ∧
    w.solve e = some (w', true, q) ∧ IsOptimal q (e.answer q).2.e ∧
    w'.solve e' = some (w'', true, q') ∧ IsOptimal q' (e'.answer q').2.e ∧
    w'.ctl.control.e 0 > -21 / 10 ∧ w''.ctl.control.e 0 < -29 / 10 := by
  have a3 := hist_after (op := .addCost 3 jk) h2 trivial ⟨trivial, trivial, trivial⟩ (by decide +kernel : okB 1000 w2 _ = true)
  have a4 := hist_after (op := .xInit 0 (vec [1, 2])) a3 rfl ⟨trivial, trivial, trivial⟩ (by decide +kernel : okB 1000 mx3 _ = true)
  have H4 : Hist d 1000 Careful mx4 _ := a4
  have o1 : ∀ g, OpOk d mx4 g (.solve (env y1 true)) := fun g => ⟨by decide +kernel, contract rfl
    (fun h => absurd (congrArg Option.isSome h) (by decide +kernel : mx4.ctl.sol.isSome ≠ false)) (by decide +kernel)⟩
  have o2 : ∀ g, OpOk d rm1.1 g (.solve (env y2 true)) := fun g => ⟨by decide +kernel, contract rfl
    (fun h => absurd (congrArg Option.isSome h) (by decide +kernel : rm1.1.ctl.sol.isSome ≠ false)) (by decide +kernel)⟩
  have st : mx4.step 1000 (.solve (env y1 true)) = .ok rm1.1 := by
    simp only [World.step, sm1, Option.map_some]; rfl
  have H5 := Hist.ok (op := .solve (env y1 true)) H4 (o1 _) ⟨trivial, trivial, fun i _ => Nat.one_pos⟩ st
  have P1 := c29_hessian H4 (fun _ _ h => h.2.1) (o1 _) (by decide +kernel) sm1
  have P2 := c29_hessian H5 (fun _ _ h => h.2.1) (o2 _) (by decide +kernel) sm2
  refine ⟨mx4, rm1.1, rm2.1, _, env y1 true, env y2 true, rm1.2.2, rm2.2.2, H4,
    ⟨fun _ _ => Nat.one_pos, fun _ _ => Nat.one_pos⟩, o1 _, sm1, ?_, sm2, ?_, by decide +kernel, by decide +kernel⟩
  · exact optimal_of_stationary (psd_of_pd P1) (by decide +kernel) (by decide +kernel)
  · exact optimal_of_stationary (psd_of_pd P2) (by decide +kernel) (by decide +kernel)

end Ex
end Copra
