import Verif.Props.Solvable
import Verif.Props.Replan
import Verif.Props.Drift

/-! # C83: recursive feasibility of the closed loop -/

namespace Copra

namespace Spec
variable {K : Type} [Field K] [LinearOrder K]

/-- What a constraint given per step asks of a state. -/
def ConstrData.AtState (d : Dims) (x : Nat → K) : ConstrData K → Prop
  | .trajectory q E f => ∀ r < E.rows, Rel q (∑ c ∈ Finset.range d.n, E.e r c * x c) (f.e r)
  | .trajBound l u => ∀ r < d.n, l.e r ≤ Ext.fin (x r) ∧ Ext.fin (x r) ≤ u.e r
  | _ => True

/-- What a constraint given per step asks of the control `u` applied in the state `x`. -/
def ConstrData.AtStep (d : Dims) (x u : Nat → K) : ConstrData K → Prop
  | .control q G f => ∀ r < G.rows, Rel q (∑ c ∈ Finset.range d.m, G.e r c * u c) (f.e r)
  | .mixed q E G f => ∀ r < E.rows,
    Rel q ((∑ c ∈ Finset.range d.n, E.e r c * x c) + ∑ c ∈ Finset.range d.m, G.e r c * u c) (f.e r)
  | .ctrlBound l h => ∀ c < d.m, l.e c ≤ Ext.fin (u c) ∧ Ext.fin (u c) ≤ h.e c
  | _ => True

/-- The state reached from `x` with the control `u`. -/
def successor (d : Dims) (w : World K) (p : Nat) (x u : Nat → K) (r : Nat) : K :=
  (∑ c ∈ Finset.range d.n, (w.pss p).A.e r c * x c) + (∑ c ∈ Finset.range d.m, (w.pss p).B.e r c * u c) + (w.pss p).d.e r

/-- The control `u` keeps every registered constraint in the state `x` and leads to a state that keeps them. -/
def Keeps (d : Dims) (dmax : K) (w : World K) (p : Nat) (x u : Nat → K) : Prop :=
  (∀ i ∈ w.ctl.spConstr, (w.cons i).userData.AtStep d x u ∧ (w.cons i).userData.AtState d (successor d w p x u)) ∧
  (w.ctl.spBoundConstr = [] → ∀ c < d.m, -dmax ≤ u c ∧ u c ≤ dmax)

/-- Every admissible plan from any state can be continued by one step. -/
def Extendable (d : Dims) (dmax : K) (w : World K) (p : Nat) : Prop :=
  ∀ x V : Nat → K, (∀ i ∈ w.ctl.spConstr, (w.cons i).userData.Holds d (trajFrom d w p x V) V) →
    (w.ctl.spBoundConstr = [] → ∀ j < d.m * d.N, -dmax ≤ V j ∧ V j ≤ dmax) →
    ∃ u, Keeps d dmax w p (trajFrom d w p x V d.N) u

/-- A solver that succeeds exactly on the problems that have a solution, with a point that satisfies the constraints. -/
def Reliable (d : Dims) (l : LMPC K) (env : SolveEnv K) : Prop :=
  ∀ q : QP K, WellSized q → q.nrVar = numVars d l →
    ((env.answer q).1 = true ↔ ∃ x, Feasible q x) ∧ ((env.answer q).1 = true → Feasible q (env.answer q).2.e)

/-- The closed loop: `solve()`; on success apply the first control, that is `xInit(trajectory().segment(n, n))`, and go
on; on failure stop.  The log has the flag, the state and the control sequence of every solve. -/
def closedLoop (d : Dims) (dmax : K) (p : Nat) (w : World K) :
    List (SolveEnv K) → Option (World K × List (Bool × Vec K × Vec K))
  | [] => some (w, [])
  | e :: l =>
    match w.solve e with
    | none => none
    | some (w1, false, _) => some (w1, [(false, (w.pss p).x0, w1.ctl.control)])
    | some (w1, true, _) =>
      match w1.step dmax (.xInit p ⟨d.n, fun r => w1.ctl.trajectory.e (d.n + r)⟩) with
      | .ok w2 =>
        match closedLoop d dmax p w2 l with
        | some (w', log) => some (w', (true, (w.pss p).x0, w1.ctl.control) :: log)
        | none => none
      | _ => none

end Spec
open Spec

set_option linter.unusedSectionVars false
set_option maxRecDepth 100000

section
variable {K : Type} [Field K] [LinearOrder K] [IsStrictOrderedRing K]

theorem atState_congr {d : Dims} {x y : Nat → K} (h : ∀ r < d.n, x r = y r) (D : ConstrData K) :
    D.AtState d x ↔ D.AtState d y := by
  cases D <;> simp only [ConstrData.AtState]
  case trajectory q E f =>
    refine forall₂_congr fun r _ => ?_
    rw [Finset.sum_congr rfl fun c hc => by rw [h c (Finset.mem_range.1 hc)]]
  case trajBound l u => exact forall₂_congr fun r hr => by rw [h r hr]

theorem atStep_congr {d : Dims} {x y u v : Nat → K} (h : ∀ r < d.n, x r = y r) (hu : ∀ c < d.m, u c = v c)
    (D : ConstrData K) : D.AtStep d x u ↔ D.AtStep d y v := by
  cases D <;> simp only [ConstrData.AtStep]
  case control q G f =>
    refine forall₂_congr fun r _ => ?_
    rw [Finset.sum_congr rfl fun c hc => by rw [hu c (Finset.mem_range.1 hc)]]
  case mixed q E G f =>
    refine forall₂_congr fun r _ => ?_
    rw [Finset.sum_congr rfl fun c hc => by rw [h c (Finset.mem_range.1 hc)],
      Finset.sum_congr (s₁ := Finset.range d.m) rfl fun c hc => by rw [hu c (Finset.mem_range.1 hc)]]
  case ctrlBound l u => exact forall₂_congr fun r hr => by rw [hu r hr]

/-- A constraint given per step holds iff it holds at every state and at every step. -/
theorem holds_steps {d : Dims} {D : ConstrData K} (hD : D.PerStep d) (X : Nat → Nat → K) (U : Nat → K) :
    D.Holds d X U ↔ (∀ k ≤ d.N, D.AtState d (X k)) ∧ ∀ k < d.N, D.AtStep d (X k) (ctrl d U k) := by
  cases D
  case trajectory q E f =>
    have h1 : E.cols = d.n := hD
    simp only [ConstrData.Holds, if_pos h1, TrajectoryStep, ConstrData.AtState, ConstrData.AtStep, implies_true, and_true]
  case control q G f =>
    have h1 : G.cols = d.m := hD
    simp only [ConstrData.Holds, if_pos h1, ControlStep, ConstrData.AtState, ConstrData.AtStep, implies_true, true_and]
  case mixed q E G f =>
    have h1 : E.cols = d.n ∧ G.cols = d.m := hD
    simp only [ConstrData.Holds, if_pos h1, MixedStep, ConstrData.AtState, ConstrData.AtStep, implies_true, true_and]
  case trajBound l u =>
    have h1 : l.rows = d.n := hD
    simp only [ConstrData.Holds, if_pos h1, TrajBoundStep, ConstrData.AtState, ConstrData.AtStep, implies_true, and_true]
  case ctrlBound l u =>
    have h1 : l.rows = d.m := hD
    simp only [ConstrData.Holds, if_pos h1, CtrlBoundStep, ConstrData.AtState, ConstrData.AtStep, implies_true, true_and]

/-- The controls of `U` after the first step, then `v`. -/
def shift (d : Dims) (U v : Nat → K) (j : Nat) : K := if d.m + j < d.m * d.N then U (d.m + j) else v (d.m + j - d.m * d.N)

theorem ctrl_shift {d : Dims} (U v : Nat → K) {k c : Nat} (hc : c < d.m) (hk : k < d.N) :
    ctrl d (shift d U v) k c = if k + 1 < d.N then ctrl d U (k + 1) c else v c := by
  unfold ctrl shift
  have e : d.m + (k * d.m + c) = (k + 1) * d.m + c := by ring
  rw [e]
  split
  case isTrue h =>
    rw [if_pos]
    by_contra hn
    have : k + 1 = d.N := by omega
    rw [this, mul_comm] at h; omega
  case isFalse h =>
    have : k + 1 = d.N := by
      by_contra hn
      have h2 : (k + 2) * d.m ≤ d.N * d.m := Nat.mul_le_mul_right _ (by omega)
      rw [mul_comm d.m] at h
      have : (k + 2) * d.m = (k + 1) * d.m + d.m := by ring
      omega
    rw [if_neg (by omega), this, mul_comm d.m, Nat.add_sub_cancel_left]

theorem sim_shift {d : Dims} (A B : Mat K) (b : Vec K) (x x1 U v : Nat → K)
    (hx : ∀ r < d.n, x1 r = sim d A B b x U 1 r) : ∀ k, k + 1 ≤ d.N →
    ∀ r < d.n, sim d A B b x1 (shift d U v) k r = sim d A B b x U (k + 1) r := by
  intro k
  induction k with
  | zero => exact fun _ => hx
  | succ k ih =>
    intro hk r hr
    rw [sim, sim]
    congr 2
    · exact Finset.sum_congr rfl fun c hc => by rw [ih (by omega) c (Finset.mem_range.1 hc)]
    · exact Finset.sum_congr rfl fun c hc => by
        rw [ctrl_shift U v (Finset.mem_range.1 hc) (by omega), if_pos (by omega)]

namespace World

/-- An admissible plan that can be continued is, without its first control, admissible from the next state. -/
theorem shifted_admissible {d : Dims} {dmax : K} {w : World K} {p : Nat} (hN : 0 < d.N)
    (hs : ∀ i ∈ w.ctl.spConstr, (w.cons i).userData.PerStep d) {x x1 U v : Nat → K}
    (hx : ∀ r < d.n, x1 r = trajFrom d w p x U 1 r)
    (hU : ∀ i ∈ w.ctl.spConstr, (w.cons i).userData.Holds d (trajFrom d w p x U) U)
    (hd : w.ctl.spBoundConstr = [] → ∀ j < d.m * d.N, -dmax ≤ U j ∧ U j ≤ dmax)
    (hv : Keeps d dmax w p (trajFrom d w p x U d.N) v) :
    (∀ i ∈ w.ctl.spConstr, (w.cons i).userData.Holds d (trajFrom d w p x1 (shift d U v)) (shift d U v)) ∧
    (w.ctl.spBoundConstr = [] → ∀ j < d.m * d.N, -dmax ≤ shift d U v j ∧ shift d U v j ≤ dmax) := by
  have S : ∀ k, k + 1 ≤ d.N → ∀ r < d.n, trajFrom d w p x1 (shift d U v) k r = trajFrom d w p x U (k + 1) r :=
    sim_shift _ _ _ x x1 U v hx
  obtain ⟨N, e⟩ : ∃ N, d.N = N + 1 := ⟨d.N - 1, by omega⟩
  have L : ∀ r < d.n, trajFrom d w p x1 (shift d U v) d.N r = successor d w p (trajFrom d w p x U d.N) v r := by
    intro r hr
    conv_lhs => rw [e]
    unfold trajFrom successor
    rw [sim]
    congr 2
    · refine Finset.sum_congr rfl fun c hc => ?_
      have := S N (by omega) c (Finset.mem_range.1 hc)
      unfold trajFrom at this
      rw [this, e]
    · refine Finset.sum_congr rfl fun c hc => ?_
      rw [ctrl_shift U v (Finset.mem_range.1 hc) (by omega), if_neg (by omega)]
  refine ⟨fun i hi => ?_, fun hb j hj => ?_⟩
  · obtain ⟨h1, h2⟩ := (holds_steps (hs i hi) _ _).1 (hU i hi)
    obtain ⟨v1, v2⟩ := hv.1 i hi
    refine (holds_steps (hs i hi) _ _).2 ⟨fun k hk => ?_, fun k hk => ?_⟩
    · by_cases h : k + 1 ≤ d.N
      · exact (atState_congr (S k h) _).2 (h1 _ h)
      · obtain rfl : k = d.N := by omega
        exact (atState_congr L _).2 v2
    · by_cases h : k + 1 < d.N
      · refine (atStep_congr (S k hk) (fun c hc => ?_) _).2 (h2 _ h)
        rw [ctrl_shift U v hc hk, if_pos h]
      · have ek : k + 1 = d.N := by omega
        refine (atStep_congr (S k hk) (v := v) (fun c hc => ?_) _).2 (ek ▸ v1)
        rw [ctrl_shift U v hc hk, if_neg h]
  · unfold shift
    split
    case isTrue h => exact hd hb _ h
    case isFalse h => exact hv.2 hb _ (by omega)

/-- **C83**: recursive feasibility.  The constraints of a controller are given per step, every admissible plan can be
continued by one step, and some plan is admissible from the current state.  Then, with a reliable solver, the closed loop
`solve(); xInit(next state)` of any length never fails: every solve succeeds, every control applied keeps every
constraint in the state it is applied in, and every state visited keeps every constraint and follows from the previous
one by the dynamics. -/
theorem c83_recursive_feasibility {d : Dims} {dmax : K} {p : Nat} (l : List (SolveEnv K)) {w : World K} {g : Ghost}
    (h : Hist d dmax NoBoundSpan w g) (hp : w.ctl.ps = some p) (hi : w.ctl.isInit = false) (hh : Held w)
    (hc : ∀ e ∈ l, SolveContract d e w.ctl ∧ Reliable d w.ctl e) (hb : w.ctl.spBoundConstr = [] → g.clean)
    (hu : ∀ i ∈ w.ctl.spConstr, (w.cons i).userData.Honest) (hs : ∀ i ∈ w.ctl.spConstr, (w.cons i).userData.PerStep d)
    (hx : Extendable d dmax w p) (h0 : ∃ V, Admissible d dmax w p V) :
    ∃ w' log, closedLoop d dmax p w l = some (w', log) ∧ log.length = l.length ∧
      (∀ a ∈ log.head?, a.2.1 = (w.pss p).x0) ∧
      ∀ t (ht : t < log.length), (log[t]).1 = true ∧
        (∀ i ∈ w.ctl.spConstr, (w.cons i).userData.AtState d (log[t]).2.1.e ∧
          (w.cons i).userData.AtStep d (log[t]).2.1.e (log[t]).2.2.e) ∧
        ∀ (ht' : t + 1 < log.length), ∀ r < d.n,
          (log[t + 1]).2.1.e r = successor d w p (log[t]).2.1.e (log[t]).2.2.e r := by
  induction l generalizing w g with
  | nil => exact ⟨w, [], rfl, rfl, fun a ha => by simp at ha, fun t ht => absurd ht (Nat.not_lt_zero _)⟩
  | cons e l ih =>
    obtain ⟨hce, hre⟩ := hc _ List.mem_cons_self
    have o : OpOk d w g (.solve e) := ⟨by rw [hp]; exact Option.some_ne_none _, hce⟩
    obtain ⟨w1, b, q, sv, st, hw, hv⟩ := c50_solve_defined h o
    have F := c30_feasible_set h (fun _ _ h => h) o hi hb hu sv hp
    obtain ⟨R1, R2⟩ := hre q hw hv
    obtain ⟨V, hV⟩ := h0
    have ht : (e.answer q).1 = true := R1.2 ⟨V, (F V).2 hV⟩
    obtain rfl : b = true := (solve_reports sv).trans ht
    have fe := (F _).1 (R2 ht)
    rw [← c40_control_is_answer hi sv] at fe
    have hN : 0 < d.N := (h.good.canUpdate hp).sys.dims.toSysShape.Npos
    have T := (c40_success h o sv hp).2.1 hi |>.2
    obtain ⟨w2, h2⟩ : ∃ w2, w1.step dmax (.xInit p ⟨d.n, fun r => w1.ctl.trajectory.e (d.n + r)⟩) = .ok w2 := ⟨_, rfl⟩
    have H1 : Hist d dmax NoBoundSpan w1 (g.next w True (.solve e)) := .ok h o trivial st
    have H2 := Hist.ok (op := .xInit p ⟨d.n, fun r => w1.ctl.trajectory.e (d.n + r)⟩) H1 rfl trivial h2
    have e2 : w2 = { w1 with pss := upd w1.pss p ((w1.pss p).setXInit ⟨d.n, fun r => w1.ctl.trajectory.e (d.n + r)⟩) } := by
      simp only [step, Res.ok.injEq] at h2; exact h2.symm
    obtain ⟨p', hp', S⟩ := h.good.solved o.2 sv
    rw [hp] at hp'; cases hp'
    obtain ⟨Fr, _⟩ := solve_frame sv
    obtain ⟨l1, l2, l3, l4, l5⟩ := held_lists h.good hh sv
    have c2 : w2.ctl = w1.ctl := by rw [e2]
    have k2 : w2.cons = w1.cons := by rw [e2]
    have pe : w2.pss p = (w1.pss p).setXInit ⟨d.n, fun r => w1.ctl.trajectory.e (d.n + r)⟩ := by rw [e2]; simp only [upd_same]
    have ud : ∀ i, (w2.cons i).userData = (w.cons i).userData := fun i => by
      rw [k2, (S.heap.frame i).userData]
    have tf : trajFrom d w2 p = trajFrom d w p := by
      funext y U; unfold trajFrom; rw [pe, ← S.heap.A, ← S.heap.B, ← S.heap.bias]; rfl
    have sf : successor d w2 p = successor d w p := by
      funext y u; unfold successor; rw [pe, ← S.heap.A, ← S.heap.B, ← S.heap.bias]; rfl
    have m1 : w2.ctl.spConstr = w.ctl.spConstr := by rw [c2, l1]
    have m4 : w2.ctl.spBoundConstr = w.ctl.spBoundConstr := by rw [c2, l4]
    have kf : Keeps d dmax w2 p = Keeps d dmax w p := by
      funext y u; unfold Keeps; rw [m1, m4, sf]; simp only [ud]
    have x2 : ∀ r < d.n, (w2.pss p).x0.e r = trajFrom d w p (w.pss p).x0.e w1.ctl.control.e 1 r := by
      intro r hr
      have := T.2 1 r hN hr
      rw [one_mul] at this
      rw [pe]
      exact this
    obtain ⟨v, kv⟩ := hx _ _ fe.1 fe.2
    have sh := shifted_admissible hN hs x2 fe.1 fe.2 kv
    have ct2 : ∀ e ∈ l, SolveContract d e w2.ctl ∧ Reliable d w2.ctl e := by
      intro e' he'
      obtain ⟨a1, a2⟩ := hc e' (List.mem_cons_of_mem _ he')
      rw [c2]
      refine ⟨contract_next Fr S a1, fun q hq hn => a2 q hq ?_⟩
      rw [hn]; unfold numVars; rw [Fr.isInit]
    obtain ⟨w', log, r1, r2, r0, r3⟩ := ih H2 (by rw [c2, Fr.ps]; exact hp) (by rw [c2, Fr.isInit]; exact hi)
      (by
        refine ⟨?_, ?_⟩
        · rw [m1, e2]; show ∀ i ∈ _, 0 < w1.extCons i; rw [S.heap.extCons]; exact hh.1
        · rw [c2, l5, e2]; show ∀ i ∈ _, 0 < w1.extCosts i; rw [S.heap.extCosts]; exact hh.2)
      ct2 (by rw [m4]; exact fun hb' => ⟨hb hb', hb'⟩)
      (by rw [m1]; intro i hi'; rw [ud]; exact hu i hi')
      (by rw [m1]; intro i hi'; rw [ud]; exact hs i hi')
      (by
        unfold Extendable at hx ⊢
        rw [m1, m4, tf, kf]; simp only [ud]; exact hx)
      (by
        refine ⟨shift d w1.ctl.control.e v, ?_⟩
        unfold Admissible
        have : Spec.traj d w2 p (shift d w1.ctl.control.e v) = trajFrom d w p (w2.pss p).x0.e (shift d w1.ctl.control.e v) := by
          rw [← tf]; rfl
        rw [this, m1, m4]
        simp only [ud]
        exact sh)
    refine ⟨w', (true, (w.pss p).x0, w1.ctl.control) :: log, ?_, by simp [r2], by simp, ?_⟩
    · unfold closedLoop
      simp only [sv, h2, r1]
    · intro t ht
      cases t with
      | zero =>
        refine ⟨rfl, fun i hi' => ?_, fun ht' r hr => ?_⟩
        · obtain ⟨a1, a2⟩ := (holds_steps (hs i hi') _ _).1 (fe.1 i hi')
          refine ⟨a1 0 (Nat.zero_le _), (atStep_congr (v := w1.ctl.control.e) (fun _ _ => rfl) (fun c hc => ?_) _).1 (a2 0 hN)⟩
          unfold ctrl
          rw [zero_mul, zero_add]
        · have hl : 0 < log.length := by simpa using ht'
          have := r0 log[0] (by rw [List.head?_eq_getElem?, List.getElem?_eq_getElem hl]; rfl)
          simp only [List.getElem_cons_succ, List.getElem_cons_zero]
          rw [this, x2 r hr]
          unfold trajFrom successor
          rw [sim]
          simp only [sim, ctrl, zero_mul, zero_add]
      | succ t =>
        obtain ⟨a1, a2, a3⟩ := r3 t (by simpa using ht)
        rw [m1, sf] at *
        simp only [ud] at a2
        simp only [List.getElem_cons_succ]
        exact ⟨a1, a2, fun ht' => a3 (by simpa using ht')⟩

/-- If from every state that keeps the constraints some control keeps them, plans can be continued. -/
theorem extendable_of_viable {d : Dims} {dmax : K} {w : World K} {p : Nat}
    (hs : ∀ i ∈ w.ctl.spConstr, (w.cons i).userData.PerStep d)
    (hv : ∀ x : Nat → K, (∀ i ∈ w.ctl.spConstr, (w.cons i).userData.AtState d x) → ∃ u, Keeps d dmax w p x u) :
    Extendable d dmax w p := fun x V hV _ =>
  hv _ fun i hi => ((holds_steps (hs i hi) _ _).1 (hV i hi)).1 _ (le_refl _)

end World
end
end Copra
