import Verif.SpecIdle
import Verif.Props.Loosen

/-! # C116: idle actuators stay idle -/

namespace Copra
open Spec

set_option linter.unusedSectionVars false

section
variable {K : Type} [Field K] [LinearOrder K] [IsStrictOrderedRing K]

/-! ## An actuator that nothing looks at -/

theorem ctrl_off {d : Dims} {c : Nat} (U : Nat → K) (k : Nat) {c' : Nat} (hc' : c' < d.m) :
    ctrl d (switchedOff (actuator d.m c) U) k c' = if c' = c then 0 else ctrl d U k c' := by
  unfold ctrl switchedOff actuator
  rw [Nat.mul_comm k d.m, Nat.mul_add_mod, Nat.mod_eq_of_lt hc']
  simp only [decide_eq_true_eq]

theorem sum_off {d : Dims} {c : Nat} (U : Nat → K) (k : Nat) {e : Nat → K} (he : c < d.m → e c = 0) :
    ∑ c' ∈ Finset.range d.m, e c' * ctrl d (switchedOff (actuator d.m c) U) k c' = ∑ c' ∈ Finset.range d.m, e c' * ctrl d U k c' := by
  refine Finset.sum_congr rfl fun c' hc' => ?_
  have hc' := Finset.mem_range.1 hc'
  rw [ctrl_off U k hc']
  split
  · next h => subst h; rw [he hc', zero_mul, zero_mul]
  · rfl

theorem sim_off {d : Dims} {A B : Mat K} {b : Vec K} {x : Nat → K} {c : Nat} (hB : ∀ r < d.n, B.e r c = 0) (U : Nat → K) (k : Nat) :
    ∀ r < d.n, sim d A B b x (switchedOff (actuator d.m c) U) k r = sim d A B b x U k r := by
  induction k with
  | zero => exact fun r _ => rfl
  | succ k ih =>
    intro r hr
    rw [sim, sim, sum_off U k fun _ => hB r hr]
    congr 2
    exact Finset.sum_congr rfl fun c hc => by rw [ih c (Finset.mem_range.1 hc)]

theorem holds_off {d : Dims} {c : Nat} (hc : c < d.m) {X : Nat → Nat → K} {U : Nat → K} {D : ConstrData K}
    (h : ConstrData.LeavesIdle d c D) (hD : D.Holds d X U) : D.Holds d X (switchedOff (actuator d.m c) U) := by
  cases D with
  | trajectory q E f => exact hD
  | trajBound l u => exact hD
  | control q G f =>
    simp only [ConstrData.Holds, ConstrData.LeavesIdle] at hD h ⊢
    split at hD
    · next e =>
      rw [if_pos e] at h ⊢
      intro k hk r hr
      rw [sum_off U k fun _ => h r hr]
      exact hD k hk r hr
    · next e =>
      rw [if_neg e] at h ⊢
      intro r hr
      rw [Finset.sum_congr rfl fun k hk => sum_off U k (e := fun c => G.e r (k * d.m + c)) fun _ => h r hr k (Finset.mem_range.1 hk)]
      exact hD r hr
  | mixed q E G f =>
    simp only [ConstrData.Holds, ConstrData.LeavesIdle] at hD h ⊢
    split at hD
    · next e =>
      rw [if_pos e] at h ⊢
      intro k hk r hr
      rw [sum_off U k fun _ => h r hr]
      exact hD k hk r hr
    · next e =>
      rw [if_neg e] at h ⊢
      intro r hr
      rw [Finset.sum_congr rfl fun k hk => sum_off U k (e := fun c => G.e r (k * d.m + c)) fun _ => h r hr k (Finset.mem_range.1 hk)]
      exact hD r hr
  | ctrlBound l u =>
    simp only [ConstrData.Holds, ConstrData.LeavesIdle] at hD h ⊢
    split at hD
    · next e =>
      rw [if_pos e] at h ⊢
      intro k hk c' hc'
      rw [ctrl_off U k hc']
      split
      · next e2 => subst e2; exact h
      · exact hD k hk c' hc'
    · next e =>
      rw [if_neg e] at h ⊢
      intro k hk c' hc'
      rw [ctrl_off U k hc']
      split
      · next e2 => subst e2; exact h k hk
      · exact hD k hk c' hc'

theorem value_off {d : Dims} {c : Nat} {X : Nat → Nat → K} {U : Nat → K} {D : CostData K}
    (h : CostData.LeavesIdle d c D) : D.value d X (switchedOff (actuator d.m c) U) = D.value d X U := by
  cases D with
  | trajectory M r v => rfl
  | target M r v => rfl
  | control M r v =>
    simp only [CostData.value, CostData.LeavesIdle] at h ⊢
    split at h
    · next e =>
      rw [if_pos e, if_pos e]
      exact Finset.sum_congr rfl fun k _ => World.wsq_congr rfl (fun _ _ => rfl) (fun _ _ => rfl) fun r hr => sum_off U k fun _ => h r hr
    · next e =>
      rw [if_neg e, if_neg e]
      exact World.wsq_congr rfl (fun _ _ => rfl) (fun _ _ => rfl) fun r hr => Finset.sum_congr rfl fun k hk =>
        sum_off U k (e := fun c => M.e r (k * d.m + c)) fun _ => h r hr k (Finset.mem_range.1 hk)
  | mixed M C r v =>
    simp only [CostData.value, CostData.LeavesIdle] at h ⊢
    split at h
    · next e =>
      rw [if_pos e, if_pos e]
      exact Finset.sum_congr rfl fun k _ => World.wsq_congr rfl (fun _ _ => rfl) (fun _ _ => rfl) fun r hr => by
        rw [sum_off U k fun _ => h r hr]
    · next e =>
      rw [if_neg e, if_neg e]
      exact World.wsq_congr rfl (fun _ _ => rfl) (fun _ _ => rfl) fun r hr => by
        rw [Finset.sum_congr rfl fun k hk => sum_off U k (e := fun c => C.e r (k * d.m + c)) fun _ => h r hr k (Finset.mem_range.1 hk)]

namespace World

variable {d : Dims} {dmax : K} {w w' : World K} {g : Ghost} {p : Nat} {e : SolveEnv K} {q : QP K} {off : Nat → Bool}

/-- **C116** (actuators): switching off an actuator that does not act on the system and that no declaration looks at breaks no
constraint and raises no cost, from any initial state. -/
theorem c116_actuator {c : Nat} (I : IdleActuator d w p c) (x : Nat → K) : IdleEntries d w p x (actuator d.m c) where
  cons := fun U h i hi => by
    have t : ∀ k ≤ d.N, ∀ r < d.n, Spec.trajFrom d w p x (switchedOff (actuator d.m c) U) k r = Spec.trajFrom d w p x U k r :=
      fun k _ r hr => sim_off I.B U k r hr
    rw [holds_congr_traj t]
    exact holds_off I.lt (I.cons i hi) (h i hi)
  costs := fun U => by
    have t : ∀ k ≤ d.N, ∀ r < d.n, Spec.trajFrom d w p x (switchedOff (actuator d.m c) U) k r = Spec.trajFrom d w p x U k r :=
      fun k _ r hr => sim_off I.B U k r hr
    refine le_of_eq ?_
    congr 1
    exact List.map_congr_left fun i hi => by rw [value_congr_traj t, value_off (I.costs i hi)]

theorem norm_off (n : Nat) (U : Nat → K) : ∑ j ∈ Finset.range n, switchedOff off U j ^ 2 =
    (∑ j ∈ Finset.range n, U j ^ 2) - ∑ j ∈ Finset.range n, if off j then U j ^ 2 else 0 := by
  rw [eq_sub_iff_add_eq, ← Finset.sum_add_distrib]
  refine Finset.sum_congr rfl fun j _ => ?_
  unfold switchedOff
  cases off j <;> simp

theorem range_off {n : Nat} {U : Nat → K} (h : ∀ j < n, -dmax ≤ U j ∧ U j ≤ dmax) :
    ∀ j < n, -dmax ≤ switchedOff off U j ∧ switchedOff off U j ≤ dmax := by
  intro j hj
  unfold switchedOff
  split
  · have := h j hj
    constructor <;> linarith [this.1, this.2]
  · exact h j hj

theorem cost_off {x : Nat → K} (I : IdleEntries d w p x off) (U : Nat → K) :
    totalCostFrom d w p x (switchedOff off U) + 1 / 2 * (1 / 1000000) * (∑ j ∈ Finset.range (d.m * d.N), if off j then U j ^ 2 else 0) ≤
      totalCostFrom d w p x U := by
  unfold totalCostFrom
  rw [norm_off]
  have := I.costs U
  linarith

/-- **C116** (how idle): if switching off some controls breaks no constraint and raises no cost, they are nearly off in every
answer that is feasible and nearly optimal: the sum of their squares is at most `2e6` times the suboptimality of the answer. -/
theorem c116_idle {ε : K} (S : PlainSolve d dmax w g p e w' true q) (f : CostsFresh d w g)
    (I : IdleEntries d w p (w.pss p).x0.e off) (hf : Feasible q (e.answer q).2.e)
    (ho : ∀ y, Feasible q y → objective q (e.answer q).2.e ≤ objective q y + ε) :
    (∑ j ∈ Finset.range (d.m * d.N), if off j then w'.ctl.control.e j ^ 2 else 0) ≤ 2000000 * ε := by
  rw [← c40_control_is_answer S.plain S.solve] at hf ho
  generalize w'.ctl.control.e = U at hf ho ⊢
  have F := fun V => c30_feasible_set S.hist (fun _ _ h => h.1) S.allowed S.plain S.clean S.honest S.solve S.ps V
  obtain ⟨h1, h2⟩ := (F U).1 hf
  have h := ho _ ((F (switchedOff off U)).2 ⟨I.cons U h1, fun e => range_off (h2 e)⟩)
  obtain ⟨κ, O⟩ := c32_objective S.hist S.allowed S.plain f S.solve S.ps
  rw [O, O] at h
  have t : ∀ V, totalCost d w p V = totalCostFrom d w p (w.pss p).x0.e V := fun _ => rfl
  rw [t, t] at h
  have := cost_off I U
  linarith

theorem zero_of_idle {n : Nat} {U : Nat → K} (h : (∑ j ∈ Finset.range n, if off j then U j ^ 2 else 0) ≤ 0) :
    ∀ j < n, off j = true → U j = 0 := by
  have pos : ∀ j ∈ Finset.range n, (0 : K) ≤ if off j then U j ^ 2 else 0 := fun j _ => by
    split
    · exact sq_nonneg _
    · exact le_refl _
  intro j hj o
  have := (Finset.sum_eq_zero_iff_of_nonneg pos).1 (le_antisymm h (Finset.sum_nonneg pos)) j (Finset.mem_range.2 hj)
  rw [if_pos o] at this
  exact pow_eq_zero_iff (two_ne_zero) |>.1 this

/-- **C116** (exactly idle): with a solver that returns a minimiser they are off. -/
theorem c116_exactly_idle (S : PlainSolve d dmax w g p e w' true q) (f : CostsFresh d w g)
    (I : IdleEntries d w p (w.pss p).x0.e off) (o : IsOptimal q (e.answer q).2.e) :
    ∀ j < d.m * d.N, off j = true → w'.ctl.control.e j = 0 :=
  zero_of_idle (by
    have := c116_idle (ε := 0) S f I o.1 fun y hy => by rw [add_zero]; exact o.2 y hy
    rwa [mul_zero] at this)

/-- **C116** (actuators, exactly): an actuator without effect that nothing looks at rests in every step. -/
theorem c116_rests {c : Nat} (S : PlainSolve d dmax w g p e w' true q) (f : CostsFresh d w g) (I : IdleActuator d w p c)
    (o : IsOptimal q (e.answer q).2.e) : ∀ k < d.N, w'.ctl.control.e (k * d.m + c) = 0 := fun k hk =>
  c116_exactly_idle S f (c116_actuator I _) o _ (by rw [Nat.mul_comm d.m]; exact entry_lt hk I.lt) (by
    unfold actuator
    rw [Nat.mul_comm k, Nat.mul_add_mod, Nat.mod_eq_of_lt I.lt]
    simp)

/-- **C116** (how idle, `InitialStateLMPC`): the same, for the initial state that the controller chose. -/
theorem c116_idle_init {ε : K} (S : InitSolve d dmax w g p e w' true q) {x : Vec K}
    (hx : w'.ctl.initialState (w'.pss p) = some x) (I : IdleEntries d w p x.e off) (hf : Feasible q (e.answer q).2.e)
    (ho : ∀ y, Feasible q y → objective q (e.answer q).2.e ≤ objective q y + ε) :
    (∑ j ∈ Finset.range (d.m * d.N), if off j then w'.ctl.control.e j ^ 2 else 0) ≤ 2000000 * ε := by
  obtain ⟨x', h1, -, -, -, a1⟩ := InitSolve.result S
  rw [hx] at h1; cases h1
  obtain ⟨W, nv, nc⟩ := InitSolve.sized S
  replace hf := feasible_ext W (fun j hj => (a1 j hj).symm) hf
  have oe : objective q (joined d x.e w'.ctl.control.e) = objective q (e.answer q).2.e := objective_ext W fun j hj => a1 j hj
  rw [← oe] at ho
  generalize w'.ctl.control.e = U at hf ho ⊢
  obtain ⟨h1, h2, h3⟩ := (InitSolve.feasible S _ _).1 hf
  have h := ho _ ((InitSolve.feasible S x.e (switchedOff off U)).2 ⟨I.cons U h1, h2, fun e => range_off (h3 e)⟩)
  obtain ⟨κ, O⟩ := c58_objective_per_state S.hist S.allowed S.init S.fresh S.solve S.ps x.e
  rw [O, O] at h
  have := cost_off I U
  linarith

/-- **C116** (actuators, `InitialStateLMPC`). -/
theorem c116_rests_init {c : Nat} (S : InitSolve d dmax w g p e w' true q) (I : IdleActuator d w p c)
    (o : IsOptimal q (e.answer q).2.e) : ∀ k < d.N, w'.ctl.control.e (k * d.m + c) = 0 := by
  obtain ⟨x, hx, -⟩ := InitSolve.result S
  have := c116_idle_init (ε := 0) S hx (c116_actuator I _) o.1 fun y hy => by rw [add_zero]; exact o.2 y hy
  rw [mul_zero] at this
  exact fun k hk => zero_of_idle this _ (by rw [Nat.mul_comm d.m]; exact entry_lt hk I.lt) (by
    unfold actuator
    rw [Nat.mul_comm k, Nat.mul_add_mod, Nat.mod_eq_of_lt I.lt]
    simp)

end World
end
end Copra
