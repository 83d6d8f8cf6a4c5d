import Verif.Props.Recursive

/-! # C84: averaging initial states -/

namespace Copra

namespace Spec
variable {K : Type} [Field K]

/-- The weighted average of two vectors. -/
def mix (a : K) (x y : Nat → K) (j : Nat) : K := a * x j + (1 - a) * y j

/-- The same system, constraints and costs (in any order); the initial states may differ. -/
structure AlikeButStart (w1 : World K) (p1 : Nat) (w2 : World K) (p2 : Nat) : Prop where
  A : (w1.pss p1).A = (w2.pss p2).A
  B : (w1.pss p1).B = (w2.pss p2).B
  bias : (w1.pss p1).d = (w2.pss p2).d
  cons : (w1.ctl.spConstr.map fun i => (w1.cons i).userData).Perm (w2.ctl.spConstr.map fun i => (w2.cons i).userData)
  costs : (w1.ctl.spCost.map fun i => (w1.costs i).userData).Perm (w2.ctl.spCost.map fun i => (w2.costs i).userData)

/-- A `solve()` of a plain controller after any history, with the conditions under which C30 describes its problem. -/
structure PlainSolve [LinearOrder K] (d : Dims) (dmax : K) (w : World K) (g : Ghost) (p : Nat) (env : SolveEnv K) (w' : World K)
    (b : Bool) (q : QP K) : Prop where
  hist : Hist d dmax (fun w op => NoBoundSpan w op ∧ NonnegWeights w op) w g
  allowed : OpOk d w g (.solve env)
  ps : w.ctl.ps = some p
  plain : w.ctl.isInit = false
  clean : w.ctl.spBoundConstr = [] → g.clean
  honest : ∀ i ∈ w.ctl.spConstr, (w.cons i).userData.Honest
  solve : w.solve env = some (w', b, q)

/-- Nonnegative weights. -/
def CostData.Nonneg [LinearOrder K] : CostData K → Prop
  | .trajectory M _ w | .target M _ w => ∀ r < M.rows, 0 ≤ w.e r
  | .control N _ w => ∀ r < N.rows, 0 ≤ w.e r
  | .mixed M _ _ w => ∀ r < M.rows, 0 ≤ w.e r

end Spec
open Spec

set_option linter.unusedSectionVars false
set_option maxRecDepth 100000

section
variable {K : Type} [Field K] [LinearOrder K] [IsStrictOrderedRing K]

theorem sum_mix (a : K) (s : Finset Nat) (e x y : Nat → K) :
    ∑ c ∈ s, e c * mix a x y c = a * (∑ c ∈ s, e c * x c) + (1 - a) * ∑ c ∈ s, e c * y c := by
  rw [Finset.mul_sum, Finset.mul_sum, ← Finset.sum_add_distrib]
  exact Finset.sum_congr rfl fun c _ => by unfold mix; ring

theorem ctrl_mix (d : Dims) (a : K) (U V : Nat → K) (k : Nat) : ctrl d (mix a U V) k = mix a (ctrl d U k) (ctrl d V k) := rfl

theorem sim_mix (d : Dims) (A B : Mat K) (b : Vec K) (a : K) (x y U V : Nat → K) (k : Nat) :
    sim d A B b (mix a x y) (mix a U V) k = mix a (sim d A B b x U k) (sim d A B b y V k) := by
  induction k with
  | zero => rfl
  | succ k ih =>
    funext r
    rw [sim, ih, ctrl_mix, sum_mix, sum_mix]
    unfold mix
    rw [sim, sim]
    ring

theorem le_mix_ext {a s t : K} {b : Ext K} (h0 : 0 ≤ a) (h1 : a ≤ 1) (hs : Ext.fin s ≤ b) (ht : Ext.fin t ≤ b) :
    Ext.fin (a * s + (1 - a) * t) ≤ b := by
  cases b with
  | ninf => exact hs
  | pinf => trivial
  | fin b =>
    have hs' : s ≤ b := hs
    have ht' : t ≤ b := ht
    show a * s + (1 - a) * t ≤ b
    nlinarith [mul_le_mul_of_nonneg_left hs' h0, mul_le_mul_of_nonneg_left ht' (sub_nonneg.2 h1)]

theorem ge_mix_ext {a s t : K} {b : Ext K} (h0 : 0 ≤ a) (h1 : a ≤ 1) (hs : b ≤ Ext.fin s) (ht : b ≤ Ext.fin t) :
    b ≤ Ext.fin (a * s + (1 - a) * t) := by
  cases b with
  | ninf => trivial
  | pinf => exact hs
  | fin b =>
    have hs' : b ≤ s := hs
    have ht' : b ≤ t := ht
    show b ≤ a * s + (1 - a) * t
    nlinarith [mul_le_mul_of_nonneg_left hs' h0, mul_le_mul_of_nonneg_left ht' (sub_nonneg.2 h1)]

theorem rel_mix {a s t : K} {b : Ext K} {q : Bool} (h0 : 0 ≤ a) (h1 : a ≤ 1) (hs : Rel q s b) (ht : Rel q t b) :
    Rel q (a * s + (1 - a) * t) b := by
  unfold Rel at *
  split at hs
  · rw [if_pos ‹_›] at ht ⊢
    exact le_mix_ext h0 h1 hs ht
  · rw [if_neg ‹_›] at ht ⊢
    rw [← ht] at hs ⊢
    injection hs with hs
    rw [hs]; congr 1; ring

theorem sum2_mix (a : K) (s t : Finset Nat) (e : Nat → Nat → K) (X Y : Nat → Nat → K) :
    ∑ k ∈ s, ∑ c ∈ t, e k c * mix a (X k) (Y k) c =
      a * (∑ k ∈ s, ∑ c ∈ t, e k c * X k c) + (1 - a) * ∑ k ∈ s, ∑ c ∈ t, e k c * Y k c := by
  rw [Finset.mul_sum, Finset.mul_sum, ← Finset.sum_add_distrib]
  exact Finset.sum_congr rfl fun k _ => sum_mix a t _ _ _

/-- Constraints are convex in the trajectory and the controls. -/
theorem holds_mix {d : Dims} {a : K} (h0 : 0 ≤ a) (h1 : a ≤ 1) {X Y : Nat → Nat → K} {U V : Nat → K} {D : ConstrData K}
    (hX : D.Holds d X U) (hY : D.Holds d Y V) : D.Holds d (fun k => mix a (X k) (Y k)) (mix a U V) := by
  cases D <;> simp only [ConstrData.Holds] at hX hY ⊢
  case trajectory q E f =>
    split <;> rename_i hc
    · rw [if_pos hc] at hX hY
      intro k hk r hr
      rw [sum_mix]; exact rel_mix h0 h1 (hX k hk r hr) (hY k hk r hr)
    · rw [if_neg hc] at hX hY
      intro r hr
      rw [sum2_mix a _ _ (fun k c => E.e r (k * d.n + c))]; exact rel_mix h0 h1 (hX r hr) (hY r hr)
  case control q G f =>
    split <;> rename_i hc
    · rw [if_pos hc] at hX hY
      intro k hk r hr
      rw [ctrl_mix, sum_mix]; exact rel_mix h0 h1 (hX k hk r hr) (hY k hk r hr)
    · rw [if_neg hc] at hX hY
      intro r hr
      simp only [ctrl_mix]
      rw [sum2_mix a _ _ (fun k c => G.e r (k * d.m + c))]; exact rel_mix h0 h1 (hX r hr) (hY r hr)
  case mixed q E G f =>
    split <;> rename_i hc
    · rw [if_pos hc] at hX hY
      intro k hk r hr
      rw [ctrl_mix, sum_mix, sum_mix]
      have := rel_mix h0 h1 (hX k hk r hr) (hY k hk r hr)
      convert this using 1; ring
    · rw [if_neg hc] at hX hY
      intro r hr
      simp only [ctrl_mix]
      rw [sum2_mix a _ _ (fun k c => G.e r (k * d.m + c)), sum2_mix a _ _ (fun k c => E.e r (k * d.n + c))]
      have := rel_mix h0 h1 (hX r hr) (hY r hr)
      convert this using 1; ring
  case trajBound l u =>
    split <;> rename_i hc
    · rw [if_pos hc] at hX hY
      exact fun k hk r hr => ⟨ge_mix_ext h0 h1 (hX k hk r hr).1 (hY k hk r hr).1, le_mix_ext h0 h1 (hX k hk r hr).2 (hY k hk r hr).2⟩
    · rw [if_neg hc] at hX hY
      exact fun k hk r hr => ⟨ge_mix_ext h0 h1 (hX k hk r hr).1 (hY k hk r hr).1, le_mix_ext h0 h1 (hX k hk r hr).2 (hY k hk r hr).2⟩
  case ctrlBound l u =>
    split <;> rename_i hc
    · rw [if_pos hc] at hX hY
      exact fun k hk r hr => ⟨ge_mix_ext h0 h1 (hX k hk r hr).1 (hY k hk r hr).1, le_mix_ext h0 h1 (hX k hk r hr).2 (hY k hk r hr).2⟩
    · rw [if_neg hc] at hX hY
      exact fun k hk r hr => ⟨ge_mix_ext h0 h1 (hX k hk r hr).1 (hY k hk r hr).1, le_mix_ext h0 h1 (hX k hk r hr).2 (hY k hk r hr).2⟩

theorem holds_congr_traj {d : Dims} {X Y : Nat → Nat → K} (h : ∀ k ≤ d.N, ∀ r < d.n, X k r = Y k r) {U : Nat → K}
    (D : ConstrData K) : D.Holds d X U ↔ D.Holds d Y U := by
  have S : ∀ (e : Nat → K) (k : Nat), k ≤ d.N → ∑ c ∈ Finset.range d.n, e c * X k c = ∑ c ∈ Finset.range d.n, e c * Y k c :=
    fun e k hk => Finset.sum_congr rfl fun c hc => by rw [h k hk c (Finset.mem_range.1 hc)]
  have S2 : ∀ e : Nat → Nat → K, ∑ k ∈ Finset.range (d.N + 1), ∑ c ∈ Finset.range d.n, e k c * X k c =
      ∑ k ∈ Finset.range (d.N + 1), ∑ c ∈ Finset.range d.n, e k c * Y k c :=
    fun e => Finset.sum_congr rfl fun k hk => S _ k (Nat.lt_succ_iff.1 (Finset.mem_range.1 hk))
  cases D <;> simp only [ConstrData.Holds]
  case trajectory q E f =>
    split
    · exact forall₂_congr fun k hk => forall₂_congr fun r _ => by rw [S _ k hk]
    · exact forall₂_congr fun r _ => by rw [S2 fun k c => E.e r (k * d.n + c)]
  case mixed q E G f =>
    split
    · exact forall₂_congr fun k hk => forall₂_congr fun r _ => by rw [S _ k hk.le]
    · exact forall₂_congr fun r _ => by rw [S2 fun k c => E.e r (k * d.n + c)]
  case trajBound l u =>
    split
    · exact forall₂_congr fun k hk => forall₂_congr fun r hr => by rw [h k hk r hr]
    · exact forall₂_congr fun k hk => forall₂_congr fun r hr => by rw [h k hk r hr]

theorem value_congr_traj {d : Dims} {X Y : Nat → Nat → K} (h : ∀ k ≤ d.N, ∀ r < d.n, X k r = Y k r) {U : Nat → K}
    (D : CostData K) : D.value d X U = D.value d Y U := by
  have S : ∀ (e : Nat → K) (k : Nat), k ≤ d.N → ∑ c ∈ Finset.range d.n, e c * X k c = ∑ c ∈ Finset.range d.n, e c * Y k c :=
    fun e k hk => Finset.sum_congr rfl fun c hc => by rw [h k hk c (Finset.mem_range.1 hc)]
  have S2 : ∀ e : Nat → Nat → K, ∑ k ∈ Finset.range (d.N + 1), ∑ c ∈ Finset.range d.n, e k c * X k c =
      ∑ k ∈ Finset.range (d.N + 1), ∑ c ∈ Finset.range d.n, e k c * Y k c :=
    fun e => Finset.sum_congr rfl fun k hk => S _ k (Nat.lt_succ_iff.1 (Finset.mem_range.1 hk))
  cases D <;> simp only [CostData.value, wsq]
  case trajectory M p w =>
    split
    · exact Finset.sum_congr rfl fun k hk => Finset.sum_congr rfl fun r _ => by
        rw [S _ k (Nat.lt_succ_iff.1 (Finset.mem_range.1 hk))]
    · exact Finset.sum_congr rfl fun r _ => by rw [S2 fun k c => M.e r (k * d.n + c)]
  case target M p w => exact Finset.sum_congr rfl fun r _ => by rw [S _ _ (le_refl _)]
  case mixed M N p w =>
    split
    · exact Finset.sum_congr rfl fun k hk => Finset.sum_congr rfl fun r _ => by
        rw [S _ k (Finset.mem_range.1 hk).le]
    · exact Finset.sum_congr rfl fun r _ => by rw [S2 fun k c => M.e r (k * d.n + c)]

theorem sq_mix {a : K} (h0 : 0 ≤ a) (h1 : a ≤ 1) (s t : K) : (a * s + (1 - a) * t) ^ 2 ≤ a * s ^ 2 + (1 - a) * t ^ 2 := by
  have : a * s ^ 2 + (1 - a) * t ^ 2 - (a * s + (1 - a) * t) ^ 2 = a * (1 - a) * (s - t) ^ 2 := by ring
  have h2 := mul_nonneg (mul_nonneg h0 (sub_nonneg.2 h1)) (sq_nonneg (s - t))
  linarith

theorem wsq_mix {a : K} (h0 : 0 ≤ a) (h1 : a ≤ 1) {n : Nat} {w p : Vec K} (hw : ∀ r < n, 0 ≤ w.e r) {y z v : Nat → K}
    (hv : ∀ r < n, v r = a * y r + (1 - a) * z r) : wsq n w p v ≤ a * wsq n w p y + (1 - a) * wsq n w p z := by
  unfold wsq
  rw [Finset.mul_sum, Finset.mul_sum, ← Finset.sum_add_distrib]
  refine Finset.sum_le_sum fun r hr => ?_
  rw [hv r (Finset.mem_range.1 hr)]
  have e : a * y r + (1 - a) * z r - p.e r = a * (y r - p.e r) + (1 - a) * (z r - p.e r) := by ring
  rw [e]
  have := mul_le_mul_of_nonneg_left (sq_mix h0 h1 (y r - p.e r) (z r - p.e r)) (hw r (Finset.mem_range.1 hr))
  linarith

/-- Costs with nonnegative weights are convex in the trajectory and the controls. -/
theorem value_mix {d : Dims} {a : K} (h0 : 0 ≤ a) (h1 : a ≤ 1) {X Y : Nat → Nat → K} {U V : Nat → K} {D : CostData K}
    (hw : D.Nonneg) : D.value d (fun k => mix a (X k) (Y k)) (mix a U V) ≤ a * D.value d X U + (1 - a) * D.value d Y V := by
  cases D <;> simp only [CostData.value]
  case trajectory M p w =>
    split
    · rw [Finset.mul_sum, Finset.mul_sum, ← Finset.sum_add_distrib]
      exact Finset.sum_le_sum fun k _ => wsq_mix h0 h1 hw fun r _ => sum_mix a _ _ _ _
    · exact wsq_mix h0 h1 hw fun r _ => sum2_mix a _ _ (fun k c => M.e r (k * d.n + c)) _ _
  case target M p w => exact wsq_mix h0 h1 hw fun r _ => sum_mix a _ _ _ _
  case control N p w =>
    split
    · rw [Finset.mul_sum, Finset.mul_sum, ← Finset.sum_add_distrib]
      exact Finset.sum_le_sum fun k _ => wsq_mix h0 h1 hw fun r _ => sum_mix a _ _ _ _
    · exact wsq_mix h0 h1 hw fun r _ => sum2_mix a _ _ (fun k c => N.e r (k * d.m + c)) _ _
  case mixed M N p w =>
    split
    · rw [Finset.mul_sum, Finset.mul_sum, ← Finset.sum_add_distrib]
      refine Finset.sum_le_sum fun k _ => wsq_mix h0 h1 hw fun r _ => ?_
      rw [ctrl_mix, sum_mix, sum_mix]; ring
    · refine wsq_mix h0 h1 hw fun r _ => ?_
      simp only [ctrl_mix]
      rw [sum2_mix a _ _ (fun k c => M.e r (k * d.n + c)), sum2_mix a _ _ (fun k c => N.e r (k * d.m + c))]; ring

namespace World

theorem AlikeButStart.mem {w1 w2 : World K} {p1 p2 : Nat} (R : AlikeButStart w1 p1 w2 p2) (P : ConstrData K → Prop) :
    (∀ i ∈ w1.ctl.spConstr, P (w1.cons i).userData) ↔ ∀ i ∈ w2.ctl.spConstr, P (w2.cons i).userData := by
  constructor
  · intro H i hi
    obtain ⟨j, hj, e⟩ := List.mem_map.1 ((R.cons.mem_iff).2 (List.mem_map.2 ⟨i, hi, rfl⟩))
    rw [← e]; exact H j hj
  · intro H i hi
    obtain ⟨j, hj, e⟩ := List.mem_map.1 ((R.cons.mem_iff).1 (List.mem_map.2 ⟨i, hi, rfl⟩))
    rw [← e]; exact H j hj

theorem AlikeButStart.bound {d : Dims} {dmax : K} {w1 w2 : World K} {g1 g2 : Ghost} {p1 p2 : Nat} (R : AlikeButStart w1 p1 w2 p2)
    (h1 : Good d dmax w1 g1) (h2 : Good d dmax w2 g2) (hp1 : w1.ctl.ps = some p1) (hp2 : w2.ctl.ps = some p2) :
    w1.ctl.spBoundConstr = [] ↔ w2.ctl.spBoundConstr = [] := by
  rw [bound_nil h1 hp1, bound_nil h2 hp2]
  exact ⟨fun H D hD => H D (R.cons.mem_iff.2 hD), fun H D hD => H D (R.cons.mem_iff.1 hD)⟩

/-- The average of admissible plans is admissible from the average of the initial states. -/
theorem admissible_mix {d : Dims} {dmax a : K} (h0 : 0 ≤ a) (h1 : a ≤ 1) {w1 w2 w3 : World K} {g1 g2 g3 : Ghost} {p1 p2 p3 : Nat}
    (G1 : Good d dmax w1 g1) (G2 : Good d dmax w2 g2) (G3 : Good d dmax w3 g3)
    (hp1 : w1.ctl.ps = some p1) (hp2 : w2.ctl.ps = some p2) (hp3 : w3.ctl.ps = some p3)
    (R1 : AlikeButStart w1 p1 w3 p3) (R2 : AlikeButStart w2 p2 w3 p3)
    (hx : ∀ r < d.n, (w3.pss p3).x0.e r = mix a (w1.pss p1).x0.e (w2.pss p2).x0.e r)
    {U V : Nat → K} (hU : Admissible d dmax w1 p1 U) (hV : Admissible d dmax w2 p2 V) : Admissible d dmax w3 p3 (mix a U V) := by
  have T : ∀ k ≤ d.N, ∀ r < d.n, Spec.traj d w3 p3 (mix a U V) k r = mix a (Spec.traj d w1 p1 U k) (Spec.traj d w2 p2 V k) r := by
    intro k hk r hr
    unfold Spec.traj
    rw [sim_congr d _ _ _ (V := mix a U V) hx (fun _ _ => rfl) k hk r hr, sim_mix, R1.A, R1.B, R1.bias, R2.A, R2.B, R2.bias]
  refine ⟨?_, fun hb j hj => ?_⟩
  · have a1 := (AlikeButStart.mem R1 fun D => D.Holds d (Spec.traj d w1 p1 U) U).1 hU.1
    have a2 := (AlikeButStart.mem R2 fun D => D.Holds d (Spec.traj d w2 p2 V) V).1 hV.1
    intro i hi
    have := holds_mix h0 h1 (a1 i hi) (a2 i hi)
    exact (holds_congr_traj (fun k hk r hr => (T k hk r hr)) _).2 this
  · have b1 := hU.2 ((AlikeButStart.bound R1 G1 G3 hp1 hp3).2 hb) j hj
    have b2 := hV.2 ((AlikeButStart.bound R2 G2 G3 hp2 hp3).2 hb) j hj
    exact ⟨(ge_mix_ext (b := .fin (-dmax)) h0 h1 b1.1 b2.1 :), (le_mix_ext (b := .fin dmax) h0 h1 b1.2 b2.2 :)⟩

/-- The weights of a registered cost are nonnegative when the client only sets nonnegative weights. -/
theorem registered_nonneg {d : Dims} {dmax : K} {E : World K → Op K → Prop} {w : World K} {g : Ghost} (h : Hist d dmax E w g)
    (hE : ∀ w op, E w op → NonnegWeights w op) : ∀ i ∈ w.ctl.spCost, (w.costs i).userData.Nonneg := by
  intro i hi
  have R := h.good.costReg i (h.good.subK i hi)
  have n := h.nonneg hE i
  have w1 := R.wr
  have D := R.data
  unfold Cost.NonnegW at n
  rw [w1] at n
  unfold Cost.DataOk at D
  unfold Cost.userData
  cases hk : (w.costs i).kind <;> rw [hk] at D <;> simp only [CostData.Nonneg] <;> intro r hr <;> refine n r ?_
  all_goals first | (rw [← D.1]; exact hr) | omega

/-- The cost of the average plan from the average state is at most the average of the costs. -/
theorem totalCost_mix {d : Dims} {a : K} (h0 : 0 ≤ a) (h1 : a ≤ 1) {w1 w2 w3 : World K} {p1 p2 p3 : Nat}
    (R1 : AlikeButStart w1 p1 w3 p3) (R2 : AlikeButStart w2 p2 w3 p3)
    (hx : ∀ r < d.n, (w3.pss p3).x0.e r = mix a (w1.pss p1).x0.e (w2.pss p2).x0.e r)
    (hn : ∀ i ∈ w3.ctl.spCost, (w3.costs i).userData.Nonneg) (U V : Nat → K) :
    totalCost d w3 p3 (mix a U V) ≤ a * totalCost d w1 p1 U + (1 - a) * totalCost d w2 p2 V := by
  have T : ∀ k ≤ d.N, ∀ r < d.n, Spec.traj d w3 p3 (mix a U V) k r = mix a (Spec.traj d w1 p1 U k) (Spec.traj d w2 p2 V k) r := by
    intro k hk r hr
    unfold Spec.traj
    rw [sim_congr d _ _ _ (V := mix a U V) hx (fun _ _ => rfl) k hk r hr, sim_mix, R1.A, R1.B, R1.bias, R2.A, R2.B, R2.bias]
  have s1 := (R1.costs.map fun D => D.value d (Spec.traj d w1 p1 U) U).sum_eq
  have s2 := (R2.costs.map fun D => D.value d (Spec.traj d w2 p2 V) V).sum_eq
  rw [List.map_map, List.map_map] at s1 s2
  simp only [Function.comp_def] at s1 s2
  have L : ∀ l : List Nat, (∀ i ∈ l, (w3.costs i).userData.Nonneg) →
      (l.map fun i => (w3.costs i).userData.value d (Spec.traj d w3 p3 (mix a U V)) (mix a U V)).sum ≤
        a * (l.map fun i => (w3.costs i).userData.value d (Spec.traj d w1 p1 U) U).sum +
        (1 - a) * (l.map fun i => (w3.costs i).userData.value d (Spec.traj d w2 p2 V) V).sum := by
    intro l hl
    induction l with
    | nil => simp
    | cons i l ih =>
      simp only [List.map_cons, List.sum_cons]
      have e := value_mix h0 h1 (X := Spec.traj d w1 p1 U) (Y := Spec.traj d w2 p2 V) (U := U) (V := V) (d := d)
        (hl i List.mem_cons_self)
      rw [← value_congr_traj T] at e
      have := ih fun j hj => hl j (List.mem_cons_of_mem _ hj)
      linarith
  have N : ∑ j ∈ Finset.range (d.m * d.N), mix a U V j ^ 2 ≤
      a * ∑ j ∈ Finset.range (d.m * d.N), U j ^ 2 + (1 - a) * ∑ j ∈ Finset.range (d.m * d.N), V j ^ 2 := by
    rw [Finset.mul_sum, Finset.mul_sum, ← Finset.sum_add_distrib]
    exact Finset.sum_le_sum fun j _ => sq_mix h0 h1 _ _
  have := L _ hn
  unfold totalCost
  rw [s1, s2]
  linarith

variable {d : Dims} {dmax a : K} {w1 w2 w3 w1' w2' w3' : World K} {g1 g2 g3 : Ghost} {p1 p2 p3 : Nat} {e1 e2 e3 : SolveEnv K}
  {b3 : Bool} {q1 q2 q3 : QP K}

/-- **C84** (feasibility): if `solve()` succeeds from two initial states, it succeeds from every state between them: the
same system, constraints and costs, a solver whose answers satisfy the constraints in the first two solves and which
finds a solution if there is one in the third. -/
theorem c84_feasible_between (h0 : 0 ≤ a) (h1 : a ≤ 1) (S1 : PlainSolve d dmax w1 g1 p1 e1 w1' true q1)
    (S2 : PlainSolve d dmax w2 g2 p2 e2 w2' true q2) (S3 : PlainSolve d dmax w3 g3 p3 e3 w3' b3 q3)
    (R1 : AlikeButStart w1 p1 w3 p3) (R2 : AlikeButStart w2 p2 w3 p3)
    (hx : ∀ r < d.n, (w3.pss p3).x0.e r = mix a (w1.pss p1).x0.e (w2.pss p2).x0.e r)
    (f1 : Feasible q1 (e1.answer q1).2.e) (f2 : Feasible q2 (e2.answer q2).2.e)
    (complete : (∃ x, Feasible q3 x) → (e3.answer q3).1 = true) : b3 = true := by
  have F1 := (c30_feasible_set S1.hist (fun _ _ h => h.1) S1.allowed S1.plain S1.clean S1.honest S1.solve S1.ps _).1 f1
  have F2 := (c30_feasible_set S2.hist (fun _ _ h => h.1) S2.allowed S2.plain S2.clean S2.honest S2.solve S2.ps _).1 f2
  rw [solve_reports S3.solve]
  exact complete ⟨_, (c30_feasible_set S3.hist (fun _ _ h => h.1) S3.allowed S3.plain S3.clean S3.honest S3.solve S3.ps _).2
    (admissible_mix h0 h1 S1.hist.good S2.hist.good S3.hist.good S1.ps S2.ps S3.ps R1 R2 hx F1 F2)⟩

/-- **C84** (cost): the plan returned for a state between two others costs at most the average of the plans returned for
those, with nonnegative weights, when its solver returns a minimiser and its costs are fresh (C32). -/
theorem c84_cost_between (h0 : 0 ≤ a) (h1 : a ≤ 1) (S1 : PlainSolve d dmax w1 g1 p1 e1 w1' true q1)
    (S2 : PlainSolve d dmax w2 g2 p2 e2 w2' true q2) (S3 : PlainSolve d dmax w3 g3 p3 e3 w3' true q3)
    (R1 : AlikeButStart w1 p1 w3 p3) (R2 : AlikeButStart w2 p2 w3 p3)
    (hx : ∀ r < d.n, (w3.pss p3).x0.e r = mix a (w1.pss p1).x0.e (w2.pss p2).x0.e r)
    (f1 : Feasible q1 (e1.answer q1).2.e) (f2 : Feasible q2 (e2.answer q2).2.e) (f3 : IsOptimal q3 (e3.answer q3).2.e)
    (fr : CostsFresh d w3 g3) :
    totalCost d w3 p3 w3'.ctl.control.e ≤ a * totalCost d w1 p1 w1'.ctl.control.e + (1 - a) * totalCost d w2 p2 w2'.ctl.control.e := by
  have F1 := (c30_feasible_set S1.hist (fun _ _ h => h.1) S1.allowed S1.plain S1.clean S1.honest S1.solve S1.ps _).1 f1
  have F2 := (c30_feasible_set S2.hist (fun _ _ h => h.1) S2.allowed S2.plain S2.clean S2.honest S2.solve S2.ps _).1 f2
  obtain ⟨κ, O⟩ := c32_objective S3.hist S3.allowed S3.plain fr S3.solve S3.ps
  have le := f3.2 _ ((c30_feasible_set S3.hist (fun _ _ h => h.1) S3.allowed S3.plain S3.clean S3.honest S3.solve S3.ps _).2
    (admissible_mix h0 h1 S1.hist.good S2.hist.good S3.hist.good S1.ps S2.ps S3.ps R1 R2 hx F1 F2))
  rw [O, O] at le
  rw [c40_control_is_answer S1.plain S1.solve, c40_control_is_answer S2.plain S2.solve, c40_control_is_answer S3.plain S3.solve]
  have := totalCost_mix (d := d) h0 h1 R1 R2 hx (registered_nonneg S3.hist fun _ _ h => h.2) (e1.answer q1).2.e (e2.answer q2).2.e
  linarith

end World
end
end Copra
