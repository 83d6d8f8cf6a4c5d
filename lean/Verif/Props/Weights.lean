import Verif.Props.WorldExamples

/-! # C69: the weights of a cost in the next problem -/

namespace Copra

namespace Spec
variable {K : Type}

/-- The same cost with other weights. -/
def reweighted (v : Nat → K) : CostData K → CostData K
  | .trajectory M p w => .trajectory M p ⟨w.rows, v⟩
  | .target M p w => .target M p ⟨w.rows, v⟩
  | .control N p w => .control N p ⟨w.rows, v⟩
  | .mixed M N p w => .mixed M N p ⟨w.rows, v⟩

variable [Field K]

/-- Half the declared costs of the simulation from the current initial state, with cost `i` replaced by `C`, plus the
regularisation. -/
def costWith (d : Dims) (w : World K) (p i : Nat) (C : (Nat → Nat → K) → (Nat → K) → K) (U : Nat → K) : K :=
  1 / 2 * (w.ctl.spCost.map fun j => if j = i then C (traj d w p U) U else (w.costs j).userData.value d (traj d w p U) U).sum
    + 1 / 2 * (1 / 1000000) * ∑ j ∈ Finset.range (d.m * d.N), U j ^ 2

end Spec
open Spec

set_option linter.unusedSectionVars false
set_option maxRecDepth 100000

section
variable {K : Type} [Field K] [LinearOrder K] [IsStrictOrderedRing K]

theorem wsq_const (n : Nat) (p : Vec K) (y : Nat → K) (a : K) (s t : Nat) :
    wsq n ⟨s, fun _ => a⟩ p y = a * wsq n ⟨t, fun _ => 1⟩ p y := by
  unfold wsq
  rw [Finset.mul_sum]
  exact Finset.sum_congr rfl fun r _ => by ring

/-- A uniform weight multiplies the declared value. -/
theorem value_uniform (d : Dims) (X : Nat → Nat → K) (U : Nat → K) (D : CostData K) (a : K) :
    (reweighted (fun _ => a) D).value d X U = a * (reweighted (fun _ => 1) D).value d X U := by
  cases D <;> simp only [reweighted, CostData.value]
  · split
    · rw [Finset.mul_sum]; exact Finset.sum_congr rfl fun k _ => wsq_const ..
    · exact wsq_const ..
  · exact wsq_const ..
  · split
    · rw [Finset.mul_sum]; exact Finset.sum_congr rfl fun k _ => wsq_const ..
    · exact wsq_const ..
  · split
    · rw [Finset.mul_sum]; exact Finset.sum_congr rfl fun k _ => wsq_const ..
    · exact wsq_const ..

theorem userData_weights (c : Cost K) (u : Vec K) (h : u.rows = c.weights.rows) :
    ({ c with weights := u } : Cost K).userData = reweighted u.e c.userData := by
  unfold Cost.userData
  cases c.kind <;> simp only [reweighted, ← h]

/-- The value only reads as many weights as the target has entries. -/
theorem value_congr (d : Dims) (X : Nat → Nat → K) (U : Nat → K) (c : Cost K) (hf : Cost.Fits d c) {v v' : Nat → K}
    (h : ∀ r < c.p.rows, v r = v' r) : (reweighted v c.userData).value d X U = (reweighted v' c.userData).value d X U := by
  have W : ∀ (n : Nat) (p : Vec K) (y : Nat → K) (s : Nat), n = c.p.rows → wsq n ⟨s, v⟩ p y = wsq n ⟨s, v'⟩ p y := by
    intro n p y s hn
    unfold wsq
    exact Finset.sum_congr rfl fun r hr => by
      show v r * _ = v' r * _
      rw [h r (by rw [← hn]; exact Finset.mem_range.1 hr)]
  unfold Cost.Fits at hf
  unfold Cost.userData
  cases hk : c.kind <;> rw [hk] at hf <;> simp only at hf ⊢ <;> simp only [reweighted, CostData.value]
  · simp only [W _ _ _ _ hf.1]
  · simp only [W _ _ _ _ hf.1]
  · simp only [W _ _ _ _ hf.1]
  · simp only [W _ _ _ _ hf.1]

theorem Cost.Pre.fits {d : Dims} {c : Cost K} (h : Cost.Pre d c) : Cost.Fits d c := by
  have D := h.data
  unfold Cost.DataOk at D
  unfold Cost.Fits
  cases hk : c.kind <;> rw [hk] at D <;> simp only at D ⊢
  · refine ⟨D.1, ?_⟩
    have := D.2; split at this
    · exact Or.inr this.2
    · exact Or.inl this
  · exact D
  · refine ⟨D.1, ?_⟩
    have := D.2; split at this
    · exact Or.inr this.2
    · exact Or.inl this
  · refine ⟨D.1, D.2.1, ?_⟩
    have := D.2.2; split at this
    · exact Or.inr this.2
    · exact Or.inl this

namespace World

theorem traj_costs {d : Dims} {w : World K} {p : Nat} {f : Nat → Cost K} (U : Nat → K) :
    Spec.traj d { w with costs := f } p U = Spec.traj d w p U := rfl

theorem total_upd {d : Dims} {w : World K} {p i : Nat} {c : Cost K} {C : (Nat → Nat → K) → (Nat → K) → K} (U : Nat → K)
    (h : c.userData.value d (Spec.traj d w p U) U = C (Spec.traj d w p U) U) :
    totalCost d { w with costs := upd w.costs i c } p U = costWith d w p i C U := by
  unfold totalCost costWith
  congr 2
  congr 1
  apply List.map_congr_left
  intro j _
  rw [traj_costs]
  by_cases e : j = i
  · subst e; rw [if_pos rfl]; simp only [upd_same]; exact h
  · rw [if_neg e]; simp only [upd_ne _ _ e]

theorem fresh_upd {d : Dims} {w : World K} {g : Ghost} {i : Nat} {c : Cost K} (hf : CostsFresh d w g)
    (h : c.userData.PerStepState d → (w.costs i).userData.PerStepState d) :
    CostsFresh d { w with costs := upd w.costs i c } g := by
  intro j hj hp
  by_cases e : j = i
  · subst e; simp only [upd_same] at hp; exact hf j hj (h hp)
  · simp only [upd_ne _ _ e] at hp; exact hf j hj hp

theorem perStep_reweighted {d : Dims} (v : Nat → K) (D : CostData K) :
    (reweighted v D).PerStepState d → D.PerStepState d := by
  cases D <;> exact id

/-- **C69** (`weight`): after `weight(a)` on a cost, the next problem counts that cost as `a` times its value with unit
weights, and every other cost as before. -/
theorem c69_weight {d : Dims} {dmax : K} {E : World K → Op K → Prop} {w w1 w' : World K} {g : Ghost} {env : SolveEnv K}
    {b : Bool} {q : QP K} {p i : Nat} {a : K} (h : Hist d dmax E w g) (hE : E w (.weight i a))
    (h1 : w.step dmax (.weight i a) = .ok w1) (ho : OpOk d w1 g (.solve env)) (hi : w.ctl.isInit = false)
    (hf : CostsFresh d w g) (hs : w1.solve env = some (w', b, q)) (hp : w.ctl.ps = some p) :
    ∃ k : K, ∀ U : Nat → K, objective q U =
      costWith d w p i (fun X U => a * (reweighted (fun _ => 1) (w.costs i).userData).value d X U) U + k := by
  have e : w1 = { w with costs := upd w.costs i ((w.costs i).setWeight a) } := by
    simp only [step] at h1; injection h1 with h1; exact h1.symm
  have h' : Hist d dmax E w1 g := Hist.ok (op := .weight i a) h trivial hE h1
  subst e
  have ud : ((w.costs i).setWeight a).userData = reweighted (fun _ => a) (w.costs i).userData :=
    userData_weights _ (Vec.const (w.costs i).weights.rows a) rfl
  obtain ⟨k, hk⟩ := c32_objective h' ho hi (fresh_upd hf (by rw [ud]; exact perStep_reweighted _ _)) hs hp
  refine ⟨k, fun U => ?_⟩
  rw [hk, total_upd U]
  show _ = a * _
  rw [ud, value_uniform]

/-- **C69** (`weights`): after an accepted `weights(v)`, the next problem weighs row `r` of the cost by
`v(r mod v.rows())`, and counts every other cost as before. -/
theorem c69_weights {d : Dims} {dmax : K} {E : World K → Op K → Prop} {w w1 w' : World K} {g : Ghost} {env : SolveEnv K}
    {b : Bool} {q : QP K} {p i : Nat} {v : Vec K} (h : Hist d dmax E w g) (hE : E w (.weights i v)) (hv : 0 < v.rows)
    (hm : i ∈ w.ctl.spCost)
    (h1 : w.step dmax (.weights i v) = .ok w1) (ho : OpOk d w1 g (.solve env)) (hi : w.ctl.isInit = false)
    (hf : CostsFresh d w g) (hs : w1.solve env = some (w', b, q)) (hp : w.ctl.ps = some p) :
    ∃ k : K, ∀ U : Nat → K, objective q U =
      costWith d w p i (fun X U => (reweighted (fun r => v.e (r % v.rows)) (w.costs i).userData).value d X U) U + k := by
  have hr := h.good.costReg i (h.good.subK i hm)
  have hw := hr.wr
  have hfit := hr.fits
  have hd : v.rows ∣ (w.costs i).weights.rows := by
    by_contra hn
    have := (Cost.c28_weights (w.costs i) v).2.1 hv hn
    simp only [step] at h1
    rw [this] at h1
    cases h1
  obtain ⟨s, hs'⟩ := hd
  rw [mul_comm] at hs'
  obtain ⟨c', e1, r1, t1, e2⟩ := (Cost.c28_weights (w.costs i) v).1 s hv hs'
  have e : w1 = { w with costs := upd w.costs i c' } := by
    simp only [step] at h1; rw [e1] at h1; injection h1 with h1; exact h1.symm
  have h' : Hist d dmax E w1 g := Hist.ok (op := .weights i v) h trivial hE h1
  subst e
  have ud : c'.userData = reweighted c'.weights.e (w.costs i).userData := by
    rw [e2]; exact userData_weights _ _ r1
  obtain ⟨k, hk⟩ := c32_objective h' ho hi (fresh_upd hf (by rw [ud]; exact perStep_reweighted _ _)) hs hp
  refine ⟨k, fun U => ?_⟩
  rw [hk, total_upd U]
  show _ = CostData.value d _ U _
  rw [ud]
  refine value_congr d _ U _ hfit fun r hr => ?_
  rw [← hw, hs'] at hr
  have := t1 (r / v.rows) (Nat.div_lt_of_lt_mul (by rw [mul_comm]; exact hr)) (r % v.rows) (Nat.mod_lt _ hv)
  rwa [Nat.div_add_mod'] at this

theorem sum_erase {L : List Nat} {i : Nat} (F : Nat → K) (h : L.count i ≤ 1) :
    (L.map fun j => if j = i then 0 else F j).sum = ((L.erase i).map F).sum := by
  induction L with
  | nil => rfl
  | cons a L ih =>
    by_cases e : a = i
    · subst e
      rw [List.count_cons_self] at h
      have h0 : a ∉ L := List.count_eq_zero.1 (by omega)
      rw [List.erase_cons_head, List.map_cons, List.sum_cons, if_pos rfl, zero_add]
      congr 1
      exact List.map_congr_left fun j hj => if_neg (by rintro rfl; exact h0 hj)
    · rw [List.erase_cons_tail (by simp [e]), List.map_cons, List.map_cons, List.sum_cons, List.sum_cons, if_neg e]
      rw [List.count_cons_of_ne e] at h
      rw [ih h]

/-- **C69**: a zero weight switches the cost off: the next problem has the same objective as after `removeCost`. -/
theorem c69_zero_weight {d : Dims} {dmax : K} {E : World K → Op K → Prop} {w w1 w2 w1' w2' : World K} {g : Ghost}
    {env1 env2 : SolveEnv K} {b1 b2 : Bool} {q1 q2 : QP K} {p i : Nat} (h : Hist d dmax E w g) (hE1 : E w (.weight i 0))
    (hE2 : E w (.removeCost i)) (h1 : w.step dmax (.weight i 0) = .ok w1) (h2 : w.step dmax (.removeCost i) = .ok w2)
    (o1 : OpOk d w1 g (.solve env1)) (o2 : OpOk d w2 g (.solve env2)) (hi : w.ctl.isInit = false)
    (hc : w.ctl.spCost.count i ≤ 1) (hf : CostsFresh d w g) (hp : w.ctl.ps = some p)
    (s1 : w1.solve env1 = some (w1', b1, q1)) (s2 : w2.solve env2 = some (w2', b2, q2)) :
    ∃ k : K, ∀ U : Nat → K, objective q1 U = objective q2 U + k := by
  obtain ⟨k1, a1⟩ := c69_weight h hE1 h1 o1 hi hf s1 hp
  have e : w2 = { w with ctl := w.ctl.removeCost i } := by
    simp only [step] at h2; injection h2 with h2; exact h2.symm
  have h' : Hist d dmax E w2 g := Hist.ok (op := .removeCost i) h trivial hE2 h2
  subst e
  obtain ⟨k2, a2⟩ := c32_objective h' o2 hi (by
    intro j hj hps
    have hm : j ∈ w.ctl.spCost := List.mem_of_mem_erase hj
    obtain ⟨f, c⟩ := hf j hm hps
    refine ⟨f, le_antisymm ?_ (List.count_pos_iff.2 hj)⟩
    exact le_trans ((List.erase_sublist ..).count_le _) (le_of_eq c)) s2 hp
  refine ⟨k1 - k2, fun U => ?_⟩
  rw [a1, a2]
  unfold costWith totalCost
  simp only [zero_mul]
  rw [sum_erase _ hc]
  show _ = _ + 1 / 2 * (1 / 1000000) * _ + k2 + (k1 - k2)
  have : Spec.traj d { w with ctl := w.ctl.removeCost i } p U = Spec.traj d w p U := rfl
  rw [this]
  show 1 / 2 * _ + _ + k1 = 1 / 2 * ((w.ctl.spCost.erase i).map _).sum + _ + k2 + (k1 - k2)
  ring

end World
end

namespace Ex
open World

def wa13 := after 1000 w12 (.weight 1 5)
def wb13 := after 1000 w12 (.weights 0 (vec [5, 7]))
def wz13 := after 1000 w12 (.weight 1 0)
def wr13 := after 1000 w12 (.removeCost 1)

/-- C69 applies to `weight(5)`. -/
example : ∃ r, wa13.solve opt = some r ∧ ∃ k : ℚ, ∀ U : Nat → ℚ, objective r.2.2 U =
    costWith d w12 0 1 (fun X U => 5 * (reweighted (fun _ => 1) (w12.costs 1).userData).value d X U) U + k := by
  have st := okB_step (by decide +kernel : okB 1000 w12 (.weight 1 5) = true)
  have H := Hist.ok (op := .weight 1 5) h12 trivial ⟨trivial, (by norm_num : (0 : ℚ) ≤ 5), trivial⟩ st
  have o : OpOk d wa13 g12 (.solve opt) := solvable (w := wa13) (by decide +kernel) (by decide +kernel) (by decide +kernel) _
  obtain ⟨v, b, q, s, _⟩ := c50_solve_defined H o
  exact ⟨_, s, c69_weight h12 ⟨trivial, (by norm_num : (0 : ℚ) ≤ 5), trivial⟩ st o plain12 fresh12 s ps12⟩

/-- C69 applies to `weights((5, 7))`. -/
example : ∃ r, wb13.solve opt = some r ∧ ∃ k : ℚ, ∀ U : Nat → ℚ, objective r.2.2 U =
    costWith d w12 0 0 (fun X U => (reweighted (fun r => (vec [5, 7]).e (r % 2)) (w12.costs 0).userData).value d X U) U + k := by
  have st := okB_step (by decide +kernel : okB 1000 w12 (.weights 0 (vec [5, 7])) = true)
  have hE : Careful w12 (.weights 0 (vec [5, 7])) := ⟨trivial, (by decide +kernel : ∀ j < (vec [5, 7]).rows, (0 : ℚ) ≤ (vec [5, 7]).e j), trivial⟩
  have H := Hist.ok (op := .weights 0 (vec [5, 7])) h12 trivial hE st
  have o : OpOk d wb13 g12 (.solve opt) := solvable (w := wb13) (by decide +kernel) (by decide +kernel) (by decide +kernel) _
  obtain ⟨v, b, q, s, _⟩ := c50_solve_defined H o
  exact ⟨_, s, c69_weights h12 hE (by decide) (by rw [costs12]; decide) st o plain12 fresh12 s ps12⟩

/-- C69 applies to `weight(0)` and `removeCost`. -/
example : ∃ r r', wz13.solve opt = some r ∧ wr13.solve opt = some r' ∧ ∃ k : ℚ, ∀ U : Nat → ℚ,
    objective r.2.2 U = objective r'.2.2 U + k := by
  have st := okB_step (by decide +kernel : okB 1000 w12 (.weight 1 0) = true)
  have st' := okB_step (by decide +kernel : okB 1000 w12 (.removeCost 1) = true)
  have hE : Careful w12 (.weight 1 0) := ⟨trivial, le_refl (0 : ℚ), trivial⟩
  have H := Hist.ok (op := .weight 1 0) h12 trivial hE st
  have H' := Hist.ok (op := .removeCost 1) h12 trivial ⟨trivial, trivial, trivial⟩ st'
  have o : OpOk d wz13 g12 (.solve opt) := solvable (w := wz13) (by decide +kernel) (by decide +kernel) (by decide +kernel) _
  have o' : OpOk d wr13 g12 (.solve opt) := solvable (w := wr13) (by decide +kernel) (by decide +kernel) (by decide +kernel) _
  obtain ⟨v, b, q, s, _⟩ := c50_solve_defined H o
  obtain ⟨v', b', q', s', _⟩ := c50_solve_defined H' o'
  exact ⟨_, _, s, s', c69_zero_weight h12 hE ⟨trivial, trivial, trivial⟩ st st' o o' plain12 (by rw [costs12]; decide) fresh12 ps12 s s'⟩

end Ex
end Copra
