import Verif.Proofs.Now

/-! # C102: prediction matrices supplied by the user -/

namespace Copra
open Spec

set_option linter.unusedSectionVars false
variable {K : Type} [Field K] [LinearOrder K] [IsStrictOrderedRing K]

namespace World
variable {d : Dims} {dmax : K} {E : World K → Op K → Prop} {w w' : World K} {g : Ghost}
  {env : SolveEnv K} {b : Bool} {q : QP K} {p : Nat}

/-- **C102** (no undefined behaviour): a solve at any point of such a program returns, whatever the supplied entries. -/
theorem c102_defined (h : SHist d dmax E w g) (ho : OpOk d w g (.solve env)) :
    ∃ w' b q, w.solve env = some (w', b, q) ∧ q.nrVar = numVars d w.ctl :=
  now_defined h.raw ho

theorem c102_solved (h : SHist d dmax E w g) (ho : OpOk d w g (.solve env))
    (hs : w.solve env = some (w', b, q)) (hp : w.ctl.ps = some p) : SolvedRaw d p env w w' b q :=
  now_solved h.raw ho hs hp

/-- **C102** (matrices): a solve leaves supplied matrices alone, and leaves every system it uses with the matrices of
the prediction it used. -/
theorem c102_matrices (h : SHist d dmax E w g) (ho : OpOk d w g (.solve env))
    (hs : w.solve env = some (w', b, q)) (hp : w.ctl.ps = some p) :
    ((w.pss p).isUpdated = true → w'.pss p = w.pss p) ∧ (w'.pss p).isUpdated = true ∧
    (∀ j, j ≠ p → w'.pss j = w.pss j) ∧
    ∀ x U, ∀ k ≤ d.N, ∀ r < d.n,
      predicted d (w'.pss p).Phi (w'.pss p).Psi (w'.pss p).xi x U k r = predNow d (w.pss p) x U k r :=
  now_matrices h.raw ho hs hp

/-- **C102** (constraints): the problem of a solve admits exactly the controls under which the prediction in force
satisfies every registered constraint. -/
theorem c102_feasible (h : SHist d dmax E w g) (hE : ∀ w op, E w op → NoBoundSpan w op)
    (ho : OpOk d w g (.solve env)) (hi : w.ctl.isInit = false) (hb : w.ctl.spBoundConstr = [] → g.clean)
    (hh : ∀ i ∈ w.ctl.spConstr, (w.cons i).userData.Honest)
    (hs : w.solve env = some (w', b, q)) (hp : w.ctl.ps = some p) (hm : MixedSuits d w p) (U : Nat → K) :
    Feasible q U ↔
      (∀ i ∈ w.ctl.spConstr, (w.cons i).userData.Holds d (trajNow d w p U) U) ∧
      (w.ctl.spBoundConstr = [] → ∀ j < d.m * d.N, -dmax ≤ U j ∧ U j ≤ dmax) :=
  now_feasible h.raw (h.lines hE) ho hi hb hh hs hp hm U

/-- **C102** (costs): its objective is the total declared cost of the predicted trajectory, up to a constant. -/
theorem c102_objective (h : SHist d dmax E w g)
    (ho : OpOk d w g (.solve env)) (hi : w.ctl.isInit = false) (hf : CostsFresh d w g)
    (hs : w.solve env = some (w', b, q)) (hp : w.ctl.ps = some p) :
    ∃ k : K, ∀ U : Nat → K, objective q U = totalCostNow d w p U + k :=
  now_objective h.raw ho hi hf hs hp

/-- **C102** (results): after a successful solve `control()` is the answer of the solver and `trajectory()` the
prediction in force under it. -/
theorem c102_trajectory (h : SHist d dmax E w g) (ho : OpOk d w g (.solve env)) (hi : w.ctl.isInit = false)
    (hs : w.solve env = some (w', true, q)) (hp : w.ctl.ps = some p) :
    w'.ctl.control.rows = d.m * d.N ∧ (∀ j < d.m * d.N, w'.ctl.control.e j = (env.answer q).2.e j) ∧
    IsStacked d (trajNow d w p w'.ctl.control.e) w'.ctl.trajectory :=
  now_trajectory h.raw ho hi hs hp

/-- **C102** (optimum): if the solver returns a minimiser, `control()` satisfies every registered constraint under the
prediction in force, at the least total cost under that prediction. -/
theorem c102_optimum (h : SHist d dmax E w g) (hE : ∀ w op, E w op → NoBoundSpan w op)
    (ho : OpOk d w g (.solve env)) (hi : w.ctl.isInit = false) (hb : w.ctl.spBoundConstr = [] → g.clean)
    (hh : ∀ i ∈ w.ctl.spConstr, (w.cons i).userData.Honest) (hf : CostsFresh d w g)
    (hs : w.solve env = some (w', true, q)) (hp : w.ctl.ps = some p) (hm : MixedSuits d w p)
    (hopt : IsOptimal q (env.answer q).2.e) :
    (∀ i ∈ w.ctl.spConstr, (w.cons i).userData.Holds d (trajNow d w p w'.ctl.control.e) w'.ctl.control.e) ∧
    ∀ V : Nat → K, (∀ i ∈ w.ctl.spConstr, (w.cons i).userData.Holds d (trajNow d w p V) V) →
      (∀ j < d.m * d.N, -dmax ≤ V j ∧ V j ≤ dmax) →
      totalCostNow d w p w'.ctl.control.e ≤ totalCostNow d w p V :=
  now_optimum h.raw (h.lines hE) ho hi hb hh hf hs hp hm hopt

/-! ## Time-varying systems -/

theorem sum_swap {a b : Nat} (f : Nat → K) (g : Nat → Nat → K) (z : Nat → K) :
    ∑ c ∈ Finset.range a, (∑ t ∈ Finset.range b, f t * g t c) * z c =
      ∑ t ∈ Finset.range b, f t * ∑ c ∈ Finset.range a, g t c * z c := by
  simp only [Finset.sum_mul, Finset.mul_sum]
  rw [Finset.sum_comm]
  apply Finset.sum_congr rfl; intro t _
  apply Finset.sum_congr rfl; intro c _
  ring

/-- **C102** (time-varying systems): the matrices of the recursion `Varying` predict exactly the simulation of
`x_{k+1} = A_k x_k + B_k u_k + v_k`, from every initial state and under every control sequence. -/
theorem c102_varying {A B : Nat → Mat K} {v : Nat → Vec K} {Phi Psi : Mat K} {xi : Vec K}
    (V : Varying d A B v Phi Psi xi) (x U : Nat → K) :
    ∀ k ≤ d.N, ∀ r < d.n, predicted d Phi Psi xi x U k r = simVarying d A B v x U k r := by
  intro k
  induction k with
  | zero =>
    intro _ r hr
    unfold predicted simVarying
    rw [sum_blk']
    simp only [Nat.zero_mul, Nat.zero_add]
    rw [V.xi0 r hr, add_zero]
    have e1 : ∑ c ∈ Finset.range d.n, Phi.e r c * x c = x r := by
      rw [Finset.sum_eq_single r]
      · rw [V.phi0 r hr r hr, if_pos rfl, one_mul]
      · intro c hc hne
        rw [V.phi0 r hr c (Finset.mem_range.1 hc), if_neg (Ne.symm hne), zero_mul]
      · intro h; exact absurd (Finset.mem_range.2 hr) h
    have e2 : ∑ j ∈ Finset.range d.N, ∑ c ∈ Finset.range d.m, Psi.e r (j * d.m + c) * U (j * d.m + c) = 0 := by
      apply Finset.sum_eq_zero; intro j hj
      apply Finset.sum_eq_zero; intro c hc
      rw [V.psi0 r hr j (Finset.mem_range.1 hj) c (Finset.mem_range.1 hc), zero_mul]
    rw [e1, e2, add_zero]
  | succ k ih =>
    intro hk r hr
    have hk' : k < d.N := by omega
    unfold simVarying
    have e0 : ∑ t ∈ Finset.range d.n, (A k).e r t * simVarying d A B v x U k t =
        ∑ t ∈ Finset.range d.n, (A k).e r t * predicted d Phi Psi xi x U k t := by
      apply Finset.sum_congr rfl; intro t ht
      rw [ih (by omega) t (Finset.mem_range.1 ht)]
    rw [e0]
    unfold predicted
    have e1 : ∑ c ∈ Finset.range d.n, Phi.e ((k + 1) * d.n + r) c * x c =
        ∑ t ∈ Finset.range d.n, (A k).e r t * ∑ c ∈ Finset.range d.n, Phi.e (k * d.n + t) c * x c := by
      rw [← sum_swap]
      apply Finset.sum_congr rfl; intro c hc
      rw [V.phi k hk' r hr c (Finset.mem_range.1 hc)]
    have e2 : ∑ j ∈ Finset.range (d.m * d.N), Psi.e ((k + 1) * d.n + r) j * U j =
        (∑ t ∈ Finset.range d.n, (A k).e r t * ∑ j ∈ Finset.range (d.m * d.N), Psi.e (k * d.n + t) j * U j) +
          ∑ c ∈ Finset.range d.m, (B k).e r c * ctrl d U k c := by
      rw [← sum_swap, sum_blk', sum_blk']
      have : ∑ c ∈ Finset.range d.m, (B k).e r c * ctrl d U k c =
          ∑ j ∈ Finset.range d.N, ∑ c ∈ Finset.range d.m, (if j = k then (B k).e r c else 0) * U (j * d.m + c) := by
        symm
        rw [Finset.sum_eq_single k]
        · simp only [if_true]; rfl
        · intro j _ hj
          apply Finset.sum_eq_zero; intro c _
          rw [if_neg hj, zero_mul]
        · intro h; exact absurd (Finset.mem_range.2 hk') h
      rw [this, ← Finset.sum_add_distrib]
      apply Finset.sum_congr rfl; intro j hj
      rw [← Finset.sum_add_distrib]
      apply Finset.sum_congr rfl; intro c hc
      rw [V.psi k hk' j (Finset.mem_range.1 hj) r hr c (Finset.mem_range.1 hc), add_mul]
    rw [e1, e2, V.xi k hk' r hr]
    simp only [mul_add, Finset.sum_add_distrib]
    ring

/-- Matrices of the recursion are causal. -/
theorem varying_causal {A B : Nat → Mat K} {v : Nat → Vec K} {Phi Psi : Mat K} {xi : Vec K}
    (V : Varying d A B v Phi Psi xi) :
    ∀ k ≤ d.N, ∀ j < d.N, k ≤ j → ∀ r < d.n, ∀ c < d.m, Psi.e (k * d.n + r) (j * d.m + c) = 0 := by
  intro k
  induction k with
  | zero =>
    intro _ j hj _ r hr c hc
    rw [Nat.zero_mul, Nat.zero_add]
    exact V.psi0 r hr j hj c hc
  | succ k ih =>
    intro hk j hj hkj r hr c hc
    rw [V.psi k (by omega) j hj r hr c hc, if_neg (by omega), add_zero]
    apply Finset.sum_eq_zero; intro t ht
    rw [ih (by omega) j hj (by omega) t (Finset.mem_range.1 ht) c hc, mul_zero]

/-- **C102** (time-varying systems): matrices of the recursion, of the right sizes, may be assigned. -/
theorem c102_varying_fits {A B : Nat → Mat K} {v : Nat → Vec K} {Phi Psi : Mat K} {xi : Vec K}
    (V : Varying d A B v Phi Psi xi) (h1 : Phi.rows = d.n * (d.N + 1) ∧ Phi.cols = d.n)
    (h2 : Psi.rows = d.n * (d.N + 1) ∧ Psi.cols = d.m * d.N) (h3 : xi.rows = d.n * (d.N + 1)) :
    PhiFits d Phi ∧ PsiFits d Psi ∧ XiFits d xi :=
  ⟨⟨h1.1, h1.2, V.phi0⟩, ⟨h2.1, h2.2, varying_causal V⟩, ⟨h3, V.xi0⟩⟩

/-- **C102** (time-varying systems): a program that assigns such matrices and sets `isUpdated` controls the time-varying
system: `trajectory()` is its simulation under `control()`. -/
theorem c102_varying_trajectory (h : SHist d dmax E w g) (ho : OpOk d w g (.solve env)) (hi : w.ctl.isInit = false)
    (hs : w.solve env = some (w', true, q)) (hp : w.ctl.ps = some p) {A B : Nat → Mat K} {v : Nat → Vec K}
    (hu : (w.pss p).isUpdated = true) (V : Varying d A B v (w.pss p).Phi (w.pss p).Psi (w.pss p).xi) :
    IsStacked d (simVarying d A B v (w.pss p).x0.e w'.ctl.control.e) w'.ctl.trajectory := by
  obtain ⟨_, _, a3, a4⟩ := c102_trajectory h ho hi hs hp
  refine ⟨a3, fun k r hk hr => ?_⟩
  rw [a4 k r hk hr, ← c102_varying V _ _ k hk r hr]
  unfold trajNow predNow
  rw [if_pos hu]

/-- **C102** (time-varying systems): and if the solver returns a minimiser, `control()` steers the time-varying system
through every registered constraint at the least total cost. -/
theorem c102_varying_optimum (h : SHist d dmax E w g) (hE : ∀ w op, E w op → NoBoundSpan w op)
    (ho : OpOk d w g (.solve env)) (hi : w.ctl.isInit = false) (hb : w.ctl.spBoundConstr = [] → g.clean)
    (hh : ∀ i ∈ w.ctl.spConstr, (w.cons i).userData.Honest) (hf : CostsFresh d w g)
    (hs : w.solve env = some (w', true, q)) (hp : w.ctl.ps = some p) (hm : MixedSuits d w p)
    (hopt : IsOptimal q (env.answer q).2.e) {A B : Nat → Mat K} {v : Nat → Vec K}
    (hu : (w.pss p).isUpdated = true) (V : Varying d A B v (w.pss p).Phi (w.pss p).Psi (w.pss p).xi) :
    (∀ i ∈ w.ctl.spConstr, (w.cons i).userData.Holds d
      (simVarying d A B v (w.pss p).x0.e w'.ctl.control.e) w'.ctl.control.e) ∧
    ∀ U : Nat → K, (∀ i ∈ w.ctl.spConstr, (w.cons i).userData.Holds d (simVarying d A B v (w.pss p).x0.e U) U) →
      (∀ j < d.m * d.N, -dmax ≤ U j ∧ U j ≤ dmax) →
      totalCostVarying d A B v w p w'.ctl.control.e ≤ totalCostVarying d A B v w p U := by
  have T : ∀ U, ∀ k ≤ d.N, ∀ r < d.n, trajNow d w p U k r = simVarying d A B v (w.pss p).x0.e U k r := by
    intro U k hk r hr
    rw [← c102_varying V _ _ k hk r hr]
    unfold trajNow predNow
    rw [if_pos hu]
  have H : ∀ U, ∀ D : ConstrData K, D.Holds d (trajNow d w p U) U ↔ D.Holds d (simVarying d A B v (w.pss p).x0.e U) U :=
    fun U D => holds_congr_traj (T U) D
  have C : ∀ U, totalCostNow d w p U = totalCostVarying d A B v w p U := by
    intro U
    unfold totalCostNow totalCostVarying
    simp only [value_congr_traj (T U)]
  have key := c102_optimum h hE ho hi hb hh hf hs hp hm hopt
  simp only [H, C] at key
  exact key

end World
end Copra
