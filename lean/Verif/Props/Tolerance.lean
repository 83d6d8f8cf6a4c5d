import Verif.Proofs.Tolerance
import Verif.Props.AnswerExamples

/-! # C71: back ends that are only accurate up to a tolerance -/

namespace Copra
open Spec

set_option linter.unusedSectionVars false
set_option maxRecDepth 100000

section
variable {K : Type} [Field K] [LinearOrder K] [IsStrictOrderedRing K]

namespace World

/-- A regularised sum of positive semidefinite matrices is strongly convex. -/
theorem quad_ge {n : Nat} {Q : Mat K} {L : List Nat} {F : Nat → Mat K} {r : K}
    (hQ : ∀ a < n, ∀ b < n, Q.e a b = (if a = b then r else 0) + (L.map fun i => (F i).e a b).sum)
    (h : ∀ i ∈ L, PSD n (F i)) (x : Nat → K) :
    r * ∑ j ∈ Finset.range n, x j ^ 2 ≤ ∑ i ∈ Finset.range n, ∑ j ∈ Finset.range n, x i * Q.e i j * x j := by
  have q := quadValue_sum (c := Vec.zero n) (G := fun _ => Vec.zero n) hQ (by
    intro a _; simp [Vec.zero]) x
  have z : ∀ M : Mat K, quadValue n M (Vec.zero n) x =
      1 / 2 * ∑ i ∈ Finset.range n, ∑ j ∈ Finset.range n, x i * M.e i j * x j := by
    intro M
    unfold quadValue
    rw [Finset.sum_eq_zero (s := Finset.range n) (f := fun i => (Vec.zero n : Vec K).e i * x i)]
    · rw [add_zero]
    · intro i _; simp [Vec.zero]
  simp only [z] at q
  rw [← list_sum_mul] at q
  have h1 := psd_list h x
  nlinarith

variable {d : Dims} {dmax : K} {E : World K → Op K → Prop} {w w' : World K} {g : Ghost} {env : SolveEnv K}

/-- **C71** (residuals): a control vector violates the rows and bounds of the problem handed to the solver by at most `δ`
exactly when it and the trajectory simulated with it violate every declared constraint by at most `δ`. -/
theorem c71_residuals {b : Bool} {q : QP K} {p : Nat} (h : Hist d dmax E w g) (hE : ∀ w op, E w op → NoBoundSpan w op)
    (ho : OpOk d w g (.solve env)) (hi : w.ctl.isInit = false) (hb : w.ctl.spBoundConstr = [] → g.clean)
    (hh : ∀ i ∈ w.ctl.spConstr, (w.cons i).userData.Honest)
    (hs : w.solve env = some (w', b, q)) (hp : w.ctl.ps = some p) (δ : K) (U : Nat → K) :
    FeasibleWithin δ q U ↔
      (∀ i ∈ w.ctl.spConstr, (w.cons i).userData.HoldsWithin d δ (Spec.traj d w p U) U) ∧
      (w.ctl.spBoundConstr = [] → ∀ j < d.m * d.N, -dmax ≤ U j + δ ∧ U j - δ ≤ dmax) := by
  obtain ⟨p', hp', S⟩ := h.good.solved ho.2 hs
  rw [hp] at hp'
  cases hp'
  exact S.feasibleWithin h.good hp hi hb (fun i _ => h.lines hE i) hh δ U

/-- **C71**: if the solver reports success with a point that violates its problem by at most `δ` and is within `ε` of the
best feasible value, then the predicted trajectory and the controls violate every declared constraint by at most `δ` and
cost at most `ε` more than any admissible control sequence. -/
theorem c71_tolerance {q : QP K} {p : Nat} {δ ε : K} (h : Hist d dmax E w g) (hE : ∀ w op, E w op → NoBoundSpan w op)
    (ho : OpOk d w g (.solve env)) (hi : w.ctl.isInit = false) (hb : w.ctl.spBoundConstr = [] → g.clean)
    (hh : ∀ i ∈ w.ctl.spConstr, (w.cons i).userData.Honest) (hf : CostsFresh d w g)
    (hs : w.solve env = some (w', true, q)) (hp : w.ctl.ps = some p) (hn : NearOptimal δ ε q (env.answer q).2.e) :
    (∀ i ∈ w.ctl.spConstr, (w.cons i).userData.HoldsWithin d δ (Spec.traj d w p w'.ctl.control.e) w'.ctl.control.e) ∧
    ∀ V : Nat → K, (∀ i ∈ w.ctl.spConstr, (w.cons i).userData.Holds d (Spec.traj d w p V) V) →
      (∀ j < d.m * d.N, -dmax ≤ V j ∧ V j ≤ dmax) → totalCost d w p w'.ctl.control.e ≤ totalCost d w p V + ε := by
  obtain ⟨hx, hm⟩ := hn
  have F := c30_feasible_set h hE ho hi hb hh hs hp
  obtain ⟨κ, O⟩ := c32_objective h ho hi hf hs hp
  have hc := c40_control_is_answer hi hs
  rw [← hc] at hx hm
  refine ⟨((c71_residuals h hE ho hi hb hh hs hp δ _).1 hx).1, fun V hV hr => ?_⟩
  have := hm V ((F V).2 ⟨hV, fun _ => hr⟩)
  rw [O, O] at this
  linarith

/-- **C71** (distance): if moreover the answer is feasible, the controls are within `sqrt(4·10⁶ ε)` of every optimal
control sequence: the `1e-6` regularisation bounds the effect of the solver's tolerance. -/
theorem c71_distance {q : QP K} {p : Nat} {ε : K} (h : Hist d dmax E w g)
    (hE : ∀ w op, E w op → NoBoundSpan w op ∧ NonnegWeights w op)
    (ho : OpOk d w g (.solve env)) (hi : w.ctl.isInit = false) (hb : w.ctl.spBoundConstr = [] → g.clean)
    (hh : ∀ i ∈ w.ctl.spConstr, (w.cons i).userData.Honest) (hf : CostsFresh d w g)
    (hs : w.solve env = some (w', true, q)) (hp : w.ctl.ps = some p) (hn : NearOptimal 0 ε q (env.answer q).2.e)
    {V : Nat → K} (hV : ∀ i ∈ w.ctl.spConstr, (w.cons i).userData.Holds d (Spec.traj d w p V) V)
    (hr : ∀ j < d.m * d.N, -dmax ≤ V j ∧ V j ≤ dmax)
    (hopt : ∀ V' : Nat → K, (∀ i ∈ w.ctl.spConstr, (w.cons i).userData.Holds d (Spec.traj d w p V') V') →
      totalCost d w p V ≤ totalCost d w p V') :
    normSq d (fun j => w'.ctl.control.e j - V j) ≤ 4000000 * ε := by
  obtain ⟨hx, hm⟩ := hn
  rw [feasibleWithin_zero] at hx
  have hE' := fun w op a => (hE w op a).1
  have F := c30_feasible_set h hE' ho hi hb hh hs hp
  obtain ⟨κ, O⟩ := c32_objective h ho hi hf hs hp
  have hc := c40_control_is_answer hi hs
  rw [← hc] at hx hm
  have fV := (F V).2 ⟨hV, fun _ => hr⟩
  have le1 := hm V fV
  have le2 := hopt _ ((F _).1 (feasible_mid hx fV)).1
  have le3 : objective q V ≤ objective q fun j => (w'.ctl.control.e j + V j) / 2 := by rw [O, O]; linarith
  obtain ⟨p', _, S⟩ := h.good.solved ho.2 hs
  have A := S.plain hi
  have st := quad_ge (F := fun i => (w'.costs i).Q) A.Q (h.solve_psd (fun w op a => (hE w op a).2) ho hs)
    (fun j => w'.ctl.control.e j - V j)
  rw [← A.cr] at st
  have e := quadValue_mid (n := q.c.rows) (Q := q.Q) q.c w'.ctl.control.e V
  unfold objective at le1 le3
  rw [A.cr] at st e le1 le3
  unfold normSq
  linarith

end World
end

namespace Ex
open World

/-- Close to the minimiser `yA` of the problem of `m7`. -/
def yT : Vec ℚ := vec [-1000000000000 / 7000006000001 + 1 / 10000, 4000001000000 / 7000006000001]

def rT : World ℚ × Bool × QP ℚ := (m7.solve (env yT true)).getD (m7, false, q13)

theorem sT : m7.solve (env yT true) = some (rT.1, true, rT.2.2) := by
  have e : (m7.solve (env yT true)).isSome = true := by decide +kernel
  obtain ⟨r, hr⟩ := Option.isSome_iff_exists.1 e
  have h1 : rT = r := by unfold rT; rw [hr]; rfl
  have h2 : rT.2.1 = true := by decide +kernel
  rw [hr, ← h2, h1]

theorem honest7 : ∀ i ∈ m7.ctl.spConstr, (m7.cons i).userData.Honest := by
  intro i hi
  rw [(by decide +kernel : m7.ctl.spConstr = [0, 2])] at hi
  simp only [List.mem_cons, List.not_mem_nil, or_false] at hi
  rcases hi with rfl | rfl <;> exact trivial

theorem fresh7 {g1 : Ghost} (f1 : g1.fresh 0) : CostsFresh d m7 g1 := by
  intro i hi hps
  rw [(by decide +kernel : m7.ctl.spCost = [0, 1])] at hi ⊢
  simp only [List.mem_cons, List.not_mem_nil, or_false] at hi
  rcases hi with rfl | rfl
  · exact ⟨f1, rfl⟩
  · unfold Cost.userData at hps
    rw [(by decide +kernel : (m7.costs 1).kind = .control)] at hps
    exact hps.elim

/-- C71 applies with `δ = 0`, `ε = 10⁻⁶`: the answer costs at most `10⁻⁶` too much and is within `2` of every optimal control
sequence in Euclidean norm. -/
example : (∀ V : Nat → ℚ, (∀ i ∈ m7.ctl.spConstr, (m7.cons i).userData.Holds d (Spec.traj d m7 0 V) V) →
      (∀ j < 2, -1000 ≤ V j ∧ V j ≤ 1000) → totalCost d m7 0 rT.1.ctl.control.e ≤ totalCost d m7 0 V + 1 / 1000000) ∧
    ∀ V : Nat → ℚ, (∀ i ∈ m7.ctl.spConstr, (m7.cons i).userData.Holds d (Spec.traj d m7 0 V) V) →
      (∀ j < 2, -1000 ≤ V j ∧ V j ≤ 1000) →
      (∀ V' : Nat → ℚ, (∀ i ∈ m7.ctl.spConstr, (m7.cons i).userData.Holds d (Spec.traj d m7 0 V') V') →
        totalCost d m7 0 V ≤ totalCost d m7 0 V') →
      normSq d (fun j => rT.1.ctl.control.e j - V j) ≤ 4000000 * (1 / 1000000) := by
  obtain ⟨g1, h1, f1, c1⟩ := hm7
  have o1 : OpOk d m7 g1 (.solve (env yT true)) :=
    ⟨(by decide +kernel : m7.ctl.ps ≠ none), contract rfl
      (fun h => absurd (congrArg Option.isSome h) (by decide +kernel : m7.ctl.sol.isSome ≠ false)) (by decide +kernel)⟩
  have i1 : m7.ctl.isInit = false := by decide +kernel
  have p1 : m7.ctl.ps = some 0 := by decide +kernel
  have PA := psd_of_pd (c29_hessian h1 (fun _ _ h => h.2.1) o1 i1 sT)
  rw [(by decide +kernel : rT.2.2.nrVar = rT.2.2.c.rows)] at PA
  have opt : IsOptimal rT.2.2 yA.e := optimal_of_stationary PA (by decide +kernel) (by decide +kernel)
  have near : NearOptimal 0 (1 / 1000000) rT.2.2 ((env yT true).answer rT.2.2).2.e := by
    refine ⟨feasibleWithin_zero.2 (by decide +kernel), fun y hy => ?_⟩
    have a := opt.2 y hy
    have b : objective rT.2.2 ((env yT true).answer rT.2.2).2.e ≤ objective rT.2.2 yA.e + 1 / 1000000 := by decide +kernel
    linarith
  have hb : m7.ctl.spBoundConstr = [] → g1.clean := fun _ => c1
  exact ⟨(c71_tolerance h1 (fun _ _ h => h.1) o1 i1 hb honest7 (fresh7 f1) sT p1 near).2,
    fun V hV hr hopt => c71_distance h1 (fun _ _ h => ⟨h.1, h.2.1⟩) o1 i1 hb honest7 (fresh7 f1) sT p1 near hV hr hopt⟩

/-! An answer that violates a control bound `0 <= u <= 0` by `1/1000`. -/

def tw3 := after 1000 w2 (.addConstraint 5 jk)
def tw4 := after 1000 tw3 (.addCost 0 jk)

theorem htw4 : ∃ g : Ghost, Hist d 1000 Careful tw4 g ∧ g.fresh 0 ∧ g.clean := by
  have a3 := hist_after (op := .addConstraint 5 jk) h2 (fun _ => (by decide +kernel : w2.ctl.spBoundConstr = [])) ⟨trivial, trivial, trivial⟩
    (by decide +kernel : okB 1000 w2 _ = true)
  exact ⟨_, hist_after (op := .addCost 0 jk) a3 trivial ⟨trivial, trivial, trivial⟩ (by decide +kernel : okB 1000 tw3 _ = true),
    Or.inr ⟨trivial, rfl⟩, trivial⟩

def yV : Vec ℚ := vec [1 / 1000, 0]
def rV : World ℚ × Bool × QP ℚ := (tw4.solve (env yV true)).getD (tw4, false, q13)

theorem sV : tw4.solve (env yV true) = some (rV.1, true, rV.2.2) := by
  have e : (tw4.solve (env yV true)).isSome = true := by decide +kernel
  obtain ⟨r, hr⟩ := Option.isSome_iff_exists.1 e
  have h1 : rV = r := by unfold rV; rw [hr]; rfl
  have h2 : rV.2.1 = true := by decide +kernel
  rw [hr, ← h2, h1]

/-- C71 applies with `δ = 1/1000`: the control bound is violated by `1/1000`, no more. -/
example : ∀ i ∈ tw4.ctl.spConstr, (tw4.cons i).userData.HoldsWithin d (1 / 1000) (Spec.traj d tw4 0 rV.1.ctl.control.e) rV.1.ctl.control.e := by
  obtain ⟨g1, h1, f1, c1⟩ := htw4
  have o1 : OpOk d tw4 g1 (.solve (env yV true)) :=
    ⟨(by decide +kernel : tw4.ctl.ps ≠ none), contract rfl
      (fun h => absurd (congrArg Option.isSome h) (by decide +kernel : tw4.ctl.sol.isSome ≠ false)) (by decide +kernel)⟩
  have fw : FeasibleWithin (1 / 1000) rV.2.2 ((env yV true).answer rV.2.2).2.e := by
    refine ⟨?_, by decide +kernel, by decide +kernel, by decide +kernel⟩
    rw [(by decide +kernel : rV.2.2.Aeq.rows = 0)]
    intro i hi; omega
  have near : NearOptimal (1 / 1000) 1 rV.2.2 ((env yV true).answer rV.2.2).2.e := by
    refine ⟨fw, fun y hy => ?_⟩
    have lo := hy.2.2.1
    have up := hy.2.2.2
    have e0 : ∀ j < 2, y j = 0 := by
      intro j hj
      have a := lo j (by rw [(by decide +kernel : rV.2.2.lb.rows = 2)]; exact hj)
      have b := up j (by rw [(by decide +kernel : rV.2.2.ub.rows = 2)]; exact hj)
      rw [(by decide +kernel : ∀ j < 2, rV.2.2.lb.e j = .fin 0) j hj] at a
      rw [(by decide +kernel : ∀ j < 2, rV.2.2.ub.e j = .fin 0) j hj] at b
      exact le_antisymm b a
    have z : objective rV.2.2 y = 0 := by
      unfold objective quadValue
      rw [(by decide +kernel : rV.2.2.c.rows = 2)]
      simp only [Finset.sum_range_succ, Finset.sum_range_zero, e0 0 (by omega), e0 1 (by omega)]
      ring
    have b : objective rV.2.2 ((env yV true).answer rV.2.2).2.e ≤ 1 := by decide +kernel
    linarith
  refine (c71_tolerance h1 (fun _ _ h => h.1) o1 (by decide +kernel) (fun _ => c1) ?_ ?_ sV (by decide +kernel) near).1
  · intro i hi
    rw [(by decide +kernel : tw4.ctl.spConstr = [5])] at hi
    simp only [List.mem_cons, List.not_mem_nil, or_false] at hi
    subst hi; exact trivial
  · intro i hi hps
    rw [(by decide +kernel : tw4.ctl.spCost = [0])] at hi ⊢
    simp only [List.mem_cons, List.not_mem_nil, or_false] at hi
    subst hi; exact ⟨f1, rfl⟩

end Ex
end Copra
