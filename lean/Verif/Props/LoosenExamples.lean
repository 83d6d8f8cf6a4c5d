import Verif.Props.Loosen
import Verif.Props.ScaleExamples
import Verif.Props.InitRemovalExamples

/-! # C110 on concrete programs: controls drawn to 1 and bounded by 1/4, 1/2 and 3/4 -/

namespace Copra
open Spec

set_option linter.unusedSectionVars false
set_option maxRecDepth 100000

section
variable {K : Type} [Field K] [LinearOrder K] [IsStrictOrderedRing K]

/-- A feasible point at which the objective does not decrease towards any feasible point is a minimiser. -/
theorem optimal_of_variational {q : QP K} {x : Nat → K} (hQ : PSD q.c.rows q.Q) (hf : Feasible q x)
    (hs : ∀ y, Feasible q y → 0 ≤ ∑ i ∈ Finset.range q.c.rows,
      ((∑ j ∈ Finset.range q.c.rows, q.Q.e i j * x j) + q.c.e i) * (y i - x i)) : IsOptimal q x := by
  let g : Nat → K := fun i => (∑ j ∈ Finset.range q.c.rows, q.Q.e i j * x j) + q.c.e i
  let q' : QP K := { q with c := ⟨q.c.rows, fun i => q.c.e i - g i⟩ }
  have hf' : ∀ y, Feasible q y → Feasible q' y := fun y h => h
  have o : IsOptimal q' x := optimal_of_stationary hQ (hf' x hf) fun i _ => by
    show (∑ j ∈ Finset.range q.c.rows, q.Q.e i j * x j) + (q.c.e i - ((∑ j ∈ Finset.range q.c.rows, q.Q.e i j * x j) + q.c.e i)) = 0
    ring
  have e : ∀ y, objective q y = objective q' y + ∑ i ∈ Finset.range q.c.rows, g i * y i := by
    intro y
    show quadValue q.c.rows q.Q q.c y = quadValue q.c.rows q.Q ⟨q.c.rows, fun i => q.c.e i - g i⟩ y + _
    unfold quadValue
    simp only [sub_mul, Finset.sum_sub_distrib]
    ring
  refine ⟨hf, fun y hy => ?_⟩
  have a := o.2 y (hf' y hy)
  have b := hs y hy
  simp only [mul_sub, Finset.sum_sub_distrib] at b
  rw [e, e]
  have b' : ∑ i ∈ Finset.range q.c.rows, g i * x i ≤ ∑ i ∈ Finset.range q.c.rows, g i * y i := by linarith
  linarith

end

namespace Ex
open World

/-- Object 2 bounds the controls by `u` from above. -/
def consLo (u : ℚ) (i : Nat) : Constr ℚ := if i = 2 then Constr.mkCtrlBound (evec [.fin (-1)]) (evec [.fin u]) else theCons i

def lo0 (u : ℚ) : World ℚ := { w0 with cons := consLo u }

theorem lo0_init (u : ℚ) : World.Init (lo0 u) := by
  obtain ⟨a, b, c, e⟩ := w0_init
  refine ⟨a, fun i => ?_, c, e⟩
  show World.FreshConstr (consLo u i)
  unfold consLo
  split
  · exact .inr (.inr (.inr (.inr ⟨_, _, rfl⟩)))
  · exact b i

def lo1 (u : ℚ) := after 1000 (lo0 u) opSys
def lo2 (u : ℚ) := after 1000 (lo1 u) opCtl
def lo3 (u : ℚ) := after 1000 (lo2 u) (.addConstraint 2 jk)
def lo4 (u : ℚ) := after 1000 (lo3 u) (.addCost 1 jk)

def yLo (u : ℚ) : Vec ℚ := vec [u, u]

def rLo (u : ℚ) : World ℚ × Bool × QP ℚ := ((lo4 u).solve (env (yLo u) true)).getD (lo4 u, false, q13)

/-- What is evaluated for each of the three programs. -/
def factsLo (u : ℚ) : Prop :=
  okB 1000 (lo0 u) opSys = true ∧ 0 < ((lo1 u).pss 0).nrUStep ∧ okB 1000 (lo1 u) opCtl = true ∧ (lo2 u).ctl.spBoundConstr = [] ∧
  okB 1000 (lo2 u) (.addConstraint 2 jk) = true ∧ okB 1000 (lo3 u) (.addCost 1 jk) = true ∧
  ((lo4 u).solve (env (yLo u) true)).isSome = true ∧ (rLo u).2.1 = true ∧ (lo4 u).ctl.sol.isSome ≠ false ∧
  (lo4 u).ctl.ps = some 0 ∧ (lo4 u).ctl.isInit = false ∧ (lo4 u).ctl.spConstr = [2] ∧ (lo4 u).ctl.spCost = [1] ∧
  ((lo4 u).cons 2).kind = .ctrlBound ∧ ((lo4 u).costs 1).kind = .control ∧ (rLo u).2.2.nrVar = (rLo u).2.2.c.rows

instance (u : ℚ) : Decidable (factsLo u) := by unfold factsLo; infer_instance

theorem facts1 : factsLo (1/4) := by decide +kernel
theorem facts2 : factsLo (1/2) := by decide +kernel
theorem facts3 : factsLo (3/4) := by decide +kernel

theorem sLo {u : ℚ} (F : factsLo u) : (lo4 u).solve (env (yLo u) true) = some ((rLo u).1, true, (rLo u).2.2) := by
  obtain ⟨_, _, _, _, _, _, h1, h2, _⟩ := F
  obtain ⟨r, hr⟩ := Option.isSome_iff_exists.1 h1
  have e : rLo u = r := by unfold rLo; rw [hr]; rfl
  rw [hr, ← h2, e]

theorem hLo {u : ℚ} (F : factsLo u) : ∃ g : Ghost, Hist d 1000 Careful (lo4 u) g ∧ g.clean := by
  obtain ⟨f1, f2, f3, f4, f5, f6, _⟩ := F
  have a1 := hist_after (d := d) (dmax := 1000) (E := Careful) (op := opSys) (.start (lo0_init u)) ⟨rfl, rfl, rfl⟩
    ⟨trivial, trivial, trivial⟩ f1
  have a2 := hist_after (op := opCtl) a1 (show HasSystem (lo1 u) 0 from f2) ⟨trivial, trivial, trivial⟩ f3
  have a3 := hist_after (op := .addConstraint 2 jk) a2 (fun _ => f4) ⟨trivial, trivial, trivial⟩ f5
  exact ⟨_, hist_after (op := .addCost 1 jk) a3 trivial ⟨trivial, trivial, trivial⟩ f6, trivial⟩

theorem solveLo {u : ℚ} (F : factsLo u) {g : Ghost} (h : Hist d 1000 Careful (lo4 u) g) (c : g.clean) :
    PlainSolve d 1000 (lo4 u) g 0 (env (yLo u) true) (rLo u).1 true (rLo u).2.2 where
  hist := h.mono fun _ _ h => ⟨h.1, h.2.1⟩
  allowed := by
    obtain ⟨_, _, _, _, _, _, _, _, f9, f10, f11, _⟩ := F
    refine ⟨by rw [f10]; exact (by decide), contract rfl (fun h => absurd (congrArg Option.isSome h) f9) f11⟩
  ps := F.2.2.2.2.2.2.2.2.2.1
  plain := F.2.2.2.2.2.2.2.2.2.2.1
  clean := fun _ => c
  honest := by
    obtain ⟨_, _, _, _, _, _, _, _, _, _, _, f12, _, f14, _⟩ := F
    refine honestOf fun i hi => ?_
    rw [f12] at hi
    rw [List.mem_singleton.1 hi, f14]
    decide
  solve := sLo F

theorem freshLo {u : ℚ} (F : factsLo u) (g : Ghost) : CostsFresh d (lo4 u) g := by
  obtain ⟨_, _, _, _, _, _, _, _, _, _, _, _, f13, _, f15, _⟩ := F
  intro i hi hps
  rw [f13] at hi
  rw [List.mem_singleton.1 hi] at hps
  unfold Cost.userData at hps
  rw [f15] at hps
  exact hps.elim

/-- The bound is the best answer to a problem over two variables whose objective decreases at the bound. -/
theorem optLo (q : QP ℚ) {u : ℚ} (P : PSD q.c.rows q.Q) (hn : q.nrVar = 2) (hc : q.c.rows = 2) (hf : Feasible q (yLo u).e)
    (hr : q.ub.rows = 2) (hx : ∀ i < 2, q.ub.e i = .fin u)
    (hs : ∀ i < 2, (∑ j ∈ Finset.range 2, q.Q.e i j * (yLo u).e j) + q.c.e i ≤ 0) :
    IsOptimal q ((env (yLo u) true).answer q).2.e := by
  have ea : ((env (yLo u) true).answer q).2 = yLo u := if_pos hn
  rw [ea]
  refine optimal_of_variational P hf fun y hy => ?_
  rw [hc]
  refine Finset.sum_nonneg fun i hi => ?_
  have hi := Finset.mem_range.1 hi
  have b : y i ≤ u := by
    have := hy.2.2.2 i (by omega)
    rw [hx i hi] at this
    exact this
  have e : (yLo u).e i = u := by
    have : i = 0 ∨ i = 1 := by omega
    rcases this with rfl | rfl <;> rfl
  have s := hs i hi
  generalize (∑ j ∈ Finset.range 2, q.Q.e i j * (yLo u).e j) + q.c.e i = G at s
  rw [e]
  nlinarith

theorem psdLo {u : ℚ} (F : factsLo u) : PSD (rLo u).2.2.c.rows (rLo u).2.2.Q := by
  obtain ⟨g, h, c⟩ := hLo F
  have S := solveLo F h c
  have P := psd_of_pd (c29_hessian S.hist (fun _ _ h => h.2) S.allowed S.plain S.solve)
  rwa [F.2.2.2.2.2.2.2.2.2.2.2.2.2.2.2] at P

theorem opt1 : IsOptimal (rLo (1/4)).2.2 ((env (yLo (1/4)) true).answer (rLo (1/4)).2.2).2.e :=
  optLo _ (psdLo facts1) (by decide +kernel) (by decide +kernel) (by decide +kernel) (by decide +kernel) (by decide +kernel)
    (by decide +kernel)
theorem opt2 : IsOptimal (rLo (1/2)).2.2 ((env (yLo (1/2)) true).answer (rLo (1/2)).2.2).2.e :=
  optLo _ (psdLo facts2) (by decide +kernel) (by decide +kernel) (by decide +kernel) (by decide +kernel) (by decide +kernel)
    (by decide +kernel)
theorem opt3 : IsOptimal (rLo (3/4)).2.2 ((env (yLo (3/4)) true).answer (rLo (3/4)).2.2).2.e :=
  optLo _ (psdLo facts3) (by decide +kernel) (by decide +kernel) (by decide +kernel) (by decide +kernel) (by decide +kernel)
    (by decide +kernel)

theorem userDataLo (u : ℚ) (h : ((lo4 u).cons 2).kind = .ctrlBound) (hl : ((lo4 u).cons 2).lower = evec [.fin (-1)])
    (hu : ((lo4 u).cons 2).upper = evec [.fin u]) (hf : ((lo4 u).cons 2).fullSizeEntry = false) :
    ((lo4 u).cons 2).userData = .ctrlBound (evec [.fin (-1)]) (evec [.fin u]) := by
  unfold Constr.userData
  rw [h]
  simp [hl, hu, hf]

theorem looseLo : Loosened d (lo4 (1/4)) 0 (lo4 (3/4)) 0 where
  A := rfl
  B := rfl
  bias := rfl
  x0 := rfl
  costs := by
    rw [(by decide +kernel : (lo4 (1/4)).ctl.spCost = [1]), (by decide +kernel : (lo4 (3/4)).ctl.spCost = [1])]
    exact .refl _
  cons := by
    intro j hj
    rw [(by decide +kernel : (lo4 (3/4)).ctl.spConstr = [2])] at hj
    rw [List.mem_singleton.1 hj]
    refine ⟨2, by decide +kernel, ?_⟩
    rw [userDataLo (1/4) (by decide +kernel) rfl rfl rfl, userDataLo (3/4) (by decide +kernel) rfl rfl rfl]
    refine ⟨rfl, fun r hr => ?_⟩
    obtain rfl : r = 0 := Nat.lt_one_iff.1 hr
    exact ⟨(by norm_num : (-1 : ℚ) ≤ -1), (by norm_num : (1/4 : ℚ) ≤ 3/4)⟩

/-- C110 applies: with the bound 3/4 the controls can go further towards 1 than with the bound 1/4. -/
example : totalCost d (lo4 (3/4)) 0 (rLo (3/4)).1.ctl.control.e ≤ totalCost d (lo4 (1/4)) 0 (rLo (1/4)).1.ctl.control.e := by
  obtain ⟨g1, h1, c1⟩ := hLo facts1
  obtain ⟨g3, h3, c3⟩ := hLo facts3
  exact c110_optimum (solveLo facts1 h1 c1) (solveLo facts3 h3 c3) looseLo
    (fun _ n => absurd ⟨2, by decide +kernel, _, _, userDataLo (3/4) (by decide +kernel) rfl rfl rfl⟩ n) (freshLo facts3 g3) opt1.1 opt3

theorem betweenLo : LimitsBetween d (1/2) (lo4 (1/4)) 0 (lo4 (3/4)) 0 (lo4 (1/2)) 0 where
  A := ⟨rfl, rfl⟩
  B := ⟨rfl, rfl⟩
  bias := ⟨rfl, rfl⟩
  x0 := by decide +kernel
  costs1 := by
    rw [(by decide +kernel : (lo4 (1/4)).ctl.spCost = [1]), (by decide +kernel : (lo4 (1/2)).ctl.spCost = [1])]
    exact .refl _
  costs2 := by
    rw [(by decide +kernel : (lo4 (3/4)).ctl.spCost = [1]), (by decide +kernel : (lo4 (1/2)).ctl.spCost = [1])]
    exact .refl _
  cons := by
    intro j hj
    rw [(by decide +kernel : (lo4 (1/2)).ctl.spConstr = [2])] at hj
    rw [List.mem_singleton.1 hj]
    refine ⟨2, by decide +kernel, 2, by decide +kernel, ?_⟩
    rw [userDataLo (1/4) (by decide +kernel) rfl rfl rfl, userDataLo (3/4) (by decide +kernel) rfl rfl rfl,
      userDataLo (1/2) (by decide +kernel) rfl rfl rfl]
    refine ⟨rfl, rfl, ?_, ?_⟩ <;> unfold Averaged <;> decide +kernel
  bounded := fun _ => ⟨2, by decide +kernel, _, _, userDataLo (1/2) (by decide +kernel) rfl rfl rfl⟩

/-- C110 applies: the bound 1/2 lies half-way between 1/4 and 3/4, and the plan costs at most the average. -/
example : totalCost d (lo4 (1/2)) 0 (rLo (1/2)).1.ctl.control.e ≤
    1/2 * totalCost d (lo4 (1/4)) 0 (rLo (1/4)).1.ctl.control.e + (1 - 1/2) * totalCost d (lo4 (3/4)) 0 (rLo (3/4)).1.ctl.control.e := by
  obtain ⟨g1, h1, c1⟩ := hLo facts1
  obtain ⟨g2, h2, c2⟩ := hLo facts2
  obtain ⟨g3, h3, c3⟩ := hLo facts3
  exact c110_between (by norm_num) (by norm_num) (solveLo facts1 h1 c1) (solveLo facts3 h3 c3) (solveLo facts2 h2 c2) betweenLo
    (freshLo facts2 g2) opt1.1 opt3.1 opt2

/-- C110 applies to initial-state controllers: dropping `u0 + u1 ≤ 3` from `jK`. -/
example : ∃ x1 x2, rJK.1.ctl.initialState (rJK.1.pss 0) = some x1 ∧ rJ.1.ctl.initialState (rJ.1.pss 0) = some x2 ∧
    objective rJ.2.2 (joined d x2.e rJ.1.ctl.control.e) ≤ objective rJK.2.2 (joined d x1.e rJK.1.ctl.control.e) := by
  obtain ⟨x1, x2, a, b, c, _⟩ := c110_optimum_init solveJK solveJ (Tighter.loosened moreJK)
    ⟨by decide +kernel, by decide +kernel, by decide +kernel⟩ (sameInverse _ _ _ _)
    (fun _ n => absurd (by
      by_contra h
      exact (by decide +kernel : j7.ctl.spBoundConstr ≠ []) ((bound_nil_iff solveJ.hist.good solveJ.ps).2 h)) n) optJK optJ
  exact ⟨x1, x2, a, b, c⟩

end Ex
end Copra
