import Verif.Props.Horizon
import Verif.Props.ConvexExamples
import Verif.Props.InitRemovalExamples
import Verif.Props.ReplanExamples

/-! # C107 on concrete programs: one step against two -/

namespace Copra
open Spec

set_option linter.unusedSectionVars false
set_option maxRecDepth 100000

namespace Ex
open World

/-- The system of `rfc` over one step. -/
def opSysHz : Op ℚ := .system 0 (mat 2 2 [[1, 1], [0, 1]]) (mat 2 1 [[0], [1]]) (vec [0, 0]) (vec [2, -1/2]) 1

def hz1 := after 1000 rf0 opSysHz
def hz2 := after 1000 hz1 opCtl
def hz3 := after 1000 hz2 (.addConstraint 0 jk')
def hz4 := after 1000 hz3 (.addConstraint 2 jk')
def hz5 := after 1000 hz4 (.addCost 1 jk')

/-- The minimiser of the shorter problem. -/
def yHz : Vec ℚ := vec [1000000/1000001]

/-- A solver that answers `y` on problems with as many variables. -/
def envHz (y : Vec ℚ) : SolveEnv ℚ := { env y true with answer := fun q => (true, if q.nrVar = y.rows then y else Vec.zero q.nrVar) }

theorem hhz : ∃ g : Ghost, Hist dR 1000 (fun w op => NoBoundSpan w op ∧ NonnegWeights w op) hz5 g ∧ g.fresh 1 := by
  have a1 := hist_after (d := dR) (dmax := 1000) (E := fun w op => NoBoundSpan w op ∧ NonnegWeights w op) (op := opSysHz)
    (.start rf0_init) ⟨rfl, rfl, rfl⟩ ⟨trivial, trivial⟩ (by decide +kernel)
  have a2 := hist_after (op := opCtl) a1 (show HasSystem hz1 0 by unfold HasSystem; decide +kernel)
    ⟨trivial, trivial⟩ (by decide +kernel : okB 1000 hz1 _ = true)
  have b3 := hist_after (op := .addConstraint 0 jk') a2 (fun h => absurd h (by decide +kernel : (hz2.cons 0).kind ≠ .ctrlBound))
    ⟨trivial, trivial⟩ (by decide +kernel : okB 1000 hz2 _ = true)
  have b4 := hist_after (op := .addConstraint 2 jk') b3 (fun _ => (by decide +kernel : hz3.ctl.spBoundConstr = [])) ⟨trivial, trivial⟩
    (by decide +kernel : okB 1000 hz3 _ = true)
  exact ⟨_, hist_after (op := .addCost 1 jk') b4 trivial ⟨trivial, trivial⟩ (by decide +kernel : okB 1000 hz4 _ = true),
    Or.inr ⟨trivial, rfl⟩⟩

def rHz : World ℚ × Bool × QP ℚ := (hz5.solve (envHz yHz)).getD (hz5, false, q13)

theorem sHz : hz5.solve (envHz yHz) = some (rHz.1, true, rHz.2.2) := by
  obtain ⟨r, hr⟩ := Option.isSome_iff_exists.1 (by decide +kernel : (hz5.solve (envHz yHz)).isSome = true)
  have h1 : rHz = r := by unfold rHz; rw [hr]; rfl
  have h2 : rHz.2.1 = true := by decide +kernel
  rw [hr, ← h2, h1]

theorem answerHz (y : Vec ℚ) (q : QP ℚ) : ((envHz y).answer q).2.rows = q.nrVar := by
  show (if q.nrVar = y.rows then y else Vec.zero q.nrVar).rows = q.nrVar
  split
  · next h => rw [h]
  · rfl

theorem solveHz {g : Ghost} (h : Hist dR 1000 (fun w op => NoBoundSpan w op ∧ NonnegWeights w op) hz5 g) :
    PlainSolve dR 1000 hz5 g 0 (envHz yHz) rHz.1 true rHz.2.2 where
  hist := h
  allowed := ⟨by decide +kernel, (fun h => absurd (congrArg Option.isSome h) (by decide +kernel : hz5.ctl.sol.isSome ≠ false)),
    fun q _ _ => answerHz _ q, fun h => absurd h (by decide +kernel)⟩
  ps := by decide +kernel
  plain := by decide +kernel
  clean := fun hb => absurd hb (by decide +kernel : hz5.ctl.spBoundConstr ≠ [])
  honest := by
    intro i hi
    rw [(by decide +kernel : hz5.ctl.spConstr = [0, 2])] at hi
    simp only [List.mem_cons, List.not_mem_nil, or_false] at hi
    rcases hi with rfl | rfl <;> exact trivial
  solve := sHz

theorem longerHz : Longer dR d hz5 0 rfc 0 := by
  have l1 : hz5.ctl.spConstr = [0, 2] := by decide +kernel
  have l2 : rfc.ctl.spConstr = [2, 0] := by decide +kernel
  have l3 : hz5.ctl.spCost = [1] := by decide +kernel
  have l4 : rfc.ctl.spCost = [1] := by decide +kernel
  refine ⟨rfl, rfl, by decide, rfl, rfl, rfl, fun _ _ => rfl, ?_, ?_, ?_, ?_⟩
  · rw [l1, l2]
    exact .swap _ _ _
  · rw [l3, l4]
    exact .refl _
  · rw [l1]
    intro i hi
    simp only [List.mem_cons, List.not_mem_nil, or_false] at hi
    rcases hi with rfl | rfl <;> rfl
  · rw [l3]
    intro i hi
    rw [List.mem_singleton.1 hi]
    rfl

/-- C107 applies: planning one step costs at most what planning two steps costs. -/
example : totalCost dR hz5 0 rHz.1.ctl.control.e ≤ totalCost d rfc 0 rRC.1.ctl.control.e := by
  obtain ⟨g1, h1, f1⟩ := hhz
  obtain ⟨g2, h2, _⟩ := hrf
  have S1 := solveHz h1
  refine c107_optimum S1 (plainSolve h2 rfl rfl sRC) longerHz ?_ ?_ (by decide +kernel)
  · intro i hi
    rw [(by decide +kernel : hz5.ctl.spCost = [1])] at hi
    obtain rfl := List.mem_singleton.1 hi
    exact fun _ => ⟨f1, by decide +kernel⟩
  · exact optimal_of_stationary (by
      have P := c29_hessian S1.hist (fun _ _ h => h.2) S1.allowed S1.plain S1.solve
      rw [(by decide +kernel : rHz.2.2.nrVar = rHz.2.2.c.rows)] at P
      exact psd_of_pd P) (by decide +kernel) (by decide +kernel)

/-- A feasible plan of two steps. -/
example : Feasible rHz.2.2 yC.e := by
  obtain ⟨g1, h1, _⟩ := hhz
  obtain ⟨g2, h2, _⟩ := hrf
  exact c107_feasible (solveHz h1) (plainSolve h2 rfl rfl sRC) longerHz (by decide +kernel)

/-! ## Initial-state controllers -/

def opSysHi : Op ℚ := .system 0 (mat 2 2 [[1, 1], [0, 1]]) (mat 2 1 [[0], [1]]) (vec [0, 0]) (vec [1, 0]) 1

def hi1' := after 1000 w0 opSysHi
def hi2' := after 1000 hi1' (.constructPs true solver 0 jk)
def hi3' := after 1000 hi2' (.addConstraint 2 jk')
def hi4' := after 1000 hi3' (.addConstraint 0 jk')
def hi5' := after 1000 hi4' (.addCost 0 jk')
def hi6' := after 1000 hi5' (.resetInitialStateBounds (evec [.fin (-5), .fin (-5)]) (evec [.fin 5, .fin 5]))

theorem hhi : ∃ g : Ghost, Hist dR 1000 Careful hi6' g ∧ g.fresh 0 ∧ g.clean := by
  have a1 := hist_after (d := dR) (dmax := 1000) (E := Careful) (op := opSysHi) (.start w0_init) ⟨rfl, rfl, rfl⟩
    ⟨trivial, trivial, trivial⟩ (by decide +kernel)
  have b2 := hist_after (op := .constructPs true solver 0 jk) a1 (show HasSystem hi1' 0 by unfold HasSystem; decide +kernel)
    ⟨trivial, trivial, trivial⟩ (by decide +kernel)
  have b3 := hist_after (op := .addConstraint 2 jk') b2 (fun _ => (by decide +kernel : hi2'.ctl.spBoundConstr = [])) ⟨trivial, trivial, trivial⟩
    (by decide +kernel : okB 1000 hi2' _ = true)
  have b4 := hist_after (op := .addConstraint 0 jk') b3 (fun h => absurd h (by decide +kernel : (hi3'.cons 0).kind ≠ .ctrlBound))
    ⟨trivial, trivial, trivial⟩ (by decide +kernel : okB 1000 hi3' _ = true)
  have b5 := hist_after (op := .addCost 0 jk') b4 trivial ⟨trivial, trivial, trivial⟩ (by decide +kernel : okB 1000 hi4' _ = true)
  have b6 := hist_after (op := .resetInitialStateBounds (evec [.fin (-5), .fin (-5)]) (evec [.fin 5, .fin 5])) b5 trivial
    ⟨trivial, trivial, trivial⟩ (by decide +kernel : okB 1000 hi5' _ = true)
  exact ⟨_, b6, Or.inr ⟨trivial, rfl⟩, trivial⟩

def envHi : SolveEnv ℚ := { envHz (vec [0, 0, 0]) with inverse := fun M => ⟨M.rows, M.cols, fun _ _ => 1 / M.e 0 0⟩ }

theorem inverseHi : TrueInverse dR envHi := by
  intro M _ _ P a ha b hb
  have ha : a < 1 := ha
  have hb : b < 1 := hb
  obtain rfl : a = 0 := by omega
  obtain rfl : b = 0 := by omega
  have h := P.2 (fun _ => 1) ⟨0, by decide, by norm_num⟩
  have s : ∀ f : Nat → ℚ, ∑ k ∈ Finset.range (dR.m * dR.N), f k = f 0 := fun f => by
    show ∑ k ∈ Finset.range 1, f k = _
    rw [Finset.sum_range_one]
  rw [s, s] at h
  rw [s]
  show M.e 0 0 * (1 / M.e 0 0) = _
  rw [if_pos rfl]
  have : M.e 0 0 ≠ 0 := by intro e; rw [e] at h; norm_num at h
  field_simp

def rHi : World ℚ × Bool × QP ℚ := (hi6'.solve envHi).getD (hi6', false, q13)

theorem sHi : hi6'.solve envHi = some (rHi.1, true, rHi.2.2) := by
  obtain ⟨r, hr⟩ := Option.isSome_iff_exists.1 (by decide +kernel : (hi6'.solve envHi).isSome = true)
  have h1 : rHi = r := by unfold rHi; rw [hr]; rfl
  have h2 : rHi.2.1 = true := by decide +kernel
  rw [hr, ← h2, h1]

theorem longerHi : Longer dR d hi6' 0 j7 0 := by
  have l1 : hi6'.ctl.spConstr = [2, 0] := by decide +kernel
  have l2 : j7.ctl.spConstr = [0, 2] := by decide +kernel
  have l3 : hi6'.ctl.spCost = [0] := by decide +kernel
  have l4 : j7.ctl.spCost = [0] := by decide +kernel
  refine ⟨rfl, rfl, by decide, rfl, rfl, rfl, fun _ _ => rfl, ?_, ?_, ?_, ?_⟩
  · rw [l1, l2]
    exact .swap _ _ _
  · rw [l3, l4]
    exact .refl _
  · rw [l1]
    intro i hi
    simp only [List.mem_cons, List.not_mem_nil, or_false] at hi
    rcases hi with rfl | rfl <;> rfl
  · rw [l3]
    intro i hi
    rw [List.mem_singleton.1 hi]
    rfl

/-- C107 applies to initial-state controllers. -/
example (x U : Nat → ℚ) (h : Feasible rJ.2.2 (joined d x U)) : Feasible rHi.2.2 (joined dR x U) := by
  obtain ⟨g1, h1, f1, c1⟩ := hhi
  have S : InitSolve dR 1000 hi6' g1 0 envHi rHi.1 true rHi.2.2 :=
    { hist := h1.mono fun _ _ h => ⟨h.1, h.2.1⟩
      allowed := ⟨by decide +kernel, (fun h => absurd (congrArg Option.isSome h) (by decide +kernel : hi6'.ctl.sol.isSome ≠ false)),
        fun q _ _ => answerHz _ q, fun _ => by
          refine ⟨by decide +kernel, by decide +kernel, by decide +kernel, by decide +kernel, by decide +kernel, fun M h1 h2 => ⟨h1, h2⟩⟩⟩
      ps := by decide +kernel
      init := by decide +kernel
      clean := fun _ => c1
      honest := by
        intro i hi
        rw [(by decide +kernel : hi6'.ctl.spConstr = [2, 0])] at hi
        simp only [List.mem_cons, List.not_mem_nil, or_false] at hi
        rcases hi with rfl | rfl <;> exact trivial
      fresh := by
        intro i hi _
        rw [(by decide +kernel : hi6'.ctl.spCost = [0])] at hi ⊢
        rw [List.mem_singleton.1 hi]
        exact ⟨f1, rfl⟩
      inverse := inverseHi
      solve := sHi }
  exact c107_feasible_init S solveJ longerHi (by decide +kernel) h

/-- The hypothesis is met: the answer of `j7`. -/
example : Feasible rJ.2.2 (joined d (vec [yJ.e 0, yJ.e 1]).e (vec [yJ.e 2, yJ.e 3]).e) := by decide +kernel

end Ex
end Copra
