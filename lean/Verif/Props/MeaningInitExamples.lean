import Verif.Props.MeaningInit
import Verif.Props.InitRemovalExamples

/-! # C74 for `InitialStateLMPC` on a concrete program

The cost of `j7` counts the states at steps 0, 1 and 2; the one below counts those at steps 1 and 2 only, with a full-size
matrix.  From every initial state they differ by a constant, so the controllers return the same initial state (which a
user who expects the state cost to take part in its choice may find surprising: C61). -/

namespace Copra
open Spec

set_option linter.unusedSectionVars false
set_option maxRecDepth 100000

namespace Ex
open World

def costsLate (i : Nat) : Cost ℚ :=
  if i = 0 then Cost.mkTrajectory (mat 4 6 [[0, 0, 1, 0, 0, 0], [0, 0, 0, 1, 0, 0], [0, 0, 0, 0, 1, 0], [0, 0, 0, 0, 0, 1]])
    (vec [0, 0, 0, 0])
  else theCosts i

def jl0 : World ℚ := { w0 with costs := costsLate }

theorem jl0_init : World.Init jl0 := by
  obtain ⟨a, b, c, e⟩ := w0_init
  refine ⟨a, b, fun i => ?_, e⟩
  show World.FreshCost (costsLate i)
  unfold costsLate
  split
  · exact .inl ⟨_, _, rfl⟩
  · exact c i

def jl1 := after 1000 jl0 opSys
def jl2 := after 1000 jl1 (.constructPs true solver 0 jk)
def jl3 := after 1000 jl2 (.addConstraint 0 jk)
def jl4 := after 1000 jl3 (.addConstraint 2 jk)
def jl5 := after 1000 jl4 (.addCost 0 jk)
def jl6 := after 1000 jl5 (.resetInitialStateCost (mat 2 2 [[1, 0], [0, 1]]) (vec [1/10, 1/5]))
def jl7 := after 1000 jl6 (.resetInitialStateBounds (evec [.fin (-5), .fin (-5)]) (evec [.fin 5, .fin 5]))

theorem hjl7 : ∃ g : Ghost, Hist d 1000 Careful jl7 g ∧ g.fresh 0 ∧ g.clean := by
  have a1 := hist_after (d := d) (dmax := 1000) (E := Careful) (op := opSys) (.start jl0_init) ⟨rfl, rfl, rfl⟩
    ⟨trivial, trivial, trivial⟩ (by decide +kernel)
  have a2 := hist_after (op := .constructPs true solver 0 jk) a1 (show HasSystem jl1 0 by unfold HasSystem; decide +kernel)
    ⟨trivial, trivial, trivial⟩ (by decide +kernel : okB 1000 jl1 _ = true)
  have b3 := hist_after (op := .addConstraint 0 jk) a2 (fun _ => (by decide +kernel : jl2.ctl.spBoundConstr = []))
    ⟨trivial, trivial, trivial⟩ (by decide +kernel : okB 1000 jl2 _ = true)
  have b4 := hist_after (op := .addConstraint 2 jk) b3 (fun _ => (by decide +kernel : jl3.ctl.spBoundConstr = []))
    ⟨trivial, trivial, trivial⟩ (by decide +kernel : okB 1000 jl3 _ = true)
  have b5 := hist_after (op := .addCost 0 jk) b4 trivial ⟨trivial, trivial, trivial⟩ (by decide +kernel : okB 1000 jl4 _ = true)
  have b6 := hist_after (op := .resetInitialStateCost (mat 2 2 [[1, 0], [0, 1]]) (vec [1/10, 1/5])) b5 trivial
    ⟨trivial, trivial, trivial⟩ (by decide +kernel : okB 1000 jl5 _ = true)
  exact ⟨_, hist_after (op := .resetInitialStateBounds (evec [.fin (-5), .fin (-5)]) (evec [.fin 5, .fin 5])) b6 trivial
    ⟨trivial, trivial, trivial⟩ (by decide +kernel : okB 1000 jl6 _ = true), Or.inr ⟨trivial, rfl⟩, trivial⟩

def rJL : World ℚ × Bool × QP ℚ := (jl7.solve (envI yJ true)).getD (jl7, false, q13)

theorem sJL : jl7.solve (envI yJ true) = some (rJL.1, true, rJL.2.2) := by
  obtain ⟨r, hr⟩ := Option.isSome_iff_exists.1 (by decide +kernel : (jl7.solve (envI yJ true)).isSome = true)
  have h1 : rJL = r := by unfold rJL; rw [hr]; rfl
  have h2 : rJL.2.1 = true := by decide +kernel
  rw [hr, ← h2, h1]

theorem solveJL {g : Ghost} (h : Hist d 1000 Careful jl7 g) (f : g.fresh 0) (c : g.clean) :
    InitSolve d 1000 jl7 g 0 (envI yJ true) rJL.1 true rJL.2.2 where
  hist := h.mono fun _ _ h => ⟨h.1, h.2.1⟩
  allowed := ⟨by decide +kernel, contractI rfl (by decide +kernel) (by decide +kernel)⟩
  ps := by decide +kernel
  init := by decide +kernel
  clean := fun _ => c
  honest := by
    intro i hi
    rw [(by decide +kernel : jl7.ctl.spConstr = [0, 2])] at hi
    simp only [List.mem_cons, List.not_mem_nil, or_false] at hi
    have : (jl7.cons i).kind ≠ .trajBound := by rcases hi with rfl | rfl <;> decide +kernel
    unfold Constr.userData
    cases h : (jl7.cons i).kind <;> simp only <;> first | trivial | exact absurd h this | (split <;> trivial)
  fresh := by
    intro i hi _
    rw [(by decide +kernel : jl7.ctl.spCost = [0])] at hi ⊢
    rw [List.mem_singleton.1 hi]
    exact ⟨f, rfl⟩
  inverse := trueInverse _ _
  solve := sJL

theorem meaningJL : SameMeaningInit d 1000 j7 0 jl7 0 := by
  have l1 : j7.ctl.spConstr = [0, 2] := by decide +kernel
  have l2 : jl7.ctl.spConstr = [0, 2] := by decide +kernel
  have l3 : j7.ctl.spCost = [0] := by decide +kernel
  have l4 : jl7.ctl.spCost = [0] := by decide +kernel
  have t : ∀ x U, Spec.trajFrom d jl7 0 x U = Spec.trajFrom d j7 0 x U := fun _ _ => rfl
  have u : ∀ i, (jl7.cons i).userData = (j7.cons i).userData := fun _ => rfl
  have c1 : (j7.costs 0).userData = .trajectory (mat 2 2 [[1, 0], [0, 1]]) (vec [0, 0]) (Vec.const 2 1) := rfl
  have c2 : (jl7.costs 0).userData = .trajectory (mat 4 6 [[0, 0, 1, 0, 0, 0], [0, 0, 0, 1, 0, 0], [0, 0, 0, 0, 1, 0], [0, 0, 0, 0, 0, 1]])
    (vec [0, 0, 0, 0]) (Vec.const 4 1) := rfl
  refine ⟨fun _ _ _ _ _ _ => rfl, fun x U _ _ => ?_, fun x => ⟨-(x 0 ^ 2 + x 1 ^ 2), fun U => ?_⟩⟩
  · rw [l1, l2]
    simp only [u, t]
  · rw [l3, l4, t]
    simp only [List.map_cons, List.map_nil, List.sum_cons, List.sum_nil, add_zero]
    rw [c1, c2]
    have z : Spec.trajFrom d j7 0 x U 0 = x := rfl
    simp only [CostData.value]
    generalize Spec.trajFrom d j7 0 x U = X at z ⊢
    rw [if_neg (by decide), if_pos (by decide)]
    unfold wsq
    have dn : d.n = 2 := rfl
    have dN : d.N = 2 := rfl
    simp only [dn, dN]
    show ∑ r ∈ Finset.range 4, (Vec.const 4 1 : Vec ℚ).e r * ((∑ k ∈ Finset.range 3, ∑ c ∈ Finset.range 2, _ * _) - _) ^ 2 =
      (∑ k ∈ Finset.range 3, ∑ r ∈ Finset.range 2, (Vec.const 2 1 : Vec ℚ).e r * ((∑ c ∈ Finset.range 2, _ * X k c) - _) ^ 2) + _
    simp [Finset.sum_range_succ, mat, vec, Vec.const, z]
    ring

/-- C74 applies to initial-state controllers. -/
example : ∃ x1 x2, rJ.1.ctl.initialState (rJ.1.pss 0) = some x1 ∧ rJL.1.ctl.initialState (rJL.1.pss 0) = some x2 ∧ VecEq x1 x2 ∧
    VecEq rJ.1.ctl.control rJL.1.ctl.control ∧ VecEq rJ.1.ctl.trajectory rJL.1.ctl.trajectory := by
  obtain ⟨g, h, f, c⟩ := hjl7
  have S := solveJL h f c
  have P := psd_of_pd ((c45_hessian_partial S.hist (fun _ _ h => h.2) S.allowed S.init (trueInverse _ _) sJL).2
    (pdR _ (by decide +kernel)))
  rw [(by decide +kernel : rJL.2.2.nrVar = rJL.2.2.c.rows)] at P
  exact c74_same_meaning_init solveJ S meaningJL
    ⟨by decide +kernel, by decide +kernel, by decide +kernel, by decide +kernel⟩ (sameInverse _ _ _ _) (pdR _ (by decide +kernel))
    optJ (optimal_of_stationary P (by decide +kernel) (by decide +kernel)) (by decide +kernel) (by decide +kernel)

end Ex
end Copra
