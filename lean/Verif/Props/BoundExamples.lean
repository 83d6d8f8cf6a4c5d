import Verif.Props.Bounds
import Verif.Props.WorldExamples

/-! # C31, C37 applied to the concrete program of `ExWorld` -/

namespace Copra
open Spec

set_option linter.unusedSectionVars false
set_option maxRecDepth 100000

namespace Ex
open World

/-- C31: the problem of `w12` restricts the controls to the only control bound, `[-1, 1]`. -/
example : ∀ i ∈ w12.ctl.spBoundConstr, (w12.cons i).userData.Holds d (fun _ _ => 0) (controls d w12.ctl fun _ => 1 / 2) :=
  c31_single_bound_partial h12 o13 s13 (by decide +kernel : Feasible q13 fun _ => 1 / 2) _

/-- C31 is false of the code: constraint 5, a second control bound, is accepted by the controller of `w12`, and then
no solve is defined. -/
theorem c31_false : ∃ w w1 : World ℚ, Reachable 1000 w ∧ (∃ i ∈ w.ctl.spConstr, (w.cons i).kind = .ctrlBound) ∧
    (w.cons 5).kind = .ctrlBound ∧ (w.solve opt).isSome ∧ w.step 1000 (.addConstraint 5 jk) = .ok w1 ∧
    ∀ env : SolveEnv ℚ, w1.step 1000 (.solve env) = .ub := by
  have hk : okB 1000 w12 (.addConstraint 5 jk) = true := by decide +kernel
  refine ⟨w12, _, r12, ⟨2, by rw [cons12]; decide, by decide +kernel⟩, by decide +kernel, by rw [s13]; rfl, okB_step hk, fun e => ?_⟩
  exact (c31_two_bounds_undefined h12 (i := 2) (by rw [bound12]; exact List.mem_singleton_self _)
    (by decide +kernel) (by decide) (okB_step hk) e).2

def a7 := after 1000 a6 (.solve opt)
def a8 := after 1000 a7 (.removeConstraint 2)

/-- The ghost of `a6`. -/
def ga6 : Ghost := ⟨fun j => (False ∨ (True ∧ j = 0)) ∨ (True ∧ j = 2), fun j => False ∨ (True ∧ j = 0),
    fun j => False ∨ (True ∧ j = 0), True⟩

/-- A solve that is defined. -/
theorem solve_of {w : World ℚ} {e : SolveEnv ℚ} (h : (w.solve e).isSome = true) (dflt : World ℚ × Bool × QP ℚ) :
    w.solve e = some (((w.solve e).getD dflt).1, ((w.solve e).getD dflt).2.1, ((w.solve e).getD dflt).2.2) := by
  obtain ⟨r, hr⟩ := Option.isSome_iff_exists.1 h
  rw [hr]; rfl

theorem a7_eq (dflt : World ℚ × Bool × QP ℚ) (h : (a6.solve opt).isSome = true) : ((a6.solve opt).getD dflt).1 = a7 := by
  obtain ⟨r, hr⟩ := Option.isSome_iff_exists.1 h
  unfold a7 after
  simp only [step, hr, Option.map_some, Res.ofOption, Option.getD_some]

/-- C37's negative theorem applies: `solve`, `removeConstraint 2`, `solve`. -/
theorem still : ∃ w3 b q, a8.solve opt = some (w3, b, q) ∧ a8.ctl.spBoundConstr = [] ∧
    ∀ y, Feasible q y → (a6.cons 2).userData.Holds d (fun _ _ => 0) (controls d a8.ctl y) := by
  have d1 : (a6.solve opt).isSome = true := by decide +kernel
  have d2 : (a8.solve opt).isSome = true := by decide +kernel
  have s1 := solve_of d1 r13
  have s2 := solve_of d2 r13
  rw [a7_eq r13 d1] at s1
  have o1 := solvable (w := a6) (by decide +kernel) (by decide +kernel) (by decide +kernel) ga6
  have l : Later d 1000 NoReset a7 (ga6.next a6 True (.solve opt)) a8 _ :=
    .ok (op := .removeConstraint 2) .refl trivial trivial (okB_step (by decide +kernel : okB 1000 a7 _ = true))
  have o2 := solvable (w := a8) (by decide +kernel) (by decide +kernel) (by decide +kernel)
    ((ga6.next a6 True (.solve opt)).next a7 True (.removeConstraint 2))
  have hb2 : a8.ctl.spBoundConstr = [] := by decide +kernel
  exact ⟨_, _, _, s2, hb2, fun y hy => c37_still_imposed (i := 2) (hist_any ha6) o1 (by decide +kernel) s1 l o2 hb2 s2 hy _⟩

/-- C37 is false of the code: in a reachable program whose control bound was removed, the next solve excludes the
controls `(2, 2)`, which satisfy every registered constraint. -/
theorem c37_false : ∃ (w w' : World ℚ) (b : Bool) (q : QP ℚ), Reachable 1000 w ∧ w.solve opt = some (w', b, q) ∧
    w.ctl.isInit = false ∧ w.ctl.ps = some 0 ∧ w.ctl.spConstr = [0] ∧ (w.cons 0).kind = .trajectory ∧
    (w.cons 0).userData.Holds d (Spec.traj d w 0 fun _ => 2) (fun _ => 2) ∧ ¬ Feasible q (fun _ => 2) := by
  obtain ⟨w3, b, q, hs, hb, hf⟩ := still
  have R : Reachable 1000 a8 :=
    Reachable.step (Reachable.step (Hist.reachable ha6) (op := .solve opt) (Or.inl (okB_step (by decide +kernel : okB 1000 a6 _ = true))))
      (op := .removeConstraint 2) (Or.inl (okB_step (by decide +kernel : okB 1000 a7 _ = true)))
  refine ⟨a8, w3, b, q, R, hs, by decide +kernel, by decide +kernel, by decide +kernel, by decide +kernel, ?_, fun h => ?_⟩
  · unfold Constr.userData
    rw [(by decide +kernel : (a8.cons 0).kind = .trajectory)]
    unfold ConstrData.Holds
    simp only
    rw [if_pos (by decide +kernel)]
    unfold TrajectoryStep Rel
    rw [(by decide +kernel : (a8.cons 0).isIneq = true)]
    simp only [if_true]
    decide +kernel
  · have := hf _ h
    unfold Constr.userData at this
    rw [(by decide +kernel : (a6.cons 2).kind = .ctrlBound)] at this
    simp only at this
    rw [if_neg (by decide +kernel)] at this
    unfold ConstrData.Holds at this
    simp only at this
    rw [if_pos (by decide +kernel)] at this
    revert this
    unfold CtrlBoundStep
    decide +kernel

def b7 := after 1000 a6 (.removeConstraint 2)

/-- C37's first positive part applies: removed before the first solve. -/
example : ∃ w2 b q, b7.solve opt = some (w2, b, q) ∧ ∀ j < 2, q.lb.e (0 + j) = .fin (-1000) ∧ q.ub.e (0 + j) = .fin 1000 := by
  have d2 : (b7.solve opt).isSome = true := by decide +kernel
  have s2 := solve_of d2 r13
  exact ⟨_, _, _, s2, (c37_unsolved_partial (i := 2) ha6 trivial (by decide +kernel)
    (okB_step (by decide +kernel : okB 1000 a6 (.removeConstraint 2) = true))
    (solvable (w := b7) (by decide +kernel) (by decide +kernel) (by decide +kernel) _) s2).2⟩

/-- C37's second positive part applies: after `solve` and `removeConstraint 2`, another control bound (5, `u = 0`) is
registered; it alone counts. -/
def c9 := after 1000 a8 (.addConstraint 5 jk)

example : ∃ w' b q, c9.solve opt = some (w', b, q) ∧ ∀ U : Nat → ℚ, ((∀ j < 2, q.lb.e (0 + j) ≤ Ext.fin (U j) ∧
    Ext.fin (U j) ≤ q.ub.e (0 + j)) ↔ (theCons 5).userData.Holds d (fun _ _ => 0) U) := by
  have d2 : (c9.solve opt).isSome = true := by decide +kernel
  have s2 := solve_of d2 r13
  have h6 := hist_any ha6
  have h7 := hist_after (op := .solve opt) h6 (solvable (w := a6) (by decide +kernel) (by decide +kernel) (by decide +kernel) _) trivial
    (by decide +kernel : okB 1000 a6 _ = true)
  have h8 := hist_after (op := .removeConstraint 2) h7 trivial trivial (by decide +kernel : okB 1000 a7 _ = true)
  have h9 := hist_after (op := .addConstraint 5 jk) h8 (fun _ => (by decide +kernel : a8.ctl.spBoundConstr = [])) trivial
    (by decide +kernel : okB 1000 a8 _ = true)
  refine ⟨_, _, _, s2, fun U => ?_⟩
  have key := c37_replaced_partial (i := 5) h9
    (solvable (w := c9) (by decide +kernel) (by decide +kernel) (by decide +kernel) _) (by decide +kernel : c9.ctl.spBoundConstr = [5]) s2
    U (fun _ _ => 0)
  refine key.trans ?_
  unfold Constr.userData
  rw [(by decide +kernel : (theCons 5).kind = .ctrlBound)]
  change (match (c9.cons 5).kind with | _ => _) ↔ _
  rw [(by decide +kernel : (c9.cons 5).kind = .ctrlBound)]
  exact Iff.rfl

end Ex
end Copra
