import Verif.Props.Dimension
import Verif.Props.ExWorld

/-! # C54 on the concrete program: the hypotheses are met -/

namespace Copra.Ex
open World Spec

set_option maxRecDepth 100000

/-- The same system over three steps instead of two. -/
def opSys3 : Op ℚ := .system 0 (mat 2 2 [[1, 1], [0, 1]]) (mat 2 1 [[0], [1]]) (vec [0, 0]) (vec [1, 0]) 3

def u1 := after 1000 w12 opSys3
def u2 := after 1000 u1 (.initializeController 0 jk)

/-- **C54 is false of the code**: a client that follows the documentation (new dimensions, then
`initializeController`) has undefined behaviour in its next `solve`, whatever the solver does. -/
theorem c54_false : ∃ w : World ℚ, ∃ g, Hist d 1000 Careful w g ∧
    ∃ w1 w2, w.step 1000 opSys3 = .ok w1 ∧ w1.step 1000 (.initializeController 0 jk) = .ok w2 ∧
      ∀ env, w2.step 1000 (.solve env) = .ub := by
  have a1 : w12.step 1000 opSys3 = .ok u1 := okB_step (by decide +kernel)
  have a2 : u1.step 1000 (.initializeController 0 jk) = .ok u2 := okB_step (by decide +kernel)
  refine ⟨w12, g12, h12, u1, u2, a1, a2, fun env => ?_⟩
  refine c54_stale_undefined h12 a1 a2 (by decide +kernel) (Or.inl ⟨0, by decide +kernel, ?_⟩) env
  show ConstrData.SizedOnAdd d (Constr.userData (u2.cons 0))
  unfold Constr.userData
  rw [(by decide +kernel : (u2.cons 0).kind = .trajectory)]
  exact (by decide +kernel : (u2.cons 0).E.cols = 2)

/-! The same client, removing its costs and constraints first. -/

def v13 := after 1000 w12 .clearConstraints
def v14 := after 1000 v13 .clearCosts
def v15 := after 1000 v14 opSys3
def v16 := after 1000 v15 (.initializeController 0 jk)
def v17 := after 1000 v16 (.addConstraint 0 jk)
def v18 := after 1000 v17 (.addCost 1 jk)

theorem h14 : Hist d 1000 Careful v14 g12 := by
  have a13 := hist_after (op := .clearConstraints) h12 trivial ⟨trivial, trivial, trivial⟩ (by decide +kernel : okB 1000 w12 _ = true)
  exact hist_after (op := .clearCosts) a13 trivial ⟨trivial, trivial, trivial⟩ (by decide +kernel : okB 1000 v13 _ = true)

/-- Objects the client may go on using. -/
def Again (_ : World ℚ) (op : Op ℚ) : Prop :=
  Only (fun q => q = 0 ∨ ¬ HasSystem v14 q) (fun i => ¬ g12.constr i ∨ (v14.cons i).userData.PerStep d)
    (fun i => ¬ g12.cost i ∨ (v14.costs i).userData.PerStep d) op

def d3 : Dims := ⟨2, 1, 3⟩

theorem l18 : Later d3 1000 Again v16 Ghost.start v18
    ((Ghost.start.next v16 True (.addConstraint 0 jk)).next v17 True (.addCost 1 jk)) := by
  have b1 := Later.ok (op := .addConstraint 0 jk) (d := d3) (dmax := (1000 : ℚ)) (E := Again) (w := v16) (g := Ghost.start)
    .refl (fun _ => (by decide +kernel)) (Or.inr (by
      unfold Constr.userData
      rw [(by decide +kernel : (v14.cons 0).kind = .trajectory)]
      exact (by decide +kernel : (v14.cons 0).E.cols = 2))) (okB_step (by decide +kernel : okB 1000 v16 _ = true))
  exact Later.ok (op := .addCost 1 jk) b1 trivial (Or.inr (by
      unfold Cost.userData
      rw [(by decide +kernel : (v14.costs 1).kind = .control)]
      exact (by decide +kernel : (v14.costs 1).N.cols = 1))) (okB_step (by decide +kernel : okB 1000 v17 _ = true))

/-- A non-trivial instance of `c54_reuse_partial`: after clearing, a longer horizon, and the same constraint and cost added again,
the solve is defined, for every solver that keeps its contract. -/
theorem c54_reuse_example (x : Vec ℚ) (hx : x.rows = 2) :
    ∃ w'' b q, v18.solve (env x true) = some (w'', b, q) ∧ v18.step 1000 (.solve (env x true)) = .ok w'' ∧ WellSized q ∧
      q.nrVar = 3 := by
  have a1 : v14.step 1000 opSys3 = .ok v15 := okB_step (by decide +kernel)
  have a2 : v15.step 1000 (.initializeController 0 jk) = .ok v16 := okB_step (by decide +kernel)
  have hi : v18.ctl.isInit = false := by decide +kernel
  have := c54_reuse_partial h14 (by decide +kernel) (by decide +kernel) a1 a2 (E' := Again) (fun _ _ h => h) l18
    (env := env x true) ⟨by decide +kernel, ?_, fun q _ _ => env_answer hx q, fun h => by rw [hi] at h; cases h⟩
  · obtain ⟨w'', b, q, e1, e2, e3, e4⟩ := this
    refine ⟨w'', b, q, e1, e2, e3, ?_⟩
    rw [e4]
    unfold numVars
    rw [hi]; rfl
  · exact Option.isSome_iff_ne_none.1 (by decide +kernel)

end Copra.Ex
