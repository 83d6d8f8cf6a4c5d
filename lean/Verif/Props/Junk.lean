import Verif.SpecJunk
import Verif.Proofs.Lockstep
import Verif.Props.ExWorld

/-! # C56: uninitialised memory never matters

`Resize` leaves the new memory with arbitrary contents.  Two executions of the same program, on the same data, with
*different* contents of every freshly allocated block, behave the same: each call returns or throws alike, the solver
is given the same problem, and the client reads the same results. -/

namespace Copra
open Spec World

set_option linter.unusedSectionVars false
set_option maxRecDepth 100000

section
variable {K : Type} [Field K] [LinearOrder K] [IsStrictOrderedRing K]
variable {d : Dims} {dmax : K} {w1 w2 : World K} {g : Ghost}

/-- **C56** (calls).  Whatever is in uninitialised memory, the same call in the two executions returns in both, or
throws the same exception in both. -/
theorem c56_same_outcome (h : Twins d dmax w1 w2 g) {a b : Op K} (ho : OpOk d w1 g a) (hs : SameCall d a b) :
    OpOk d w2 g b ∧ SameOutcome (w1.step dmax a) (w2.step dmax b) := by
  obtain ⟨T, G1, G2⟩ := h.inv
  refine ⟨T.opOk ho hs, ?_⟩
  have s := T.step G1 G2 ho hs
  revert s
  cases w1.step dmax a <;> cases w2.step dmax b <;> intro s
  all_goals first | exact trivial | exact s.1 | exact s.elim

/-- **C56** (the solver's problem).  Whatever was and is in uninitialised memory, `solve` hands the QP solver the same
matrices and vectors, of the same sizes, and returns the same truth value. -/
theorem c56_same_problem (h : Twins d dmax w1 w2 g) {e1 e2 : SolveEnv K} (ho : OpOk d w1 g (.solve e1))
    (hI : SameInverse d e1 e2) (hA : SameAnswer e1 e2) :
    ∃ w1' w2' b q1 q2, w1.solve e1 = some (w1', b, q1) ∧ w2.solve e2 = some (w2', b, q2) ∧ QPEq q1 q2 := by
  obtain ⟨T, G1, G2⟩ := h.inv
  obtain ⟨n1, c1⟩ := ho
  obtain ⟨n2, c2⟩ := T.opOk (a := .solve e1) (b := .solve e2) ⟨n1, c1⟩ ⟨_, rfl, hI, hA⟩
  obtain ⟨p, hp⟩ := Option.ne_none_iff_exists'.1 n1
  obtain ⟨p2, hp2⟩ := Option.ne_none_iff_exists'.1 n2
  obtain ⟨w1', b1, q1, h1, _⟩ := solve_ok (G1.canUpdate hp) c1
  obtain ⟨w2', b2, q2, h2, _⟩ := solve_ok (G2.canUpdate hp2) c2
  obtain ⟨a, rfl, _⟩ := T.solve G1 G2 c1 c2 hI hA h1 h2
  exact ⟨w1', w2', b1, q1, q2, h1, h2, a⟩

/-- **C56** (results).  The client reads the same control sequence, the same trajectory, the same initial state and
the same numbers of rows in both executions. -/
theorem c56_same_results (h : Twins d dmax w1 w2 g) :
    VecEq w1.ctl.control w2.ctl.control ∧ VecEq w1.ctl.trajectory w2.ctl.trajectory ∧
    (∀ p, OptVecEq (w1.ctl.initialState (w1.pss p)) (w2.ctl.initialState (w2.pss p))) ∧
    w1.ctl.nrEqConstr = w2.ctl.nrEqConstr ∧ w1.ctl.nrIneqConstr = w2.ctl.nrIneqConstr ∧
    w1.ctl.spConstr = w2.ctl.spConstr ∧ w1.ctl.spCost = w2.ctl.spCost ∧ w1.pss = w2.pss := by
  obtain ⟨T, -, -⟩ := h.inv
  refine ⟨T.ctl.control, T.ctl.trajectory, fun p => ?_, T.ctl.nrEq.symm, T.ctl.nrIneq.symm, T.ctl.spConstr.symm,
    T.ctl.spCost.symm, T.pss.symm⟩
  rw [T.pss]
  unfold LMPC.initialState
  rcases T.ctl.sol with ⟨h1, h2⟩ | ⟨s, s', h1, h2, _, hr⟩
  · rw [h1, h2]; trivial
  · rw [h1, h2]
    simp only [Option.bind_eq_bind, Option.bind_some, Vec.segment?, hr.1]
    split
    · next hle => exact ⟨rfl, fun i hi => hr.2 _ (by have : i < (w1.pss p).xDim := hi; have := hr.1; omega)⟩
    · trivial

end

/-! ## The hypotheses are met -/
namespace Ex.Mem

/-- Other contents of uninitialised memory. -/
def jk' : Junk ℚ := ⟨fun _ i j => if i = j then -3 else 5, fun _ i => if i = 0 then 2 else 9, fun _ _ => .pinf⟩

def opCtl' : Op ℚ := .constructPs false solver 0 jk'
def y2 := after 1000 w1 opCtl'
def y3 := after 1000 y2 (.addConstraint 0 jk')
def y4 := after 1000 y3 (.addConstraint 2 jk')
def y5 := after 1000 y4 (.addCost 0 jk')
def y6 := after 1000 y5 (.addCost 2 jk')
def x3 := after 1000 w2 (.addConstraint 0 jk)
def x4 := after 1000 x3 (.addConstraint 2 jk)
def x5 := after 1000 x4 (.addCost 0 jk)
def x6 := after 1000 x5 (.addCost 2 jk)

theorem twins_after {u v : World ℚ} {g : Ghost} {a b : Op ℚ} (h : Twins d 1000 u v g) (ho : OpOk d u g a)
    (hs : SameCall d a b) (h1 : okB 1000 u a = true) (h2 : okB 1000 v b = true) :
    Twins d 1000 (after 1000 u a) (after 1000 v b) (g.next u True a) := .ok h ho hs (okB_step h1) (okB_step h2)

/-- The same program over two memories: a non-trivial pair of executions. -/
theorem twins6 : ∃ g, Twins d 1000 x6 y6 g := by
  have a1 := twins_after (a := opSys) (b := opSys) (.start w0_init) ⟨rfl, rfl, rfl⟩ rfl (by decide +kernel) (by decide +kernel)
  have a2 := twins_after (a := opCtl) (b := opCtl') a1 (show HasSystem w1 0 by unfold HasSystem; decide +kernel) ⟨_, rfl⟩
    (by decide +kernel : okB 1000 w1 _ = true) (by decide +kernel : okB 1000 w1 _ = true)
  have a3 := twins_after (a := .addConstraint 0 jk) (b := .addConstraint 0 jk') a2 (fun _ => (by decide +kernel : w2.ctl.spBoundConstr = [])) ⟨_, rfl⟩
    (by decide +kernel : okB 1000 w2 _ = true) (by decide +kernel : okB 1000 y2 _ = true)
  have a4 := twins_after (a := .addConstraint 2 jk) (b := .addConstraint 2 jk') a3 (fun _ => (by decide +kernel : x3.ctl.spBoundConstr = [])) ⟨_, rfl⟩
    (by decide +kernel : okB 1000 x3 _ = true) (by decide +kernel : okB 1000 y3 _ = true)
  have a5 := twins_after (a := .addCost 0 jk) (b := .addCost 0 jk') a4 trivial ⟨_, rfl⟩
    (by decide +kernel : okB 1000 x4 _ = true) (by decide +kernel : okB 1000 y4 _ = true)
  exact ⟨_, twins_after (a := .addCost 2 jk) (b := .addCost 2 jk') a5 trivial ⟨_, rfl⟩
    (by decide +kernel : okB 1000 x5 _ = true) (by decide +kernel : okB 1000 y5 _ = true)⟩

/-- The two states do differ, in memory that was never written. -/
example : x6.ctl.Q.e 0 0 = 7 ∧ y6.ctl.Q.e 0 0 = -3 := by decide +kernel

/-- `SameInverse` and `SameAnswer` hold of an environment and itself with another memory. -/
theorem sameInverse (x : Vec ℚ) : SameInverse d (env x true) { env x true with junk := jk' } := by
  intro M M' h1 h2 hM
  refine ⟨hM.1, hM.2.1, fun i hi j hj => ?_⟩
  show (if i = j then 1 / M.e i i else 0) = (if i = j then 1 / M'.e i i else 0)
  split
  · next e =>
    subst e
    rw [hM.2.2 i hi i hj]
  · rfl

theorem sameAnswer (x : Vec ℚ) : SameAnswer (env x true) { env x true with junk := jk' } := by
  intro q q' h
  refine ⟨rfl, ?_⟩
  show VecEq (if q.nrVar = 2 then x else Vec.zero q.nrVar) (if q'.nrVar = 2 then x else Vec.zero q'.nrVar)
  rw [h.1]
  exact VecEq.rfl' _

example (x : Vec ℚ) (hx : x.rows = 2) : ∃ w1' w2' b q1 q2, x6.solve (env x true) = some (w1', b, q1) ∧
    y6.solve { env x true with junk := jk' } = some (w2', b, q2) ∧ QPEq q1 q2 := by
  obtain ⟨g, h⟩ := twins6
  exact c56_same_problem h ⟨by decide +kernel, contract hx (Option.isSome_iff_ne_none.1 (by decide +kernel)) (by decide +kernel)⟩
    (sameInverse x) (sameAnswer x)

end Ex.Mem
end Copra
