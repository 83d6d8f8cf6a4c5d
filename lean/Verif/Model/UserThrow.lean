import Verif.Model.UserAbort

/-! # A `solve()` of a program with user-defined objects, aborted by an exception from the solver -/

namespace Copra

/-- `LMPC::solve` after `updateSystem()`, src/LMPC.cpp 85-91, when `sol_->SI_problem` (line 88) or `sol_->SI_solve` (line 91)
throws: what precedes was executed, what follows was not.  The solver may be the client's own: nothing is assumed about what
`SI_result()` returns from then on.  The second component is (ghost) the problem that was being handed over. -/
def World.solveTailThrow {K : Type} [Zero K] [One K] [Add K] [Sub K] [Neg K] [Mul K] [Arith K] (env : SolveEnv K) (w : World K) :
    Option (World K × QP K) := do
  let p ← w.ctl.ps
  let l ← w.ctl.makeQPForm env.inverse w.cons w.costs (w.pss p)
  let s ← l.sol
  let qp := l.qp
  return ({ w with ctl := { l with sol := some { s with result := (env.answer qp).2 } } }, qp)

namespace UWorld
variable {K S : Type} [Zero K] [One K] [Add K] [Sub K] [Neg K] [Mul K] [Arith K]

/-- `LMPC::solve`, src/LMPC.cpp 79-91, aborted by an exception from the solver. -/
def solveThrow (env : SolveEnv K) (X : UWorld K S) : Option (UWorld K S × QP K) := do
  let X ← X.updateSystem env.junk
  let (w, q) ← X.world.solveTailThrow env
  return ({ X with world := w }, q)

end UWorld
end Copra
