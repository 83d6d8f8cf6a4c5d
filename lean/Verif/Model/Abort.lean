import Verif.Model.LMPC

/-! # A `solve()` aborted by an exception from the solver -/

namespace Copra.World
variable {K : Type} [Zero K] [One K] [Add K] [Sub K] [Neg K] [Mul K] [Arith K]

/-- `LMPC::solve`, src/LMPC.cpp 79-101, when `sol_->SI_problem` (line 88) or `sol_->SI_solve` (line 91) throws: what
precedes was executed, what follows was not, and the exception leaves `solve`.  The solver may be the client's own
(`useSolver`), so nothing is assumed about what `SI_result()` returns from then on (`(env.answer qp).2`).  `none` if the
calls before have undefined behaviour.  The second component is (ghost) the problem that was handed to the solver. -/
def solveThrow (env : SolveEnv K) (w : World K) : Option (World K × QP K) := do
  let w ← w.updateSystem env.junk
  let p ← w.ctl.ps
  let ps := w.pss p
  let l ← w.ctl.makeQPForm env.inverse w.cons w.costs ps
  let s ← l.sol
  let qp := l.qp
  return ({ w with ctl := { l with sol := some { s with result := (env.answer qp).2 } } }, qp)

end Copra.World
