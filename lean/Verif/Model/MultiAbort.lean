import Verif.Model.Multi
import Verif.Model.Abort

/-! # A `solve()` aborted by an exception, in a program with several controllers -/

namespace Copra.MWorld
variable {K : Type} [Zero K] [One K] [Add K] [Sub K] [Neg K] [Mul K] [Arith K] {n : Nat}

/-- `LMPC::solve` of controller `k`, src/LMPC.cpp 79-101, when `sol_->SI_problem` (line 88) or `sol_->SI_solve` (line 91)
throws; the second component is (ghost) the problem that was handed to the solver. -/
def solveThrow (env : SolveEnv K) (w : MWorld K n) (k : Fin n) : Option (MWorld K n × QP K) :=
  ((w.view k).solveThrow env).map fun r => (w.put k r.1, r.2)

end Copra.MWorld
