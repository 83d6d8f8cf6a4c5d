import Verif.SpecHist
import Verif.Model.Abort

/-! # Specification vocabulary: histories in which the solver may throw (C86) -/

namespace Copra.Spec
variable {K : Type} [Zero K] [One K] [Add K] [Sub K] [Neg K] [Mul K] [Arith K]

/-- Histories as in `SpecHist.Hist`, in which moreover any `solve()` may be aborted by an exception from the solver,
which the client catches. -/
inductive AHist (d : Dims) (dmax : K) (E : World K → Op K → Prop) : World K → Ghost → Prop
  | start {w} : World.Init w → AHist d dmax E w Ghost.start
  | ok {w w' g op} : AHist d dmax E w g → OpOk d w g op → E w op → w.step dmax op = .ok w' →
      AHist d dmax E w' (g.next w True op)
  | thrown {w w' g op e} : AHist d dmax E w g → OpOk d w g op → E w op → w.step dmax op = .thrown e w' →
      AHist d dmax E w' (g.next w False op)
  | aborted {w w' g env q} : AHist d dmax E w g → OpOk d w g (.solve env) → w.solveThrow env = some (w', q) →
      AHist d dmax E w' (g.next w True (.solve env))

/-- The same program state but for the two time measurements. -/
def ButTimes (w w' : World K) : Prop :=
  ∃ a b, w' = { w with ctl := { w.ctl with solveTime := a, solveAndBuildTime := b } }

/-- The extra condition restricts neither `solve` nor what the client does with its `shared_ptr`s, and does not look at
the time measurements. -/
structure IgnoresSolve (E : World K → Op K → Prop) : Prop where
  solve : ∀ w env, E w (.solve env)
  refsConstr : ∀ w i m, E w (.refsConstr i m)
  refsCost : ∀ w i m, E w (.refsCost i m)
  times : ∀ w w' op, ButTimes w w' → E w op → E w' op

end Copra.Spec
