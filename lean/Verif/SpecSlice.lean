import Verif.SpecMulti
import Verif.Model.Slice

/-! # Specification vocabulary: histories of an `LMPC` that an `InitialStateLMPC` was moved into -/

namespace Copra.Spec
variable {K : Type} [Zero K] [One K] [Add K] [Sub K] [Neg K] [Mul K] [Arith K]

/-- The extra condition restricts only the calls on preview systems, constraints and costs. -/
structure OnlyObjects (E : World K → Op K → Prop) : Prop extends AboutObjects E where
  others : ∀ w op, ¬ OnObject op → E w op

/-- The call is `solve()`. -/
def IsSolve : Op K → Prop
  | .solve _ => True
  | _ => False

/-- The call constructs another controller. -/
def IsConstruct : Op K → Prop
  | .construct _ _ | .constructPs _ _ _ _ => True
  | _ => False

/-- The call is `initializeController`. -/
def IsInitialize : Op K → Prop
  | .initializeController _ _ => True
  | _ => False

/-- Histories that begin as any history of a program with an `InitialStateLMPC`, go on with moving that controller into an
`LMPC`, and end with any calls on the objects and on the `LMPC`.  `ready` tells that `initializeController` was called
since the move; `solve()` is only called then. -/
inductive SlicedHist (d : Dims) (dmax : K) (E : World K → Op K → Prop) : Prop → World K → Ghost → Prop
  | moved {w g} : Hist d dmax E w g → w.ctl.isInit = true → SlicedHist d dmax E False w.slice g
  | ok {r w w' g op} : SlicedHist d dmax E r w g → OpOk d w g op → E w op → ¬ IsConstruct op → (IsSolve op → r) →
      w.step dmax op = .ok w' → SlicedHist d dmax E (r ∨ IsInitialize op) w' (g.next w True op)
  | thrown {r w w' g op e} : SlicedHist d dmax E r w g → OpOk d w g op → E w op → ¬ IsConstruct op → (IsSolve op → r) →
      w.step dmax op = .thrown e w' → SlicedHist d dmax E (r ∨ IsInitialize op) w' (g.next w False op)

end Copra.Spec
