import Verif.SpecMulti
import Verif.SpecAbort
import Verif.Model.MultiAbort

/-! # Specification vocabulary: several controllers whose solvers may throw (C106) -/

namespace Copra.Spec
variable {K : Type} [Zero K] [One K] [Add K] [Sub K] [Neg K] [Mul K] [Arith K] {n : Nat}

/-- Histories as in `SpecMulti.MHist`, in which moreover any `solve()` of any controller may be aborted by an exception
from its solver, which the client catches. -/
inductive MAHist (d : Dims) (dmax : K) (E : World K → Op K → Prop) : MWorld K n → MGhost n → Prop
  | start {w} : MWorld.Init w → MAHist d dmax E w MGhost.start
  | ok {w w' g k op} : MAHist d dmax E w g → OpOk d (w.view k) (g.view k) op → E (w.view k) op →
      w.step dmax k op = .ok w' → MAHist d dmax E w' (g.next w k True op)
  | thrown {w w' g k op e} : MAHist d dmax E w g → OpOk d (w.view k) (g.view k) op → E (w.view k) op →
      w.step dmax k op = .thrown e w' → MAHist d dmax E w' (g.next w k False op)
  | aborted {w w' g k env q} : MAHist d dmax E w g → OpOk d (w.view k) (g.view k) (.solve env) →
      w.solveThrow env k = some (w', q) → MAHist d dmax E w' (g.next w k True (.solve env))

/-- `w' g'` are reached from `w g` by further calls, each allowed by `E` and, with the controller it is made on, by `F`;
any of their solves may be aborted. -/
inductive MALater (d : Dims) (dmax : K) (E : World K → Op K → Prop) (F : Fin n → Op K → Prop) (w : MWorld K n)
    (g : MGhost n) : MWorld K n → MGhost n → Prop
  | refl : MALater d dmax E F w g w g
  | ok {w1 w2 g1 k op} : MALater d dmax E F w g w1 g1 → OpOk d (w1.view k) (g1.view k) op → E (w1.view k) op → F k op →
      w1.step dmax k op = .ok w2 → MALater d dmax E F w g w2 (g1.next w1 k True op)
  | thrown {w1 w2 g1 k op e} : MALater d dmax E F w g w1 g1 → OpOk d (w1.view k) (g1.view k) op → E (w1.view k) op →
      F k op → w1.step dmax k op = .thrown e w2 → MALater d dmax E F w g w2 (g1.next w1 k False op)
  | aborted {w1 w2 g1 k env q} : MALater d dmax E F w g w1 g1 → OpOk d (w1.view k) (g1.view k) (.solve env) →
      F k (.solve env) → w1.solveThrow env k = some (w2, q) →
      MALater d dmax E F w g w2 (g1.next w1 k True (.solve env))

/-- The same program state but for the time measurements of the controllers. -/
def MButTimes (w w' : MWorld K n) : Prop :=
  ∃ a b : Fin n → Option Int, w' = { w with
    ctls := fun j => { w.ctls j with solveTime := a j, solveAndBuildTime := b j } }

/-- Calls on other controllers than `k`, and the client's copies of `shared_ptr`s. -/
def OnOthers (k j : Fin n) (op : Op K) : Prop := j ≠ k ∧ ¬ OnObject op

end Copra.Spec
