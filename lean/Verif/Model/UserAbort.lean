import Verif.Model.UserDefined

/-! # A `solve()` aborted by an exception from the `update` function of a user-defined object

`Model/UserDefined.lean` takes the `update` functions of user-defined classes not to throw; here one of them does. -/

namespace Copra

/-- Where the exception comes from: the `update` of the constraint (cost) at position `k` of the controller's list of
constraints (costs).  `o` is what that function leaves in its own object, about which nothing is assumed.
The calls at src/LMPC.cpp 240-242 and 245-247. -/
inductive AbortAt (K S : Type) where
  | constr (k : Nat) (o : Rows K × S)
  | cost (k : Nat) (o : Terms K × S)

namespace World
variable {K : Type} [Zero K] [One K] [Add K] [Sub K] [Neg K] [Mul K] [Arith K]

/-- The part of `LMPC::updateSystem` before its two loops, src/LMPC.cpp 227-239; the second component is the
contents of the controller's preview system. -/
def beginUpdate (junk : Junk K) (w : World K) : Option (World K × PreviewSystem K) := do
  let p ← w.ctl.ps
  let l := { w.ctl with
    Q := (Mat.identity w.ctl.Q.rows w.ctl.Q.cols).scale Arith.micro
    c := Vec.zero w.ctl.c.rows }
  let ps ← if (w.pss p).isUpdated then some (w.pss p) else (w.pss p).updateSystem
  let l ← l.updateNr w.cons
  let l ← l.updateConstraintMatrixSize junk ps
  return ({ w with pss := upd w.pss p ps, ctl := l }, ps)

end World

namespace UWorld
variable {K S : Type} [Zero K] [One K] [Add K] [Sub K] [Neg K] [Mul K] [Arith K]

/-- `LMPC::solve`, src/LMPC.cpp 79-84, when the `update` of a user-defined object throws inside `updateSystem`
(lines 240-242 or 245-247): what precedes was executed, what follows was not, and the exception leaves `solve`.  `none`
if the object at that position is not user-defined (the library's `update` functions do not throw) or the calls before
have undefined behaviour. -/
def solveUserThrow (junk : Junk K) (X : UWorld K S) : AbortAt K S → Option (UWorld K S)
  | .constr k o => do
    let (w, ps) ← X.world.beginUpdate junk
    let i ← w.ctl.spConstr[k]?
    let _ ← X.consClass i
    let (cons, mem) ← (w.ctl.spConstr.take k).foldlM (updateConstr X.consClass ps) (w.cons, X.consMem)
    return { X with
      world := { w with cons := World.upd cons i ((cons i).setRows o.1) }
      consMem := World.upd mem i o.2 }
  | .cost k o => do
    let (w, ps) ← X.world.beginUpdate junk
    let (cons, consMem) ← w.ctl.spConstr.foldlM (updateConstr X.consClass ps) (w.cons, X.consMem)
    let i ← w.ctl.spCost[k]?
    let _ ← X.costClass i
    let (costs, mem) ← (w.ctl.spCost.take k).foldlM (updateCost X.costClass ps) (w.costs, X.costMem)
    return { X with
      world := { w with cons := cons, costs := World.upd costs i ((costs i).setTerms o.1) }
      consMem := consMem
      costMem := World.upd mem i o.2 }

end UWorld
end Copra
