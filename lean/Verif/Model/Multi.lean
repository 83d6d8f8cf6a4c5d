import Verif.Model.LMPC
import Mathlib.Algebra.BigOperators.Fin

/-! # Several controllers in one program

`Model/LMPC.lean` has one controller.  Here a program owns `n` controllers (each an `LMPC` or an `InitialStateLMPC`)
that may share preview systems, constraints and costs: `addCost`, `addConstraint` and `initializeController` copy the
`shared_ptr` they are given (src/LMPC.cpp 72-77, 118-128), so the same object can be registered with several of them,
and every one of them calls the object's (non-const) `initialize…` and `update` members on it. -/

namespace Copra

/-- A program state with `n` controllers.  `extCons`, `extCosts` count the `shared_ptr`s held by the client, outside
every controller. Controllers: include/LMPC.h 154-190. -/
structure MWorld (K : Type) (n : Nat) where
  pss : Nat → PreviewSystem K
  cons : Nat → Constr K
  costs : Nat → Cost K
  extCons : Nat → Nat
  extCosts : Nat → Nat
  ctls : Fin n → LMPC K

/-- Number of `shared_ptr`s to constraint `i` in the vectors of a controller (include/LMPC.h 166-169). -/
def LMPC.refsC {K : Type} (l : LMPC K) (i : Nat) : Nat :=
  l.spConstr.count i + l.spEqConstr.count i + l.spIneqConstr.count i + l.spBoundConstr.count i

/-- Number of `shared_ptr`s to cost `i` in the vector of a controller (include/LMPC.h 175). -/
def LMPC.refsK {K : Type} (l : LMPC K) (i : Nat) : Nat := l.spCost.count i

namespace MWorld
variable {K : Type} [Zero K] [One K] [Add K] [Sub K] [Neg K] [Mul K] [Arith K] {n : Nat}

/-- The program as seen by controller `k`: what `use_count()` (src/LMPC.cpp 290-307) adds up outside `k` is what the
client holds and what the other controllers hold. -/
def view (w : MWorld K n) (k : Fin n) : World K where
  pss := w.pss
  cons := w.cons
  costs := w.costs
  extCons i := w.extCons i + ∑ j, if j = k then 0 else (w.ctls j).refsC i
  extCosts i := w.extCosts i + ∑ j, if j = k then 0 else (w.ctls j).refsK i
  ctl := w.ctls k

/-- Store what a call on controller `k` did to the shared objects and to `k`.
(Book-keeping of the model; the code changes the objects in place.) -/
def put (w : MWorld K n) (k : Fin n) (v : World K) : MWorld K n :=
  { w with
    pss := v.pss
    cons := v.cons
    costs := v.costs
    ctls := fun j => if j = k then v.ctl else w.ctls j }

/-- Execute one API call on controller `k` (`k` is irrelevant for the calls that name no controller).
The calls are those of include/LMPC.h 43-101, as in `World.step`. -/
def step (dmax : K) (w : MWorld K n) (k : Fin n) : Op K → Res (MWorld K n)
  | .refsConstr i m => .ok { w with extCons := World.upd w.extCons i m }
  | .refsCost i m => .ok { w with extCosts := World.upd w.extCosts i m }
  | op => ((w.view k).step dmax op).map (w.put k)

/-- `solve()` of controller `k` with its returned `bool` and (ghost) the problem handed to the solver; `step` with
`Op.solve` is this without the last two. src/LMPC.cpp 79-101. -/
def solve (env : SolveEnv K) (w : MWorld K n) (k : Fin n) : Option (MWorld K n × Bool × QP K) :=
  ((w.view k).solve env).map fun r => (w.put k r.1, r.2.1, r.2.2)

/-- A program start: nothing but default constructed preview systems and controllers and freshly constructed
constraints and costs (as in `World.Init`). src/LMPC.cpp 50-54, src/InitialStateLMPC.cpp 15-18 for the controllers. -/
def Init (w : MWorld K n) : Prop :=
  (∀ p, w.pss p = PreviewSystem.default) ∧ (∀ i, World.FreshConstr (w.cons i)) ∧
  (∀ i, World.FreshCost (w.costs i)) ∧ ∀ k, ∃ b s, w.ctls k = LMPC.construct b s

/-- States reachable from a program start by any interleaving of API calls on the controllers and shared objects;
exceptions are caught by the client. (Client programs, not code of the library.) -/
inductive Reachable (dmax : K) : MWorld K n → Prop
  | start {w} : Init w → Reachable dmax w
  | ok {w w' k op} : Reachable dmax w → w.step dmax k op = .ok w' → Reachable dmax w'
  | thrown {w w' k op e} : Reachable dmax w → w.step dmax k op = .thrown e w' → Reachable dmax w'

end MWorld
end Copra
