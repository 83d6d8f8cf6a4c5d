import Verif.Model.Multi

/-! # Controllers that are moved and destroyed

include/LMPC.h 51-55 declares the move constructor, the move assignment and the destructor of `LMPC` as defaulted
(`InitialStateLMPC` has the implicit ones).  A program owns `n` places (variables, elements of containers, ...), each of
which holds a controller or not. -/

namespace Copra

/-- What the defaulted move constructor / move assignment (include/LMPC.h 53, 55) leaves behind: `shared_ptr`,
`unique_ptr`, vectors and Eigen matrices are empty, `int`s and durations (include/LMPC.h 164-165, 189-190) keep their
values.  (For `std::vector` the standard promises emptiness only after move construction; every implementation also empties
the source of a move assignment between equal allocators.) -/
def LMPC.movedFrom {K : Type} [Zero K] [One K] [Add K] [Sub K] [Neg K] [Mul K] [Arith K] (l : LMPC K) : LMPC K :=
  { l with
    ps := none
    sol := none
    spCost := []
    spConstr := []
    spEqConstr := []
    spIneqConstr := []
    spBoundConstr := []
    Q := Mat.empty
    c := Vec.zero 0
    Aineq := Mat.empty
    bineq := Vec.nil
    Aeq := Mat.empty
    beq := Vec.nil
    lb := Vec.nil
    ub := Vec.nil
    trajectory := Vec.zero 0
    control := Vec.zero 0
    R := Mat.empty
    r := Vec.zero 0
    x0lb := Vec.nil
    x0ub := Vec.nil }

/-- A program with `n` places for controllers; `alive k` tells that place `k` holds a controller that was constructed or
moved into and since then neither destroyed nor moved away.  (Places with `alive k = false` still have content in `w`.)
(A client program; lifetimes of the objects of include/LMPC.h 36-191.) -/
structure LWorld (K : Type) (n : Nat) where
  w : MWorld K n
  alive : Fin n → Bool

/-- What the program does next. Constructors, moves and destructor: include/LMPC.h 43-55. -/
inductive LOp (K : Type) (n : Nat) where
  /-- an API call on the controller in place `k` (`k` is irrelevant for calls on objects), or its construction -/
  | call (k : Fin n) (op : Op K)
  /-- `LMPC j(std::move(k))` or `j = std::move(k)` for two places of the same type -/
  | move (j k : Fin n)
  /-- end of the lifetime of the controller in place `k` -/
  | destroy (k : Fin n)

namespace LWorld
variable {K : Type} [Zero K] [One K] [Add K] [Sub K] [Neg K] [Mul K] [Arith K] {n : Nat}

/-- The call constructs a controller. src/LMPC.cpp 50-60, src/InitialStateLMPC.cpp 15-28. -/
def Creates : Op K → Bool
  | .construct _ _ | .constructPs _ _ _ _ => true
  | _ => false

/-- Execute one step. Moves and destruction: include/LMPC.h 51-55. -/
def step (dmax : K) (w : LWorld K n) : LOp K n → Res (LWorld K n)
  | .call k op => (w.w.step dmax k op).map fun v => ⟨v, fun i => w.alive i || (decide (i = k) && Creates op)⟩
  | .move j k => .ok
    ⟨{ w.w with ctls := fun i => if i = j then w.w.ctls k else if i = k then (w.w.ctls k).movedFrom else w.w.ctls i },
      fun i => if i = j then true else if i = k then false else w.alive i⟩
  | .destroy k => .ok
    ⟨{ w.w with ctls := fun i => if i = k then (w.w.ctls k).movedFrom else w.w.ctls i },
      fun i => if i = k then false else w.alive i⟩

/-- A program start: as in `MWorld.Init`, but places may also be empty (holding no `shared_ptr`).
src/LMPC.cpp 50-54, src/InitialStateLMPC.cpp 15-18 for the controllers. -/
def Init (w : LWorld K n) : Prop :=
  (∀ p, w.w.pss p = PreviewSystem.default) ∧ (∀ i, World.FreshConstr (w.w.cons i)) ∧
  (∀ i, World.FreshCost (w.w.costs i)) ∧ ∀ k,
    (w.alive k = true ∧ ∃ b s, w.w.ctls k = LMPC.construct b s) ∨ (w.alive k = false ∧ w.w.ctls k = (w.w.ctls k).movedFrom)

end LWorld
end Copra
