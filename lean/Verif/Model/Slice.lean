import Verif.Model.LMPC

/-! # An `InitialStateLMPC` moved into an `LMPC`

`LMPC l(std::move(i))` and `l = std::move(i)` with an `InitialStateLMPC i` compile: `i` binds to the `LMPC&&` parameter of
the defaulted move operations (include/LMPC.h 53, 55), which move the members of `LMPC` and nothing else. -/

namespace Copra

/-- The `LMPC` that results from moving the `LMPC` part of `l`: all members of `LMPC` (include/LMPC.h 173-190) as they were —
with the matrices and vectors still sized for the joint problem of src/InitialStateLMPC.cpp 52-75 —, without the members
of `InitialStateLMPC` (include/InitialStateLMPC.h 38-41), and with the virtual functions of `LMPC`. -/
def LMPC.slice {K : Type} [Zero K] [One K] [Add K] [Sub K] [Neg K] [Mul K] [Arith K] (l : LMPC K) : LMPC K :=
  { l with
    isInit := false
    R := Mat.empty
    r := Vec.zero 0
    x0lb := Vec.nil
    x0ub := Vec.nil }

/-- The program after the move, seen from the new controller.  (The moved-from controller holds no `shared_ptr` any more,
so reference counts are those of the program before.) include/LMPC.h 53. -/
def World.slice {K : Type} [Zero K] [One K] [Add K] [Sub K] [Neg K] [Mul K] [Arith K] (w : World K) : World K :=
  { w with ctl := w.ctl.slice }

end Copra
