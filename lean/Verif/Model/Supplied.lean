import Verif.Model.Fields

/-! # Model of prediction matrices supplied by the user

`Phi`, `Psi`, `xi` and `isUpdated` are public data members too (include/PreviewSystem.h 54, 65-67; writable from Python,
binding/python/CopraBindings.cpp 105-119).  `LMPC::updateSystem` recomputes them only `if(!ps_->isUpdated)`
(src/LMPC.cpp 233-235, modelled by `World.updateSystem`), so a program that assigns its own matrices and sets
`isUpdated = true` makes every later solve use them: the way to control a time-varying system with copra.

Not modelled: assignments to the dimensions (`nrUStep`, ..., `fullUDim`), which `system` owns. -/

namespace Copra

/-- An API call or an assignment to one public data member of a preview system, prediction matrices included
(include/PreviewSystem.h 54, 61-67). -/
inductive SOp (K : Type) where
  /-- any call of `Op`, or an assignment to `A`, `B`, `d`, `x0` or `isUpdated = false` -/
  | other (op : FOp K)
  /-- `ps->Phi = M` -/
  | writePhi (p : Nat) (M : Mat K)
  /-- `ps->Psi = M` -/
  | writePsi (p : Nat) (M : Mat K)
  /-- `ps->xi = v` -/
  | writeXi (p : Nat) (v : Vec K)
  /-- `ps->isUpdated = true` -/
  | markUpdated (p : Nat)

namespace World
variable {K : Type} [Zero K] [One K] [Add K] [Sub K] [Neg K] [Mul K] [Arith K]

/-- Execute one API call or assignment (include/PreviewSystem.h 54, 65-67 for the assignments). -/
def sstep (dmax : K) (w : World K) : SOp K → Res (World K)
  | .other op => w.fstep dmax op
  | .writePhi p M => .ok { w with pss := upd w.pss p { w.pss p with Phi := M } }
  | .writePsi p M => .ok { w with pss := upd w.pss p { w.pss p with Psi := M } }
  | .writeXi p v => .ok { w with pss := upd w.pss p { w.pss p with xi := v } }
  | .markUpdated p => .ok { w with pss := upd w.pss p { w.pss p with isUpdated := true } }

end World
end Copra
