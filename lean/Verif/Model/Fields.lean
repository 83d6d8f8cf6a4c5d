import Verif.Model.LMPC

/-! # Model of direct assignments to the public data members of `PreviewSystem`

`PreviewSystem` is a `struct` whose data members are public (include/PreviewSystem.h 54-67) and writable from Python
(binding/python/CopraBindings.cpp 105-119).  `Op.setDynamics` models the documented way of changing the dynamics in
place, all three matrices and `isUpdated = false` at once; here every assignment is an operation of its own, so that
programs may write some of the matrices, write them while the prediction matrices are up to date, forget
`isUpdated = false`, or solve in between.

Assignments to `Phi`, `Psi`, `xi` and `isUpdated = true` are in Model/Supplied.  Not modelled: assignments to the
dimensions (`nrUStep`, ..., `fullUDim`), which `system` owns. -/

namespace Copra

/-- An API call, or an assignment to one public data member of a preview system
(include/PreviewSystem.h 54, 61-64). -/
inductive FOp (K : Type) where
  /-- any call of `Op` -/
  | call (op : Op K)
  /-- `ps->A = A` -/
  | writeA (p : Nat) (A : Mat K)
  /-- `ps->B = B` -/
  | writeB (p : Nat) (B : Mat K)
  /-- `ps->d = d` -/
  | writeD (p : Nat) (d : Vec K)
  /-- `ps->x0 = x` -/
  | writeX0 (p : Nat) (x : Vec K)
  /-- `ps->isUpdated = false` -/
  | markStale (p : Nat)

namespace World
variable {K : Type} [Zero K] [One K] [Add K] [Sub K] [Neg K] [Mul K] [Arith K]

/-- Execute one API call or assignment (include/PreviewSystem.h 54, 61-64 for the assignments). -/
def fstep (dmax : K) (w : World K) : FOp K → Res (World K)
  | .call op => w.step dmax op
  | .writeA p A => .ok { w with pss := upd w.pss p { w.pss p with A := A } }
  | .writeB p B => .ok { w with pss := upd w.pss p { w.pss p with B := B } }
  | .writeD p d => .ok { w with pss := upd w.pss p { w.pss p with d := d } }
  | .writeX0 p x => .ok { w with pss := upd w.pss p { w.pss p with x0 := x } }
  | .markStale p => .ok { w with pss := upd w.pss p { w.pss p with isUpdated := false } }

end World
end Copra
