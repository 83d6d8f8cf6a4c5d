import Verif.Eigen

/-! # Model of `src/PreviewSystem.cpp` / `include/PreviewSystem.h` -/

namespace Copra

/-- `struct PreviewSystem`, include/PreviewSystem.h 22-68.  The `int` dimensions are natural numbers
(they are never negative: they start at 0 and are only assigned by `system`). -/
structure PreviewSystem (K : Type) where
  isUpdated : Bool
  nrUStep : Nat
  nrXStep : Nat
  xDim : Nat
  uDim : Nat
  fullXDim : Nat
  fullUDim : Nat
  x0 : Vec K
  A : Mat K
  B : Mat K
  d : Vec K
  Phi : Mat K
  Psi : Mat K
  xi : Vec K

namespace PreviewSystem
variable {K : Type} [Zero K] [One K] [Add K] [Sub K] [Neg K] [Mul K] [Arith K]

/-- `PreviewSystem() = default`, include/PreviewSystem.h 24, 54-67. -/
def default : PreviewSystem K where
  isUpdated := false
  nrUStep := 0
  nrXStep := 0
  xDim := 0
  uDim := 0
  fullXDim := 0
  fullUDim := 0
  x0 := Vec.zero 0
  A := Mat.empty
  B := Mat.empty
  d := Vec.zero 0
  Phi := Mat.empty
  Psi := Mat.empty
  xi := Vec.zero 0

/-- The part of `PreviewSystem::system` after the checks, src/PreviewSystem.cpp 35-54.
`resize` followed by `setZero` is `Mat.zero`.  The four `int` results (`numberOfSteps + 1`, the two
casts and the two products) are checked against `INT_MAX`; overflow is undefined (`none`). -/
def systemBody (state control : Mat K) (bias xInit : Vec K) (n : Nat) : Option (PreviewSystem K) := do
  let nrX ← chkInt (n + 1)
  let xDim ← chkInt state.cols
  let uDim ← chkInt control.cols
  let fullXDim ← chkInt (xDim * nrX)
  let fullUDim ← chkInt (uDim * n)
  let Phi ← (Mat.zero fullXDim xDim).setBlock? 0 0 xDim xDim (Mat.identity xDim xDim)
  return {
    isUpdated := false
    nrUStep := n
    nrXStep := nrX
    xDim := xDim
    uDim := uDim
    fullXDim := fullXDim
    fullUDim := fullUDim
    x0 := xInit
    A := state
    B := control
    d := bias
    Phi := Phi
    Psi := Mat.zero fullXDim fullUDim
    xi := Vec.zero fullXDim }

/-- `PreviewSystem::system`, src/PreviewSystem.cpp 16-55: the five checks of lines 19-33 in order,
then the assignments.  `numberOfSteps` is an `int`, hence `Int`. -/
def system (ps : PreviewSystem K) (state control : Mat K) (bias xInit : Vec K) (numberOfSteps : Int) :
    Res (PreviewSystem K) :=
  if xInit.rows ≠ state.rows then .thrown .domainError ps
  else if state.rows ≠ state.cols then .thrown .domainError ps
  else if xInit.rows ≠ control.rows then .thrown .domainError ps
  else if xInit.rows ≠ bias.rows then .thrown .domainError ps
  else if numberOfSteps ≤ 0 then .thrown .domainError ps
  else Res.ofOption (systemBody state control bias xInit numberOfSteps.toNat)

/-- `PreviewSystem(state, control, bias, xInit, numberOfSteps)`, src/PreviewSystem.cpp 10-14. -/
def construct (state control : Mat K) (bias xInit : Vec K) (numberOfSteps : Int) :
    Res (PreviewSystem K) :=
  default.system state control bias xInit numberOfSteps

/-- Inner loop body of `updateSystem`, src/PreviewSystem.cpp 66-68:
copy the block one row up and one column left. -/
def updatePsiShift (xDim uDim i j : Nat) (Psi : Mat K) : Option (Mat K) := do
  let S ← Psi.block? ((i - 1) * xDim) ((j - 1) * uDim) xDim uDim
  Psi.setBlock? (i * xDim) (j * uDim) xDim uDim S

/-- Outer loop body of `updateSystem`, src/PreviewSystem.cpp 63-71. -/
def updateStep (i : Nat) (ps : PreviewSystem K) : Option (PreviewSystem K) := do
  let P ← ps.Phi.block? ((i - 1) * ps.xDim) 0 ps.xDim ps.xDim
  let AP ← ps.A.mul? P
  let Phi ← ps.Phi.setBlock? (i * ps.xDim) 0 ps.xDim ps.xDim AP
  let S ← ps.Psi.block? ((i - 1) * ps.xDim) 0 ps.xDim ps.uDim
  let AS ← ps.A.mul? S
  let Psi ← ps.Psi.setBlock? (i * ps.xDim) 0 ps.xDim ps.uDim AS
  let Psi ← loop 1 i (updatePsiShift ps.xDim ps.uDim i) Psi
  let s ← ps.xi.segment? ((i - 1) * ps.xDim) ps.xDim
  let As ← ps.A.mulVec? s
  let Asd ← As.add? ps.d
  let xi ← ps.xi.setSegment? (i * ps.xDim) ps.xDim Asd
  return { ps with Phi := Phi, Psi := Psi, xi := xi }

/-- `PreviewSystem::updateSystem`, src/PreviewSystem.cpp 57-74. -/
def updateSystem (ps : PreviewSystem K) : Option (PreviewSystem K) := do
  let Phi ← ps.Phi.setBlock? ps.xDim 0 ps.xDim ps.xDim ps.A
  let Psi ← ps.Psi.setBlock? ps.xDim 0 ps.xDim ps.uDim ps.B
  let xi ← ps.xi.setSegment? ps.xDim ps.xDim ps.d
  let ps ← loop 2 ps.nrXStep updateStep { ps with Phi := Phi, Psi := Psi, xi := xi }
  return { ps with isUpdated := true }

/-- `PreviewSystem::xInit`, include/PreviewSystem.h 52 (no dimension check, `isUpdated` untouched). -/
def setXInit (ps : PreviewSystem K) (x : Vec K) : PreviewSystem K := { ps with x0 := x }

/-- Direct assignment of the public fields `A`, `B`, `d` followed by `isUpdated = false`, the
documented way to change the dynamics in place (include/PreviewSystem.h 54, 62-64). -/
def setDynamics (ps : PreviewSystem K) (A B : Mat K) (d : Vec K) : PreviewSystem K :=
  { ps with A := A, B := B, d := d, isUpdated := false }

end PreviewSystem
end Copra
