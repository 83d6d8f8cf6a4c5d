import Verif.Eigen

/-! # Model of `src/AutoSpan.cpp`

`new_dim` and `addCols` are natural numbers here (negative values are not modelled; inside copra
`new_dim` is always a maximum of row counts and `addCols` is 0 or 1).  The `int` loop counter is
not checked for overflow (it would need a matrix with more than `INT_MAX` rows). -/

namespace Copra.AutoSpan
variable {K α : Type}

/-- `AutoSpan::spanMatrix`, src/AutoSpan.cpp 10-28.  `new_dim / matRows` with `matRows = 0` is an
integer division by zero: undefined. -/
def spanMatrix [Zero K] (mat : Mat K) (newDim : Nat) (addCols : Nat := 0) : Res (Mat K) :=
  if newDim = mat.rows then .ok mat
  else if mat.rows = 0 then .ub
  else
    let nrStep := newDim / mat.rows
    if nrStep * mat.rows ≠ newDim then .thrown .domainError mat
    else Res.ofOption <|
      loop 0 nrStep (fun i m => m.setBlock? (i * mat.rows) (i * mat.cols) mat.rows mat.cols mat)
        (Mat.zero newDim (mat.cols * (nrStep + addCols)))

/-- `AutoSpan::spanVector`, src/AutoSpan.cpp 30-47.  `conservativeResize` keeps the old entries and
leaves the new ones uninitialised (`junk`). -/
def spanVector (junk : Nat → α) (vec : Vec α) (newDim : Nat) : Res (Vec α) :=
  if newDim = vec.rows then .ok vec
  else if vec.rows = 0 then .ub
  else
    let nrStep := newDim / vec.rows
    if nrStep * vec.rows ≠ newDim then .thrown .domainError vec
    else Res.ofOption <|
      loop 1 nrStep (fun i v => v.setSegment? (i * vec.rows) vec.rows vec)
        ⟨newDim, fun i => if i < vec.rows then vec.e i else junk i⟩

end Copra.AutoSpan
