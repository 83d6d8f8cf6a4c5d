import Verif.Model.PreviewSystem
import Verif.Model.AutoSpan

/-! # Model of `src/costFunctions.cpp` / `include/costFunctions.h`

The four concrete cost classes; user-defined subclasses of `CostFunction` are in Model/UserDefined.lean.
A cost object is one record holding the union of the members of the four classes, tagged by class. -/

namespace Copra

/-- The dynamic class of a cost object. The four classes of include/costFunctions.h 103, 133, 162, 192. -/
inductive CostKind where
  | trajectory
  | target
  | control
  | mixed
  deriving DecidableEq, Repr

/-- A cost object: members of `CostFunction` (include/costFunctions.h 89-97) and of the four
subclasses (124-127, 153-156, 183-186, 215-219).  `name_` is modelled in Model/Warnings.lean. -/
structure Cost (K : Type) where
  kind : CostKind
  fullSizeEntry : Bool
  M : Mat K
  N : Mat K
  p : Vec K
  weights : Vec K
  Q : Mat K
  c : Vec K
  E : Mat K
  f : Vec K

namespace Cost
variable {K : Type} [Zero K] [One K] [Add K] [Sub K] [Neg K] [Mul K] [Arith K]

/-- The four constructors, include/costFunctions.h 112-118, 142-148, 171-177, 202-209: `weights_` is
all ones, with as many entries as `p`. -/
def construct (k : CostKind) (M N : Mat K) (p : Vec K) : Cost K where
  kind := k
  fullSizeEntry := false
  M := M
  N := N
  p := p
  weights := Vec.const p.rows 1
  Q := Mat.empty
  c := Vec.zero 0
  E := Mat.empty
  f := Vec.zero 0

/-- `TrajectoryCost(M, p)`. include/costFunctions.h 111-118. -/
def mkTrajectory (M : Mat K) (p : Vec K) : Cost K := construct .trajectory M Mat.empty p
/-- `TargetCost(M, p)`. include/costFunctions.h 141-148. -/
def mkTarget (M : Mat K) (p : Vec K) : Cost K := construct .target M Mat.empty p
/-- `ControlCost(N, p)`. include/costFunctions.h 170-177. -/
def mkControl (N : Mat K) (p : Vec K) : Cost K := construct .control Mat.empty N p
/-- `MixedCost(M, N, p)`. include/costFunctions.h 201-209. -/
def mkMixed (M N : Mat K) (p : Vec K) : Cost K := construct .mixed M N p

/-! ## weights -/

/-- `weights(w)`, include/costFunctions.h 54-67.  `weights_.rows() % w.rows()` with an empty `w` is
an integer division by zero (reached only if `weights_` is not empty). -/
def setWeights (c : Cost K) (w : Vec K) : Res (Cost K) :=
  if w.rows = c.weights.rows then .ok { c with weights := w }
  else if w.rows = 0 then .ub
  else if c.weights.rows % w.rows = 0 then
    Res.ofOption <| (loop 0 (c.weights.rows / w.rows)
      (fun i v => v.setSegment? (i * w.rows) w.rows w) c.weights).map
      fun v => { c with weights := v }
  else .thrown .domainError c

/-- `weight(w)`, include/costFunctions.h 72-76. -/
def setWeight (c : Cost K) (w : K) : Cost K := { c with weights := Vec.const c.weights.rows w }

/-! ## autoSpan -/

/-- `TrajectoryCost::autoSpan`, src/costFunctions.cpp 36-42. -/
def autoSpanTrajectory (junk : Junk K) (c : Cost K) : Res (Cost K) :=
  let maxDim := max c.M.rows (max c.weights.rows c.p.rows)
  ((AutoSpan.spanMatrix c.M maxDim).map fun M => { c with M := M }).andThen fun c =>
  ((AutoSpan.spanVector (junk.v 0) c.p maxDim).map fun p => { c with p := p }).andThen fun c =>
  (AutoSpan.spanVector (junk.v 1) c.weights maxDim).map fun w => { c with weights := w }

/-- `ControlCost::autoSpan`, src/costFunctions.cpp 114-120. -/
def autoSpanControl (junk : Junk K) (c : Cost K) : Res (Cost K) :=
  let maxDim := max c.N.rows (max c.weights.rows c.p.rows)
  ((AutoSpan.spanMatrix c.N maxDim).map fun N => { c with N := N }).andThen fun c =>
  ((AutoSpan.spanVector (junk.v 0) c.p maxDim).map fun p => { c with p := p }).andThen fun c =>
  (AutoSpan.spanVector (junk.v 1) c.weights maxDim).map fun w => { c with weights := w }

/-- `MixedCost::autoSpan`, src/costFunctions.cpp 164-171. -/
def autoSpanMixed (junk : Junk K) (c : Cost K) : Res (Cost K) :=
  let maxDim := max c.M.rows (max c.N.rows (max c.weights.rows c.p.rows))
  ((AutoSpan.spanMatrix c.M maxDim 1).map fun M => { c with M := M }).andThen fun c =>
  ((AutoSpan.spanMatrix c.N maxDim).map fun N => { c with N := N }).andThen fun c =>
  ((AutoSpan.spanVector (junk.v 0) c.p maxDim).map fun p => { c with p := p }).andThen fun c =>
  (AutoSpan.spanVector (junk.v 1) c.weights maxDim).map fun w => { c with weights := w }

/-- Virtual call `autoSpan()`; `TargetCost` inherits the empty `CostFunction::autoSpan`,
src/costFunctions.cpp 20-22. -/
def autoSpan (junk : Junk K) (c : Cost K) : Res (Cost K) :=
  match c.kind with
  | .trajectory => c.autoSpanTrajectory junk
  | .target => .ok c
  | .control => c.autoSpanControl junk
  | .mixed => c.autoSpanMixed junk

/-! ## initializeCost -/

/-- `CostFunction::initializeCost`, src/costFunctions.cpp 24-30. -/
def allocBase (junk : Junk K) (ps : PreviewSystem K) (c : Cost K) : Cost K :=
  { c with
    Q := Mat.resize ps.fullUDim ps.fullUDim (junk.m 0)
    c := Vec.resize ps.fullUDim (junk.v 0)
    E := Mat.resize ps.xDim ps.fullUDim (junk.m 1)
    f := Vec.resize ps.fullUDim (junk.v 1) }

/-- The four `setZero()` of src/costFunctions.cpp 52-55, 184-187. -/
def zeroAll (c : Cost K) : Cost K :=
  { c with
    Q := Mat.zero c.Q.rows c.Q.cols
    c := Vec.zero c.c.rows
    E := Mat.zero c.E.rows c.E.cols
    f := Vec.zero c.f.rows }

/-- `TrajectoryCost::initializeCost`, src/costFunctions.cpp 44-61. -/
def initTrajectory (junk : Junk K) (ps : PreviewSystem K) (c : Cost K) : Res (Cost K) :=
  let c := c.allocBase junk ps
  if c.M.rows ≠ c.p.rows then .thrown .domainError c
  else if c.M.cols = ps.xDim then .ok c.zeroAll
  else if c.M.cols = ps.fullXDim then .ok { c with fullSizeEntry := true }
  else .thrown .domainError c

/-- `TargetCost::initializeCost`, src/costFunctions.cpp 88-98. -/
def initTarget (junk : Junk K) (ps : PreviewSystem K) (c : Cost K) : Res (Cost K) :=
  let c := c.allocBase junk ps
  if c.M.rows ≠ c.p.rows then .thrown .domainError c
  else if c.M.cols ≠ ps.xDim then .thrown .domainError c
  else .ok c

/-- `ControlCost::initializeCost`, src/costFunctions.cpp 122-137. -/
def initControl (junk : Junk K) (ps : PreviewSystem K) (c : Cost K) : Res (Cost K) :=
  let c := c.allocBase junk ps
  if c.N.rows ≠ c.p.rows then .thrown .domainError c
  else if c.N.cols = ps.uDim then
    .ok { c with Q := Mat.zero c.Q.rows c.Q.cols, E := Mat.zero c.E.rows c.E.cols }
  else if c.N.cols = ps.fullUDim then .ok { c with fullSizeEntry := true }
  else .thrown .domainError c

/-- `MixedCost::initializeCost`, src/costFunctions.cpp 173-193. -/
def initMixed (junk : Junk K) (ps : PreviewSystem K) (c : Cost K) : Res (Cost K) :=
  let c := c.allocBase junk ps
  if c.M.rows ≠ c.p.rows then .thrown .domainError c
  else if c.N.rows ≠ c.p.rows then .thrown .domainError c
  else if c.M.cols = ps.xDim ∧ c.N.cols = ps.uDim then .ok c.zeroAll
  else if c.M.cols = ps.fullXDim ∧ c.N.cols = ps.fullUDim then .ok { c with fullSizeEntry := true }
  else .thrown .domainError c

/-- Virtual call `initializeCost(ps)`. include/costFunctions.h 42, overridden at 121, 150, 181, 213. -/
def initializeCost (junk : Junk K) (ps : PreviewSystem K) (c : Cost K) : Res (Cost K) :=
  match c.kind with
  | .trajectory => c.initTrajectory junk ps
  | .target => c.initTarget junk ps
  | .control => c.initControl junk ps
  | .mixed => c.initMixed junk ps

/-! ## update -/

/-- `S.transpose() * weights_.asDiagonal() * T`.
src/costFunctions.cpp 67, 69, 75, 77, 103, 105, 142, 148, 199, 201, 208, 210. -/
def wquad (S : Mat K) (w : Vec K) (T : Mat K) : Option (Mat K) := do
  let SW ← S.transpose.mulDiag? w
  SW.mul? T

/-- `v.transpose() * weights_.asDiagonal() * T`, as a column vector.
src/costFunctions.cpp 70, 78, 106, 145, 149, 202, 211. -/
def wlin (v : Vec K) (w : Vec K) (T : Mat K) : Option (Vec K) := do
  let vw ← v.cmul? w
  Mat.vecMul? vw T

/-- The three products common to all costs that involve the state: with `tmp` the matrix in front of
`U`, `Phi` and `xi` the relevant rows of the prediction,
`Q = tmp' W tmp`, `E = (M Phi)' W tmp`, `f = (M xi - p)' W tmp`
(src/costFunctions.cpp 67-70, 75-78, 103-106, 199-202, 208-211). -/
def terms (c : Cost K) (tmp Phi : Mat K) (xi : Vec K) : Option (Mat K × Mat K × Vec K) := do
  let Q ← wquad tmp c.weights tmp
  let MPhi ← c.M.mul? Phi
  let E ← wquad MPhi c.weights tmp
  let Mxi ← c.M.mulVec? xi
  let Mxip ← Mxi.sub? c.p
  let f ← wlin Mxip c.weights tmp
  return (Q, E, f)

/-- `E_.transpose() * ps.x0 + f_`. src/costFunctions.cpp 71, 80, 107, 203, 213. -/
def linPart (ps : PreviewSystem K) (c : Cost K) : Option (Vec K) := do
  let Ex ← c.E.transpose.mulVec? ps.x0
  Ex.add? c.f

/-- `Q_ = ...; E_ = ...; f_ = ...; c_ = E_.transpose() * ps.x0 + f_`
(src/costFunctions.cpp 67-71, 103-107, 199-203). -/
def assignTerms (ps : PreviewSystem K) (c : Cost K) (tmp Phi : Mat K) (xi : Vec K) :
    Option (Cost K) := do
  let (Q, E, f) ← c.terms tmp Phi xi
  let c := { c with Q := Q, E := E, f := f }
  let l ← c.linPart ps
  return { c with c := l }

/-- `Q_ += ...; E_ += ...; f_ += ...` (src/costFunctions.cpp 75-78, 208-211). -/
def accumTerms (c : Cost K) (tmp Phi : Mat K) (xi : Vec K) : Option (Cost K) := do
  let (dQ, dE, df) ← c.terms tmp Phi xi
  let Q ← c.Q.add? dQ
  let E ← c.E.add? dE
  let f ← c.f.add? df
  return { c with Q := Q, E := E, f := f }

/-- Loop body of the per-step `TrajectoryCost::update`, src/costFunctions.cpp 73-79. -/
def updateTrajectoryStep (ps : PreviewSystem K) (i : Nat) (c : Cost K) : Option (Cost K) := do
  let S ← ps.Psi.block? (i * ps.xDim) 0 ps.xDim ps.fullUDim
  let tmp ← c.M.mul? S
  let P ← ps.Phi.block? (i * ps.xDim) 0 ps.xDim ps.xDim
  let s ← ps.xi.segment? (i * ps.xDim) ps.xDim
  c.accumTerms tmp P s

/-- `TrajectoryCost::update`, src/costFunctions.cpp 63-82. -/
def updateTrajectory (ps : PreviewSystem K) (c : Cost K) : Option (Cost K) :=
  if c.fullSizeEntry then do
    let tmp ← c.M.mul? ps.Psi
    c.assignTerms ps tmp ps.Phi ps.xi
  else do
    let c ← loop 0 ps.nrXStep (updateTrajectoryStep ps) c
    let l ← c.linPart ps
    return { c with c := l }

/-- `bottomRows(n)`. src/costFunctions.cpp 102, 105. -/
def bottomRows? (A : Mat K) (n : Nat) : Option (Mat K) :=
  if n ≤ A.rows then A.block? (A.rows - n) 0 n A.cols else none

/-- `bottomRows(n)` of a vector. src/costFunctions.cpp 106. -/
def bottomSeg? (v : Vec K) (n : Nat) : Option (Vec K) :=
  if n ≤ v.rows then v.segment? (v.rows - n) n else none

/-- `TargetCost::update`, src/costFunctions.cpp 100-108. -/
def updateTarget (ps : PreviewSystem K) (c : Cost K) : Option (Cost K) := do
  let S ← bottomRows? ps.Psi ps.xDim
  let tmp ← c.M.mul? S
  let P ← bottomRows? ps.Phi ps.xDim
  let s ← bottomSeg? ps.xi ps.xDim
  c.assignTerms ps tmp P s

/-- Loop body of the per-step `ControlCost::update`, src/costFunctions.cpp 150-156. -/
def updateControlStep (ps : PreviewSystem K) (mat : Mat K) (vec : Vec K) (i : Nat) (c : Cost K) :
    Option (Cost K) := do
  let Q ← c.Q.setBlock? (i * ps.uDim) (i * ps.uDim) ps.uDim ps.uDim mat
  let E ← c.E.setBlock? 0 (i * ps.uDim) ps.xDim ps.uDim (Mat.zero ps.xDim ps.uDim)
  let f ← c.f.setSegment? (i * ps.uDim) ps.uDim vec
  let fi ← f.segment? (i * ps.uDim) ps.uDim
  let cc ← c.c.setSegment? (i * ps.uDim) ps.uDim fi
  return { c with Q := Q, E := E, f := f, c := cc }

/-- `ControlCost::update`, src/costFunctions.cpp 139-158. -/
def updateControl (ps : PreviewSystem K) (c : Cost K) : Option (Cost K) :=
  if c.fullSizeEntry then do
    let Q ← wquad c.N c.weights c.N
    let f ← wlin c.p.neg c.weights c.N
    return { c with Q := Q, E := Mat.zero c.E.rows c.E.cols, f := f, c := f }
  else do
    let mat ← wquad c.N c.weights c.N
    let vec ← wlin c.p.neg c.weights c.N
    loop 0 ps.nrUStep (updateControlStep ps mat vec) c

/-- Loop body of the per-step `MixedCost::update`, src/costFunctions.cpp 205-212. -/
def updateMixedStep (ps : PreviewSystem K) (i : Nat) (c : Cost K) : Option (Cost K) := do
  let S ← ps.Psi.block? (i * ps.xDim) 0 ps.xDim ps.fullUDim
  let tmp ← c.M.mul? S
  let tmp ← tmp.addBlock? 0 (i * ps.uDim) c.M.rows ps.uDim c.N
  let P ← ps.Phi.block? (i * ps.xDim) 0 ps.xDim ps.xDim
  let s ← ps.xi.segment? (i * ps.xDim) ps.xDim
  c.accumTerms tmp P s

/-- `MixedCost::update`, src/costFunctions.cpp 195-215.  Note `c_ +=` at line 213. -/
def updateMixed (ps : PreviewSystem K) (c : Cost K) : Option (Cost K) :=
  if c.fullSizeEntry then do
    let MPsi ← c.M.mul? ps.Psi
    let tmp ← MPsi.add? c.N
    c.assignTerms ps tmp ps.Phi ps.xi
  else do
    let c ← loop 0 ps.nrUStep (updateMixedStep ps) c
    let l ← c.linPart ps
    let cc ← c.c.add? l
    return { c with c := cc }

/-- Virtual call `update(ps)`. include/costFunctions.h 47, overridden at 122, 151, 180, 212. -/
def update (ps : PreviewSystem K) (c : Cost K) : Option (Cost K) :=
  match c.kind with
  | .trajectory => c.updateTrajectory ps
  | .target => c.updateTarget ps
  | .control => c.updateControl ps
  | .mixed => c.updateMixed ps

end Cost
end Copra
