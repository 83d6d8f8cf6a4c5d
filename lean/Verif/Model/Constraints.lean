import Verif.Model.PreviewSystem
import Verif.Model.AutoSpan

/-! # Model of `src/constraints.cpp` / `include/constraints.h`

The five concrete constraint classes.  User-defined subclasses of `Constraint` are in Model/UserDefined.lean.
A constraint object is one record holding the union of the data members of the five classes, tagged
by its class; every function below dispatches on the tag (virtual call).

`static_cast<int>(rows)` and the products that follow it are checked against `INT_MAX`; beyond it the
outcome is `ub`. -/

namespace Copra

/-- The dynamic class of a constraint object. The five classes of include/constraints.h 114, 149, 186, 228, 272. -/
inductive CKind where
  | trajectory
  | control
  | mixed
  | trajBound
  | ctrlBound
  deriving DecidableEq, Repr

/-- `enum class ConstraintFlag`, include/constraints.h 28-33 (`Constraint` is returned by no class
of the library). -/
inductive CFlag where
  | equality
  | inequality
  | bound
  deriving DecidableEq, Repr

/-- A constraint object: members of `Constraint` (include/constraints.h 75-78), `EqIneqConstraint`
(102-106), `TrajectoryConstraint` (140-141), `ControlConstraint` (176-177), `MixedConstraint`
(217-219), `TrajectoryBoundConstraint` (263-266) and `ControlBoundConstraint` (303-306).
`name_` is modelled in Model/Warnings.lean. -/
structure Constr (K : Type) where
  kind : CKind
  isIneq : Bool
  nrConstr : Nat
  fullSizeEntry : Bool
  hasBeenInitialized : Bool
  E : Mat K
  G : Mat K
  f : Vec (Ext K)
  lower : Vec (Ext K)
  upper : Vec (Ext K)
  lowerLines : List Nat
  upperLines : List Nat
  A : Mat K
  b : Vec (Ext K)
  Y : Mat K
  z : Vec (Ext K)
  lb : Vec (Ext K)
  ub : Vec (Ext K)

/-- The empty vector of a default-constructed `VectorXd`.
Members of include/constraints.h 102-105, 263-264, 303-306 before they are assigned. -/
def Vec.nil {α : Type} [Inhabited α] : Vec α := ⟨0, fun _ => default⟩

instance {K : Type} : Inhabited (Ext K) := ⟨.pinf⟩

/-- The test `v(line) == -infinity()` (negated in include/constraints.h 248). -/
def Ext.isNinf {K : Type} : Ext K → Bool
  | .ninf => true
  | _ => false

/-- The test `v(line) == infinity()` (negated in include/constraints.h 252). -/
def Ext.isPinf {K : Type} : Ext K → Bool
  | .pinf => true
  | _ => false

namespace Constr
variable {K : Type} [Zero K] [One K] [Add K] [Sub K] [Neg K] [Mul K] [Arith K]

/-- Members common to every freshly constructed constraint, src/constraints.cpp 16-32. -/
def fresh (k : CKind) (isIneq : Bool) : Constr K where
  kind := k
  isIneq := isIneq
  nrConstr := 0
  fullSizeEntry := false
  hasBeenInitialized := false
  E := Mat.empty
  G := Mat.empty
  f := Vec.nil
  lower := Vec.nil
  upper := Vec.nil
  lowerLines := []
  upperLines := []
  A := Mat.empty
  b := Vec.nil
  Y := Mat.empty
  z := Vec.nil
  lb := Vec.nil
  ub := Vec.nil

/-- `TrajectoryConstraint(E, f, isInequalityConstraint)`, include/constraints.h 125-130. -/
def mkTrajectory (E : Mat K) (f : Vec (Ext K)) (isIneq : Bool := true) : Constr K :=
  { fresh .trajectory isIneq with E := E, f := f }

/-- `ControlConstraint(G, f, isInequalityConstraint)`, include/constraints.h 161-166. -/
def mkControl (G : Mat K) (f : Vec (Ext K)) (isIneq : Bool := true) : Constr K :=
  { fresh .control isIneq with G := G, f := f }

/-- `MixedConstraint(E, G, f, isInequalityConstraint)`, include/constraints.h 201-207. -/
def mkMixed (E G : Mat K) (f : Vec (Ext K)) (isIneq : Bool := true) : Constr K :=
  { fresh .mixed isIneq with E := E, G := G, f := f }

/-- The loop `for line < v.rows(): if v(line) is not the given infinity, push_back(line)`,
include/constraints.h 247-254. -/
def finiteLines (isInf : Ext K → Bool) (v : Vec (Ext K)) : List Nat :=
  (List.range v.rows).filter fun i => !isInf (v.e i)

/-- `TrajectoryBoundConstraint(lower, upper)`, include/constraints.h 240-255. -/
def mkTrajBound (lower upper : Vec (Ext K)) : Constr K :=
  { fresh .trajBound true with
    lower := lower
    upper := upper
    lowerLines := finiteLines Ext.isNinf lower
    upperLines := finiteLines Ext.isPinf upper }

/-- `ControlBoundConstraint(lower, upper)`, include/constraints.h 284-289 (`isIneq_` is not a member
of this class and is never read). -/
def mkCtrlBound (lower upper : Vec (Ext K)) : Constr K :=
  { fresh .ctrlBound true with lower := lower, upper := upper }

/-- `constraintType()` of the five classes, src/constraints.cpp 86-93, 150-157, 228-235, 317-320,
369-372. -/
def constraintType (c : Constr K) : CFlag :=
  match c.kind with
  | .trajectory | .control | .mixed => if c.isIneq then .inequality else .equality
  | .trajBound => .inequality
  | .ctrlBound => .bound

/-! ## autoSpan -/

/-- `TrajectoryConstraint::autoSpan`, src/constraints.cpp 38-43. -/
def autoSpanTrajectory (junk : Junk K) (c : Constr K) : Res (Constr K) :=
  let maxDim := max c.E.rows c.f.rows
  ((AutoSpan.spanMatrix c.E maxDim).map fun E => { c with E := E }).andThen fun c =>
  (AutoSpan.spanVector (junk.x 0) c.f maxDim).map fun f => { c with f := f }

/-- `ControlConstraint::autoSpan`, src/constraints.cpp 99-104. -/
def autoSpanControl (junk : Junk K) (c : Constr K) : Res (Constr K) :=
  let maxDim := max c.G.rows c.f.rows
  ((AutoSpan.spanMatrix c.G maxDim).map fun G => { c with G := G }).andThen fun c =>
  (AutoSpan.spanVector (junk.x 0) c.f maxDim).map fun f => { c with f := f }

/-- `MixedConstraint::autoSpan`, src/constraints.cpp 163-169. -/
def autoSpanMixed (junk : Junk K) (c : Constr K) : Res (Constr K) :=
  let maxDim := max c.f.rows (max c.E.rows c.G.rows)
  ((AutoSpan.spanMatrix c.E maxDim 1).map fun E => { c with E := E }).andThen fun c =>
  ((AutoSpan.spanMatrix c.G maxDim).map fun G => { c with G := G }).andThen fun c =>
  (AutoSpan.spanVector (junk.x 0) c.f maxDim).map fun f => { c with f := f }

/-- `TrajectoryBoundConstraint::autoSpan`, src/constraints.cpp 241-261.  The two `if`s compare the
row counts with `max_dim` *after* the spans. -/
def autoSpanTrajBound (junk : Junk K) (c : Constr K) : Res (Constr K) :=
  let maxDim := max c.lower.rows c.upper.rows
  ((AutoSpan.spanVector (junk.x 0) c.lower maxDim).map fun v => { c with lower := v }).andThen fun c =>
  ((AutoSpan.spanVector (junk.x 1) c.upper maxDim).map fun v => { c with upper := v }).andThen fun c =>
  let c := if c.lower.rows ≠ maxDim
    then { c with lowerLines := finiteLines Ext.isNinf c.lower } else c
  let c := if c.upper.rows ≠ maxDim
    then { c with upperLines := finiteLines Ext.isPinf c.upper } else c
  .ok c

/-- `ControlBoundConstraint::autoSpan`, src/constraints.cpp 326-331. -/
def autoSpanCtrlBound (junk : Junk K) (c : Constr K) : Res (Constr K) :=
  let maxDim := max c.lower.rows c.upper.rows
  ((AutoSpan.spanVector (junk.x 0) c.lower maxDim).map fun v => { c with lower := v }).andThen fun c =>
  (AutoSpan.spanVector (junk.x 1) c.upper maxDim).map fun v => { c with upper := v }

/-- Virtual call `autoSpan()`. include/constraints.h 56, overridden at 134, 170, 211, 257, 293. -/
def autoSpan (junk : Junk K) (c : Constr K) : Res (Constr K) :=
  match c.kind with
  | .trajectory => c.autoSpanTrajectory junk
  | .control => c.autoSpanControl junk
  | .mixed => c.autoSpanMixed junk
  | .trajBound => c.autoSpanTrajBound junk
  | .ctrlBound => c.autoSpanCtrlBound junk

/-! ## initializeConstraint -/

/-- Common end of the `initializeConstraint` of the trajectory, mixed and trajectory bound
constraints: assign `nrConstr_` (an `int`), then resize `A_`, `b_`, `Y_`, `z_`
(src/constraints.cpp 60-63, 189-192, 278-281). -/
def allocRows (junk : Junk K) (ps : PreviewSystem K) (c : Constr K) (nr : Nat) : Option (Constr K) := do
  let nr ← chkInt nr
  return { c with
    nrConstr := nr
    A := Mat.resize nr ps.fullUDim (junk.m 0)
    b := Vec.resize nr (junk.x 0)
    Y := Mat.resize nr ps.xDim (junk.m 1)
    z := Vec.resize nr (junk.x 1) }

/-- `TrajectoryConstraint::initializeConstraint`, src/constraints.cpp 45-64. -/
def initTrajectory (junk : Junk K) (ps : PreviewSystem K) (c : Constr K) : Res (Constr K) :=
  if c.E.rows ≠ c.f.rows then .thrown .domainError c
  else if c.E.cols = ps.xDim then .ofOption (c.allocRows junk ps (c.E.rows * ps.nrXStep))
  else if c.E.cols = ps.fullXDim then
    .ofOption ({ c with fullSizeEntry := true }.allocRows junk ps c.E.rows)
  else .thrown .domainError c

/-- `ControlConstraint::initializeConstraint`, src/constraints.cpp 106-135.  `A_ = std::move(G_)` and
`b_ = std::move(f_)` swap with the (empty, because never initialised before) `A_` and `b_`. -/
def initControl (junk : Junk K) (ps : PreviewSystem K) (c : Constr K) : Res (Constr K) :=
  if c.hasBeenInitialized then .thrown .runtimeError c
  else if c.G.rows ≠ c.f.rows then .thrown .domainError c
  else if c.G.cols = ps.uDim then .ofOption do
    let nr ← chkInt (c.G.rows * ps.nrUStep)
    let b := Vec.resize nr (junk.x 0)
    return { c with
      nrConstr := nr
      A := Mat.zero nr ps.fullUDim
      b := b
      Y := Mat.zero nr ps.xDim
      z := b
      hasBeenInitialized := true }
  else if c.G.cols = ps.fullUDim then .ofOption do
    let nr ← chkInt c.G.rows
    return { c with
      fullSizeEntry := true
      nrConstr := nr
      A := c.G
      G := c.A
      b := c.f
      f := c.b
      Y := Mat.zero nr ps.xDim
      z := c.f
      hasBeenInitialized := true }
  else .thrown .domainError c

/-- `MixedConstraint::initializeConstraint`, src/constraints.cpp 171-195. -/
def initMixed (junk : Junk K) (ps : PreviewSystem K) (c : Constr K) : Res (Constr K) :=
  if c.E.rows ≠ c.f.rows then .thrown .domainError c
  else if c.G.rows ≠ c.f.rows then .thrown .domainError c
  else if c.E.cols = ps.xDim ∧ c.G.cols = ps.uDim then
    .ofOption do
      let c ← c.allocRows junk ps (c.E.rows * ps.nrUStep)
      return { c with A := Mat.zero c.nrConstr ps.fullUDim, Y := Mat.zero c.nrConstr ps.xDim }
  else if c.E.cols = ps.fullXDim ∧ c.G.cols = ps.fullUDim then
    .ofOption do
      let c ← { c with fullSizeEntry := true }.allocRows junk ps c.E.rows
      return { c with A := Mat.zero c.nrConstr ps.fullUDim, Y := Mat.zero c.nrConstr ps.xDim }
  else .thrown .domainError c

/-- `TrajectoryBoundConstraint::initializeConstraint`, src/constraints.cpp 263-282. -/
def initTrajBound (junk : Junk K) (ps : PreviewSystem K) (c : Constr K) : Res (Constr K) :=
  if c.lower.rows ≠ c.upper.rows then .thrown .domainError c
  else if c.lower.rows = ps.xDim then
    .ofOption (c.allocRows junk ps ((c.lowerLines.length + c.upperLines.length) * ps.nrXStep))
  else if c.lower.rows = ps.fullXDim then
    .ofOption ({ c with fullSizeEntry := true }.allocRows junk ps
      (c.lowerLines.length + c.upperLines.length))
  else .thrown .domainError c

/-- `ControlBoundConstraint::initializeConstraint`, src/constraints.cpp 333-357.  The moves swap with
the empty `lb_`, `ub_`. -/
def initCtrlBound (junk : Junk K) (ps : PreviewSystem K) (c : Constr K) : Res (Constr K) :=
  if c.hasBeenInitialized then .thrown .runtimeError c
  else if c.lower.rows ≠ c.upper.rows then .thrown .domainError c
  else if c.lower.rows = ps.uDim then .ok { c with
      nrConstr := ps.fullUDim
      lb := Vec.resize ps.fullUDim (junk.x 0)
      ub := Vec.resize ps.fullUDim (junk.x 1)
      hasBeenInitialized := true }
  else if c.lower.rows = ps.fullUDim then .ofOption do
    let nr ← chkInt c.lower.rows
    return { c with
      fullSizeEntry := true
      nrConstr := nr
      lb := c.lower
      lower := c.lb
      ub := c.upper
      upper := c.ub
      hasBeenInitialized := true }
  else .thrown .domainError c

/-- Virtual call `initializeConstraint(ps)`. include/constraints.h 61, overridden at 135, 171, 212, 258, 294. -/
def initializeConstraint (junk : Junk K) (ps : PreviewSystem K) (c : Constr K) : Res (Constr K) :=
  match c.kind with
  | .trajectory => c.initTrajectory junk ps
  | .control => c.initControl junk ps
  | .mixed => c.initMixed junk ps
  | .trajBound => c.initTrajBound junk ps
  | .ctrlBound => c.initCtrlBound junk ps

/-! ## update -/

/-- Full-size update of `Y_`, `z_`, `b_` shared by trajectory and mixed constraints,
src/constraints.cpp 71-73, 202-204. -/
def updateFullYzb (ps : PreviewSystem K) (c : Constr K) : Option (Constr K) := do
  let Y ← c.E.mul? ps.Phi
  let Exi ← c.E.mulVec? ps.xi
  let z ← c.f.subFin? Exi
  let Yx ← Y.mulVec? ps.x0
  let b ← z.subFin? Yx
  return { c with Y := Y, z := z, b := b }

/-- Lines `i * nrLines ...` of `Y_`, `z_`, `b_` for step `i`, shared by trajectory and mixed
constraints, src/constraints.cpp 79-81, 216 and 222-223. -/
def updateStepYzb (ps : PreviewSystem K) (i : Nat) (c : Constr K) : Option (Constr K) := do
  let nl := c.E.rows
  let P ← ps.Phi.block? (i * ps.xDim) 0 ps.xDim ps.xDim
  let EP ← c.E.mul? P
  let Y ← c.Y.setBlock? (i * nl) 0 nl ps.xDim EP
  let s ← ps.xi.segment? (i * ps.xDim) ps.xDim
  let Es ← c.E.mulVec? s
  let fEs ← c.f.subFin? Es
  let z ← c.z.setSegment? (i * nl) nl fEs
  let zi ← z.segment? (i * nl) nl
  let Yi ← Y.block? (i * nl) 0 nl ps.xDim
  let Yx ← Yi.mulVec? ps.x0
  let bi ← zi.subFin? Yx
  let b ← c.b.setSegment? (i * nl) nl bi
  return { c with Y := Y, z := z, b := b }

/-- Loop body of the per-step `TrajectoryConstraint::update`, src/constraints.cpp 76-82. -/
def updateTrajectoryStep (ps : PreviewSystem K) (i : Nat) (c : Constr K) : Option (Constr K) := do
  let nl := c.E.rows
  let S ← ps.Psi.block? (i * ps.xDim) 0 ps.xDim ps.fullUDim
  let ES ← c.E.mul? S
  let A ← c.A.setBlock? (i * nl) 0 nl ps.fullUDim ES
  updateStepYzb ps i { c with A := A }

/-- `TrajectoryConstraint::update`, src/constraints.cpp 66-84. -/
def updateTrajectory (ps : PreviewSystem K) (c : Constr K) : Option (Constr K) :=
  if c.fullSizeEntry then do
    let A ← c.E.mul? ps.Psi
    updateFullYzb ps { c with A := A }
  else loop 0 ps.nrXStep (updateTrajectoryStep ps) c

/-- Loop body of the per-step `ControlConstraint::update`, src/constraints.cpp 141-144. -/
def updateControlStep (ps : PreviewSystem K) (i : Nat) (c : Constr K) : Option (Constr K) := do
  let nl := c.G.rows
  let A ← c.A.setBlock? (i * nl) (i * ps.uDim) nl ps.uDim c.G
  let b ← c.b.setSegment? (i * nl) nl c.f
  return { c with A := A, b := b }

/-- `ControlConstraint::update`, src/constraints.cpp 137-148. -/
def updateControl (ps : PreviewSystem K) (c : Constr K) : Option (Constr K) :=
  if c.fullSizeEntry then some c
  else do
    let c ← loop 0 ps.nrUStep (updateControlStep ps) c
    return { c with Y := Mat.zero c.Y.rows c.Y.cols, z := c.b }

/-- Inner loop body of the per-step `MixedConstraint::update`, src/constraints.cpp 217-219. -/
def updateMixedShift (nl uDim i j : Nat) (A : Mat K) : Option (Mat K) := do
  let S ← A.block? ((i - 1) * nl) ((j - 1) * uDim) nl uDim
  A.setBlock? (i * nl) (j * uDim) nl uDim S

/-- Loop body of the per-step `MixedConstraint::update`, src/constraints.cpp 214-224.  `Y_` is
written before the inner loop in the code; the inner loop touches `A_` only. -/
def updateMixedStep (ps : PreviewSystem K) (i : Nat) (c : Constr K) : Option (Constr K) := do
  let nl := c.E.rows
  let S ← ps.Psi.block? (i * ps.xDim) 0 ps.xDim ps.uDim
  let ES ← c.E.mul? S
  let A ← c.A.setBlock? (i * nl) 0 nl ps.uDim ES
  let A ← loop 1 (i + 1) (updateMixedShift nl ps.uDim i) A
  updateStepYzb ps i { c with A := A }

/-- The first lines of the per-step `MixedConstraint::update`, src/constraints.cpp 206-213. -/
def updateMixedFirst (ps : PreviewSystem K) (c : Constr K) : Option (Constr K) := do
  let nl := c.E.rows
  let A ← c.A.setBlock? 0 0 nl ps.uDim c.G
  let Y ← c.Y.setBlock? 0 0 nl ps.xDim c.E
  let z ← c.z.setSegment? 0 nl c.f
  let zi ← z.segment? 0 nl
  let Yi ← Y.block? 0 0 nl ps.xDim
  let Yx ← Yi.mulVec? ps.x0
  let bi ← zi.subFin? Yx
  let b ← c.b.setSegment? 0 nl bi
  return { c with A := A, Y := Y, z := z, b := b }

/-- `MixedConstraint::update`, src/constraints.cpp 197-226. -/
def updateMixed (ps : PreviewSystem K) (c : Constr K) : Option (Constr K) :=
  if c.fullSizeEntry then do
    let EP ← c.E.mul? ps.Psi
    let A ← EP.add? c.G
    updateFullYzb ps { c with A := A }
  else do
    let c ← updateMixedFirst ps c
    loop 1 ps.nrUStep (updateMixedStep ps) c

/-- Body of the innermost loops of `TrajectoryBoundConstraint::update`, src/constraints.cpp 290-295
(with `bound = lower_`) and 304-309 (with `bound = upper_`).  The pair is (`nrLines`, object). -/
def updateTrajBoundLine (ps : PreviewSystem K) (bound : Vec (Ext K)) (step : Nat)
    (s : Nat × Constr K) (line : Nat) : Option (Nat × Constr K) := do
  let (nr, c) := s
  let rPsi ← ps.Psi.row? (line + ps.xDim * step)
  let A ← c.A.setRow? nr rPsi
  let rPhi ← ps.Phi.row? (line + ps.xDim * step)
  let Y ← c.Y.setRow? nr rPhi
  let l ← bound.at? line
  let x ← ps.xi.at? (line + ps.xDim * step)
  let z ← c.z.setAt? nr (l.sub x)
  let zn ← z.at? nr
  let Yr ← Y.row? nr
  let Yx ← Yr.dot? ps.x0
  let b ← c.b.setAt? nr (zn.sub Yx)
  return (nr + 1, { c with A := A, Y := Y, z := z, b := b })

/-- `for (line : lines) ...`, src/constraints.cpp 289-296, 303-310. -/
def updateTrajBoundLines (ps : PreviewSystem K) (bound : Vec (Ext K)) (lines : List Nat) (step : Nat)
    (s : Nat × Constr K) : Option (Nat × Constr K) :=
  lines.foldlM (updateTrajBoundLine ps bound step) s

/-- `TrajectoryBoundConstraint::update`, src/constraints.cpp 284-315.  `if (fullSizeEntry_) break;` at
the end of a loop body leaves at most one iteration. -/
def updateTrajBound (ps : PreviewSystem K) (c : Constr K) : Option (Constr K) := do
  let nSteps := if c.fullSizeEntry then min 1 ps.nrXStep else ps.nrXStep
  let s ← loop 0 nSteps (updateTrajBoundLines ps c.lower c.lowerLines) (0, c)
  let s ← loop 0 nSteps (updateTrajBoundLines ps c.upper c.upperLines) s
  return s.2

/-- Loop body of `ControlBoundConstraint::update`, src/constraints.cpp 362-365. -/
def updateCtrlBoundStep (ps : PreviewSystem K) (i : Nat) (c : Constr K) : Option (Constr K) := do
  let ub ← c.ub.setSegment? (i * ps.uDim) ps.uDim c.upper
  let lb ← c.lb.setSegment? (i * ps.uDim) ps.uDim c.lower
  return { c with ub := ub, lb := lb }

/-- `ControlBoundConstraint::update`, src/constraints.cpp 359-367. -/
def updateCtrlBound (ps : PreviewSystem K) (c : Constr K) : Option (Constr K) :=
  if c.fullSizeEntry then some c
  else loop 0 ps.nrUStep (updateCtrlBoundStep ps) c

/-- Virtual call `update(ps)`. include/constraints.h 66, overridden at 136, 172, 213, 259, 295. -/
def update (ps : PreviewSystem K) (c : Constr K) : Option (Constr K) :=
  match c.kind with
  | .trajectory => c.updateTrajectory ps
  | .control => c.updateControl ps
  | .mixed => c.updateMixed ps
  | .trajBound => c.updateTrajBound ps
  | .ctrlBound => c.updateCtrlBound ps

end Constr
end Copra
