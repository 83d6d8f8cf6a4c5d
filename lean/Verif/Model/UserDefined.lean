import Verif.Model.LMPC

/-! # User-defined constraint and cost classes

`Constraint`, `EqIneqConstraint` and `CostFunction` are abstract classes a client may derive from
("Any derived class of this one can be added to the MPC", include/constraints.h 39-41,
include/costFunctions.h 16-21).  The controller calls the virtual functions of such an object and reads the
data members it inherited; everything else about the object is up to its author.

`UWorld` is a program state in which some of the constraints and costs, told by their number, are objects of
user-defined classes.  `S` is the type of the data members their authors added.  The members inherited from
`Constraint`/`EqIneqConstraint` (`CostFunction`) are kept in the record of the same number of the underlying
`World`; of that record only the fields named in `Rows` (`Terms`) and the type of the constraint mean anything.

Simplifications: `constraintType()` of a class is a constant; an overriding function changes its own object only;
an overriding `update` that throws is in Model/UserAbort.lean, a solver that throws in Model/UserThrow.lean. -/

namespace Copra

/-- `enum class ConstraintFlag`, include/constraints.h 28-33: what `constraintType()` of a user-defined class may
return. -/
inductive UFlag where
  | constraint
  | equality
  | inequality
  | bound
  deriving DecidableEq, Repr

/-- The members a user-defined constraint inherits and the controller reads: `nrConstr_`
(include/constraints.h 76) and `A_`, `b_`, `Y_`, `z_` (102-105). -/
structure Rows (K : Type) where
  nrConstr : Nat
  A : Mat K
  b : Vec (Ext K)
  Y : Mat K
  z : Vec (Ext K)

/-- The members a user-defined cost inherits: `Q_`, `c_`, `E_`, `f_`, which the controller reads, and `weights_`
(include/costFunctions.h 92-96). -/
structure Terms (K : Type) where
  Q : Mat K
  c : Vec K
  E : Mat K
  f : Vec K
  weights : Vec K

/-- A user-defined subclass of `EqIneqConstraint` (or of `Constraint`): the functions it overrides
(include/constraints.h 56-69). -/
structure ConstrClass (K S : Type) where
  flag : UFlag
  autoSpan : Rows K × S → Res (Rows K × S)
  init : PreviewSystem K → Rows K × S → Res (Rows K × S)
  update : PreviewSystem K → Rows K × S → Option (Rows K × S)

/-- A user-defined subclass of `CostFunction`: the functions it overrides (include/costFunctions.h 36-47). -/
structure CostClass (K S : Type) where
  autoSpan : Terms K × S → Res (Terms K × S)
  init : PreviewSystem K → Terms K × S → Res (Terms K × S)
  update : PreviewSystem K → Terms K × S → Option (Terms K × S)

namespace Constr
variable {K : Type}

/-- The inherited members of a constraint object. include/constraints.h 76, 102-105. -/
def inheritedRows (c : Constr K) : Rows K := ⟨c.nrConstr, c.A, c.b, c.Y, c.z⟩

/-- Assign the inherited members. include/constraints.h 76, 102-105. -/
def setRows (c : Constr K) (r : Rows K) : Constr K :=
  { c with nrConstr := r.nrConstr, A := r.A, b := r.b, Y := r.Y, z := r.z }

end Constr

namespace Cost
variable {K : Type}

/-- The inherited members of a cost object. include/costFunctions.h 92-96. -/
def inheritedTerms (c : Cost K) : Terms K := ⟨c.Q, c.c, c.E, c.f, c.weights⟩

/-- Assign the inherited members. include/costFunctions.h 92-96. -/
def setTerms (c : Cost K) (t : Terms K) : Cost K :=
  { c with Q := t.Q, c := t.c, E := t.E, f := t.f, weights := t.weights }

end Cost

/-- A program state; the object with number `i` is of the library if its class is `none`.
Classes derived from those of include/constraints.h 42-107 and costFunctions.h 22-97. -/
structure UWorld (K S : Type) where
  world : World K
  consClass : Nat → Option (ConstrClass K S)
  costClass : Nat → Option (CostClass K S)
  consMem : Nat → S
  costMem : Nat → S

namespace UWorld
variable {K S : Type} [Zero K] [One K] [Add K] [Sub K] [Neg K] [Mul K] [Arith K]

/-- A call that rewrites one user-defined constraint; the object may be left changed by an exception.
Virtual calls of include/constraints.h 56, 61. -/
def onConstr (X : UWorld K S) (i : Nat) (f : Rows K × S → Res (Rows K × S)) : Res (UWorld K S) :=
  (f ((X.world.cons i).inheritedRows, X.consMem i)).map fun o =>
    { X with
      world := { X.world with cons := World.upd X.world.cons i ((X.world.cons i).setRows o.1) }
      consMem := World.upd X.consMem i o.2 }

/-- A call that rewrites one user-defined cost. Virtual calls of include/costFunctions.h 36, 42. -/
def onCost (X : UWorld K S) (i : Nat) (f : Terms K × S → Res (Terms K × S)) : Res (UWorld K S) :=
  (f ((X.world.costs i).inheritedTerms, X.costMem i)).map fun o =>
    { X with
      world := { X.world with costs := World.upd X.world.costs i ((X.world.costs i).setTerms o.1) }
      costMem := World.upd X.costMem i o.2 }

/-- One iteration of the constraint loop of `LMPC::updateSystem` (virtual call of `update`),
src/LMPC.cpp 240-242. -/
def updateConstr (cls : Nat → Option (ConstrClass K S)) (ps : PreviewSystem K)
    (s : (Nat → Constr K) × (Nat → S)) (i : Nat) : Option ((Nat → Constr K) × (Nat → S)) :=
  match cls i with
  | none => do
    let cons ← World.updateConstr ps s.1 i
    return (cons, s.2)
  | some C => do
    let o ← C.update ps ((s.1 i).inheritedRows, s.2 i)
    return (World.upd s.1 i ((s.1 i).setRows o.1), World.upd s.2 i o.2)

/-- One iteration of the cost loop of `LMPC::updateSystem`, src/LMPC.cpp 245-247. -/
def updateCost (cls : Nat → Option (CostClass K S)) (ps : PreviewSystem K)
    (s : (Nat → Cost K) × (Nat → S)) (i : Nat) : Option ((Nat → Cost K) × (Nat → S)) :=
  match cls i with
  | none => do
    let costs ← World.updateCost ps s.1 i
    return (costs, s.2)
  | some C => do
    let o ← C.update ps ((s.1 i).inheritedTerms, s.2 i)
    return (World.upd s.1 i ((s.1 i).setTerms o.1), World.upd s.2 i o.2)

/-- `LMPC::updateSystem`, src/LMPC.cpp 225-248. -/
def updateSystem (junk : Junk K) (X : UWorld K S) : Option (UWorld K S) := do
  let w := X.world
  let p ← w.ctl.ps
  let l := { w.ctl with
    Q := (Mat.identity w.ctl.Q.rows w.ctl.Q.cols).scale Arith.micro
    c := Vec.zero w.ctl.c.rows }
  let ps ← if (w.pss p).isUpdated then some (w.pss p) else (w.pss p).updateSystem
  let l ← l.updateNr w.cons
  let l ← l.updateConstraintMatrixSize junk ps
  let (cons, consMem) ← l.spConstr.foldlM (updateConstr X.consClass ps) (w.cons, X.consMem)
  let (costs, costMem) ← l.spCost.foldlM (updateCost X.costClass ps) (w.costs, X.costMem)
  return { X with
    world := { w with pss := World.upd w.pss p ps, cons := cons, costs := costs, ctl := l }
    consMem := consMem
    costMem := costMem }

/-- What `LMPC::solve` does after `updateSystem()`, src/LMPC.cpp 85-100: the same for all objects. -/
def _root_.Copra.World.solveTail (env : SolveEnv K) (w : World K) : Option (World K × Bool × QP K) := do
  let p ← w.ctl.ps
  let ps := w.pss p
  let l ← w.ctl.makeQPForm env.inverse w.cons w.costs ps
  let s ← l.sol
  let qp := l.qp
  let (success, result) := env.answer qp
  let l := { l with sol := some { s with result := result }, solveTime := some (env.t2 - env.t1) }
  let l := l.checkDelete w.extCons w.extCosts
  let l ← if success then l.updateResults ps else some l
  let l := { l with solveAndBuildTime := some (env.t3 - env.t0) }
  return ({ w with ctl := l }, success, qp)

/-- `LMPC::solve`, src/LMPC.cpp 79-101. -/
def solve (env : SolveEnv K) (X : UWorld K S) : Option (UWorld K S × Bool × QP K) := do
  let X ← X.updateSystem env.junk
  let (w, b, q) ← X.world.solveTail env
  return ({ X with world := w }, b, q)

/-- `addConstraint` of a user-defined constraint, src/LMPC.cpp 124-128 and 173-197.  A constraint of type
`Constraint` reaches `default: return`; the cast of a user-defined constraint of type `BoundConstraint` to
`ControlBoundConstraint` (a final class) is undefined. -/
def addConstraint (X : UWorld K S) (i : Nat) (C : ConstrClass K S) : Res (UWorld K S) :=
  match X.world.ctl.ps with
  | none => .ub
  | some p =>
    match X.onConstr i (C.init (X.world.pss p)) with
    | .ok X' =>
      match C.flag with
      | .constraint => .ok X'
      | .bound => .ub
      | _ =>
        match X'.world.ctl.addConstraintByType i (X'.world.cons i) with
        | some l => .ok { X' with world := { X'.world with ctl := l } }
        | none => .ub
    | .thrown e X' => .thrown e X'
    | .ub => .ub

/-- `addCost` of a user-defined cost, src/LMPC.cpp 118-122. -/
def addCost (X : UWorld K S) (i : Nat) (C : CostClass K S) : Res (UWorld K S) :=
  match X.world.ctl.ps with
  | none => .ub
  | some p =>
    match X.onCost i (C.init (X.world.pss p)) with
    | .ok X' => .ok { X' with
        world := { X'.world with ctl := { X'.world.ctl with spCost := X'.world.ctl.spCost ++ [i] } } }
    | .thrown e X' => .thrown e X'
    | .ub => .ub

end UWorld

/-- What a client can do: the calls of `Op`, and the functions the authors of the classes added.
Virtual functions: include/constraints.h 56-66, costFunctions.h 36-47. -/
inductive UOp (K S : Type) where
  | api (op : Op K)
  /-- a member function of user-defined constraint `i` -/
  | callConstr (i : Nat) (f : Rows K × S → Rows K × S)
  /-- a member function of user-defined cost `i` -/
  | callCost (i : Nat) (f : Terms K × S → Terms K × S)

namespace UWorld
variable {K S : Type} [Zero K] [One K] [Add K] [Sub K] [Neg K] [Mul K] [Arith K]

/-- The call is executed by the library alone. (Classification of calls, not code of the library.) -/
def lib (dmax : K) (X : UWorld K S) (op : Op K) : Res (UWorld K S) :=
  (X.world.step dmax op).map fun w => { X with world := w }

/-- Execute one call (virtual calls of user-defined objects go to their classes).
src/LMPC.cpp 79-101, 118-128 and the virtual functions of include/constraints.h 56-66, costFunctions.h 36-47. -/
def step (dmax : K) (X : UWorld K S) : UOp K S → Res (UWorld K S)
  | .api (.spanConstr i junk) =>
    match X.consClass i with
    | none => X.lib dmax (.spanConstr i junk)
    | some C => X.onConstr i C.autoSpan
  | .api (.initConstr i p junk) =>
    match X.consClass i with
    | none => X.lib dmax (.initConstr i p junk)
    | some C => X.onConstr i (C.init (X.world.pss p))
  | .api (.updateConstr i p) =>
    match X.consClass i with
    | none => X.lib dmax (.updateConstr i p)
    | some C => X.onConstr i fun o => Res.ofOption (C.update (X.world.pss p) o)
  | .api (.addConstraint i junk) =>
    match X.consClass i with
    | none => X.lib dmax (.addConstraint i junk)
    | some C => X.addConstraint i C
  | .api (.spanCost i junk) =>
    match X.costClass i with
    | none => X.lib dmax (.spanCost i junk)
    | some C => X.onCost i C.autoSpan
  | .api (.initCost i p junk) =>
    match X.costClass i with
    | none => X.lib dmax (.initCost i p junk)
    | some C => X.onCost i (C.init (X.world.pss p))
  | .api (.updateCost i p) =>
    match X.costClass i with
    | none => X.lib dmax (.updateCost i p)
    | some C => X.onCost i fun o => Res.ofOption (C.update (X.world.pss p) o)
  | .api (.addCost i junk) =>
    match X.costClass i with
    | none => X.lib dmax (.addCost i junk)
    | some C => X.addCost i C
  | .api (.solve env) => Res.ofOption ((X.solve env).map fun r => r.1)
  | .api op => X.lib dmax op
  | .callConstr i f =>
    match X.consClass i with
    | none => .ub
    | some _ => X.onConstr i fun o => .ok (f o)
  | .callCost i f =>
    match X.costClass i with
    | none => .ub
    | some _ => X.onCost i fun o => .ok (f o)

/-- A program start: as `World.Init` for the objects of the library; the record of a user-defined constraint has
the type its class tells, its contents and those of user-defined costs are arbitrary.
Constructors of include/constraints.h 42-107 and costFunctions.h 22-97. -/
def Init (X : UWorld K S) : Prop :=
  (∀ p, X.world.pss p = PreviewSystem.default) ∧
  (∀ i, X.consClass i = none → World.FreshConstr (X.world.cons i)) ∧
  (∀ i C, X.consClass i = some C → (X.world.cons i).kind = .trajectory ∧
    (X.world.cons i).isIneq = decide (C.flag = .inequality)) ∧
  (∀ i, X.costClass i = none → World.FreshCost (X.world.costs i)) ∧
  (∃ b s, X.world.ctl = LMPC.construct b s)

end UWorld
end Copra
