import Verif.Model.UserDefined
import Verif.SpecHist

/-! # Specification vocabulary: programs with user-defined constraints and costs -/

namespace Copra.Spec
variable {K S : Type} [Field K]

/-- The rules of `SpecHist` for programs with user-defined objects; the functions added by the authors may be
called at any time. -/
def UOk (d : Dims) (X : UWorld K S) (g : Ghost) : UOp K S → Prop
  | .api op => OpOk d X.world g op ∧ NoBoundSpan X.world op
  | _ => True

/-- What the client remembers. -/
def unext (g : Ghost) (X : UWorld K S) (ok : Prop) : UOp K S → Ghost
  | .api op => g.next X.world ok op
  | _ => g

/-- Histories of any length of a program with user-defined objects. -/
inductive UHist (d : Dims) (dmax : K) : UWorld K S → Ghost → Prop
  | start {X} : X.Init → UHist d dmax X Ghost.start
  | ok {X X' g op} : UHist d dmax X g → UOk d X g op → X.step dmax op = .ok X' →
      UHist d dmax X' (unext g X True op)
  | thrown {X X' g op e} : UHist d dmax X g → UOk d X g op → X.step dmax op = .thrown e X' →
      UHist d dmax X' (unext g X False op)

/-- What the author of a constraint class owes the controller, for an object with `nrConstr() = r`: for a system of the
dimensions `d`, `update` leaves matrices with `r` rows, of the right widths, and does not change `nrConstr()`. -/
def ConstrClass.Conforms (d : Dims) (r : Nat) (C : ConstrClass K S) : Prop :=
  ∀ ps o o', ps.xDim = d.n → ps.fullUDim = d.m * d.N → o.1.nrConstr = r → C.update ps o = some o' →
    o'.1.nrConstr = r ∧
    o'.1.A.rows = r ∧ o'.1.A.cols = d.m * d.N ∧ o'.1.b.rows = r ∧
    o'.1.Y.rows = r ∧ o'.1.Y.cols = d.n ∧ o'.1.z.rows = r

/-- What the author of a cost class owes the controller. -/
def CostClass.Conforms (d : Dims) (C : CostClass K S) : Prop :=
  ∀ ps o o', ps.xDim = d.n → ps.fullUDim = d.m * d.N → C.update ps o = some o' →
    o'.1.Q.rows = d.m * d.N ∧ o'.1.Q.cols = d.m * d.N ∧ o'.1.c.rows = d.m * d.N ∧
    o'.1.E.rows = d.n ∧ o'.1.E.cols = d.m * d.N ∧ o'.1.f.rows = d.m * d.N

/-- The classes of all registered user-defined objects keep to that. -/
def Conforming (d : Dims) (X : UWorld K S) : Prop :=
  (∀ i ∈ X.world.ctl.spConstr, ∀ C, X.consClass i = some C → ConstrClass.Conforms d (X.world.cons i).nrConstr C) ∧
  ∀ i ∈ X.world.ctl.spCost, ∀ C, X.costClass i = some C → CostClass.Conforms d C

/-- The `update` functions of all registered user-defined objects return, for systems of the dimensions `d`. -/
def Returning (d : Dims) (X : UWorld K S) : Prop :=
  (∀ i ∈ X.world.ctl.spConstr, ∀ C, X.consClass i = some C → ∀ ps o, ps.xDim = d.n → ps.fullUDim = d.m * d.N →
    C.update ps o ≠ none) ∧
  ∀ i ∈ X.world.ctl.spCost, ∀ C, X.costClass i = some C → ∀ ps o, ps.xDim = d.n → ps.fullUDim = d.m * d.N →
    C.update ps o ≠ none

/-- The numbers of equality and inequality rows are `int`s. -/
def RowsCount (X : UWorld K S) : Prop :=
  (X.world.ctl.spEqConstr.map fun i => (X.world.cons i).nrConstr).sum ≤ intMax ∧
  (X.world.ctl.spIneqConstr.map fun i => (X.world.cons i).nrConstr).sum ≤ intMax

/-- Apply a partial function `k` times. -/
def times {α : Type} (f : α → Option α) : Nat → α → Option α
  | 0, a => some a
  | k + 1, a => (f a).bind (times f k)

/-- The call sequence `update(ps)`, `k` times, on a user-defined object. -/
def ConstrClass.Updates (C : ConstrClass K S) (ps : PreviewSystem K) (k : Nat) (o o' : Rows K × S) : Prop :=
  times (C.update ps) k o = some o'

/-- The call sequence `update(ps)`, `k` times, on a user-defined cost. -/
def CostClass.Updates (C : CostClass K S) (ps : PreviewSystem K) (k : Nat) (o o' : Terms K × S) : Prop :=
  times (C.update ps) k o = some o'

/-- The inherited members of user-defined constraint `i`, and its author's. -/
def constrObj (X : UWorld K S) (i : Nat) : Rows K × S := ((X.world.cons i).inheritedRows, X.consMem i)

/-- The inherited members of user-defined cost `i`, and its author's. -/
def costObj (X : UWorld K S) (i : Nat) : Terms K × S := ((X.world.costs i).inheritedTerms, X.costMem i)

variable [LinearOrder K]

/-- `A U = b` or `A U <= b`, as the class says. -/
def Rows.Holds (fl : UFlag) (r : Rows K) (U : Nat → K) : Prop :=
  ∀ t < r.nrConstr,
    (fl = .equality → Ext.fin (rowValue r.A U t) = r.b.e t) ∧
    (fl = .inequality → Ext.fin (rowValue r.A U t) ≤ r.b.e t)

/-- `[Y A] [x; U] = z` or `<= z`, as the class says. -/
def Rows.HoldsFrom (fl : UFlag) (r : Rows K) (x U : Nat → K) : Prop :=
  ∀ t < r.nrConstr,
    (fl = .equality → Ext.fin (rowValue r.Y x t + rowValue r.A U t) = r.z.e t) ∧
    (fl = .inequality → Ext.fin (rowValue r.Y x t + rowValue r.A U t) ≤ r.z.e t)

/-- The problem's objective gets `1/2 U' Q U + c' U` from a user-defined cost. -/
def Terms.value (d : Dims) (t : Terms K) (U : Nat → K) : K := quadValue (d.m * d.N) t.Q t.c U

/-- The problem of an `InitialStateLMPC` gets, for the initial state `x`, `1/2 U' Q U + (x' E + f') U`. -/
def Terms.valueFrom (d : Dims) (t : Terms K) (x U : Nat → K) : K :=
  quadValue (d.m * d.N) t.Q ⟨d.m * d.N, fun b => (∑ a ∈ Finset.range d.n, t.E.e a b * x a) + t.f.e b⟩ U

/-- What cost `i` contributes: half the declared cost, if it is of the library; what `X'` holds, if it is
user-defined. -/
def partOf (d : Dims) (X X' : UWorld K S) (p : Nat) (U : Nat → K) (i : Nat) : K :=
  match X.costClass i with
  | none => 1 / 2 * (X.world.costs i).userData.value d (traj d X.world p U) U
  | some _ => Terms.value d (costObj X' i).1 U

/-- What cost `i` contributes for the initial state `x`. -/
def partFrom (d : Dims) (X X' : UWorld K S) (p : Nat) (x U : Nat → K) (i : Nat) : K :=
  match X.costClass i with
  | none => 1 / 2 * (X.world.costs i).userData.value d (trajFrom d X.world p x U) U
  | some _ => Terms.valueFrom d (costObj X' i).1 x U

/-- The total cost of controls `U`: the registered costs and the regularisation. -/
def totalWith (d : Dims) (X X' : UWorld K S) (p : Nat) (U : Nat → K) : K :=
  (X.world.ctl.spCost.map (partOf d X X' p U)).sum
  + 1 / 2 * (1 / 1000000) * ∑ j ∈ Finset.range (d.m * d.N), U j ^ 2

/-- The total cost of the initial state `x` and controls `U`. -/
def totalWithFrom (d : Dims) (X X' : UWorld K S) (p : Nat) (x U : Nat → K) : K :=
  (X.world.ctl.spCost.map (partFrom d X X' p x U)).sum
  + 1 / 2 * (1 / 1000000) * ∑ j ∈ Finset.range (d.m * d.N), U j ^ 2

/-- The controls `U` satisfy the registered constraints: those of the library as declared, the user-defined ones as
`X'` holds them. -/
def AllHold (d : Dims) (X X' : UWorld K S) (p : Nat) (U : Nat → K) : Prop :=
  ∀ i ∈ X.world.ctl.spConstr,
    match X.consClass i with
    | none => (X.world.cons i).userData.Holds d (traj d X.world p U) U
    | some C => Rows.Holds C.flag (constrObj X' i).1 U

/-- The initial state `x` and the controls `U` satisfy the registered constraints. -/
def AllHoldFrom (d : Dims) (X X' : UWorld K S) (p : Nat) (x U : Nat → K) : Prop :=
  ∀ i ∈ X.world.ctl.spConstr,
    match X.consClass i with
    | none => (X.world.cons i).userData.Holds d (trajFrom d X.world p x U) U
    | some C => Rows.HoldsFrom C.flag (constrObj X' i).1 x U

/-- The controller `l'` is the controller `l` without its user-defined constraints and costs. -/
structure Stripped (lc lk : Nat → Bool) (l l' : LMPC K) : Prop where
  isInit : l'.isInit = l.isInit
  ps : l'.ps = l.ps
  sol : l'.sol = l.sol
  spConstr : l'.spConstr = l.spConstr.filter lc
  spEqConstr : l'.spEqConstr = l.spEqConstr.filter lc
  spIneqConstr : l'.spIneqConstr = l.spIneqConstr.filter lc
  spBoundConstr : l'.spBoundConstr = l.spBoundConstr.filter lc
  spCost : l'.spCost = l.spCost.filter lk
  nrEq : l'.nrEqConstr ≤ l.nrEqConstr
  nrIneq : l'.nrIneqConstr ≤ l.nrIneqConstr
  Qr : l'.Q.rows = l.Q.rows
  Qc : l'.Q.cols = l.Q.cols
  cr : l'.c.rows = l.c.rows
  lb : l'.lb = l.lb
  ub : l'.ub = l.ub
  trajectory : l'.trajectory = l.trajectory
  control : l'.control = l.control
  R : l'.R = l.R
  r : l'.r = l.r
  x0lb : l'.x0lb = l.x0lb
  x0ub : l'.x0ub = l.x0ub

/-- The program state `w` is the program state `X` without its user-defined constraints and costs: the same systems,
the same objects of the library, and the controller with the others taken out of its lists. -/
structure WithoutUser (X : UWorld K S) (w : World K) : Prop where
  pss : w.pss = X.world.pss
  cons : ∀ i, X.consClass i = none → w.cons i = X.world.cons i
  costs : ∀ i, X.costClass i = none → w.costs i = X.world.costs i
  extCons : w.extCons = X.world.extCons
  extCosts : w.extCosts = X.world.extCosts
  ctl : Stripped (fun i => (X.consClass i).isNone) (fun i => (X.costClass i).isNone) X.world.ctl w.ctl

/-- The call is on a user-defined object (it is still reported to the controller by `addConstraint`/`addCost`). -/
def UserOnly (X : UWorld K S) : UOp K S → Prop
  | .callConstr _ _ | .callCost _ _ => True
  | .api (.spanConstr i _) | .api (.initConstr i _ _) | .api (.updateConstr i _) | .api (.addConstraint i _) =>
    X.consClass i ≠ none
  | .api (.spanCost i _) | .api (.initCost i _ _) | .api (.updateCost i _) | .api (.addCost i _)
  | .api (.weights i _) | .api (.weight i _) => X.costClass i ≠ none
  | _ => False

/-- The same call; the solver gives the answer it gave to the problem with the user-defined objects. -/
def CallBeside (X : UWorld K S) : Op K → Op K → Prop
  | .solve env, o => ∃ X' b q, X.solve env = some (X', b, q) ∧ o = .solve { env with answer := fun _ => env.answer q }
  | op, o => o = op

/-- A program with user-defined objects and, beside it, the program without them: calls on user-defined objects are
left out, all others are made with the same arguments and end in the same way. -/
inductive Beside (d : Dims) (dmax : K) : UWorld K S → Ghost → World K → Ghost → Prop
  | start {X w} : X.Init → World.Init w → WithoutUser X w → Beside d dmax X Ghost.start w Ghost.start
  | skip {X X' g w gw op} : Beside d dmax X g w gw → UOk d X g op → UserOnly X op → X.step dmax op = .ok X' →
      Beside d dmax X' (unext g X True op) w gw
  | skipThrown {X X' g w gw op e} : Beside d dmax X g w gw → UOk d X g op → UserOnly X op → X.step dmax op = .thrown e X' →
      Beside d dmax X' (unext g X False op) w gw
  | ok {X X' g w w' gw op op'} : Beside d dmax X g w gw → UOk d X g (.api op) → ¬ UserOnly X (.api op) →
      X.step dmax (.api op) = .ok X' → CallBeside X op op' → OpOk d w gw op' → NoBoundSpan w op' → w.step dmax op' = .ok w' →
      Beside d dmax X' (g.next X.world True op) w' (gw.next w True op')
  | thrown {X X' g w w' gw op e} : Beside d dmax X g w gw → UOk d X g (.api op) → ¬ UserOnly X (.api op) →
      X.step dmax (.api op) = .thrown e X' → OpOk d w gw op → NoBoundSpan w op → w.step dmax op = .thrown e w' →
      Beside d dmax X' (g.next X.world False op) w' (gw.next w False op)

end Copra.Spec
