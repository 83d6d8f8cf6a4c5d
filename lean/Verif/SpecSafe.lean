import Verif.SpecLife

/-! # Specification vocabulary: which calls are safe

`OpOk` (SpecHist) are the rules about sizes.  Here is what else a client must observe so that no call is undefined
behaviour: a system was given before it is used, nothing is empty where the code divides by a number of rows, and the
numbers of rows fit into an `int`. -/

namespace Copra.Spec
variable {K : Type} [Zero K] [One K] [Add K] [Sub K] [Neg K] [Mul K] [Arith K] {n : Nat}

/-- Row counts of the parts of a constraint that `autoSpan` makes equal. -/
def ConstrData.parts : ConstrData K → List Nat
  | .trajectory _ E f => [E.rows, f.rows]
  | .control _ G f => [G.rows, f.rows]
  | .mixed _ E G f => [E.rows, G.rows, f.rows]
  | .trajBound l u => [l.rows, u.rows]
  | .ctrlBound l u => [l.rows, u.rows]

/-- Row counts of the parts of a cost that `autoSpan` makes equal (it does nothing for a target cost). -/
def CostData.parts : CostData K → List Nat
  | .trajectory M p w => [M.rows, p.rows, w.rows]
  | .target _ _ _ => []
  | .control N p w => [N.rows, p.rows, w.rows]
  | .mixed M N p w => [M.rows, N.rows, p.rows, w.rows]

/-- No part is empty, unless nothing needs to be spanned because all parts have equally many rows. -/
def Spannable (l : List Nat) : Prop := (∀ r ∈ l, 0 < r) ∨ ∀ r ∈ l, ∀ s ∈ l, r = s

/-- The dimensions fit into an `int`. -/
def FitsInt (d : Dims) : Prop := d.N + 1 ≤ intMax ∧ d.m ≤ intMax ∧ d.n * (d.N + 1) ≤ intMax ∧ d.m * d.N ≤ intMax

/-- The controller's number of optimisation variables fits into an `int` (for an `LMPC` it is the number of controls,
which `FitsInt` bounds). -/
def VarsFit (d : Dims) (isInit : Bool) : Prop := isInit = true → d.n + d.m * d.N ≤ intMax

/-- What else a client must observe. -/
def OpSafe (d : Dims) (w : World K) : Op K → Prop
  | .system _ _ _ _ _ _ => FitsInt d
  | .spanConstr i _ => Spannable (w.cons i).userData.parts
  | .spanCost i _ => Spannable (w.costs i).userData.parts
  | .weights _ v => 0 < v.rows
  | .initConstr i _ _ => Constr.rowsNeeded d (w.cons i) ≤ intMax
  | .addConstraint i _ => w.ctl.ps ≠ none ∧ w.ctl.nrEqConstr + Constr.rowsNeeded d (w.cons i) ≤ intMax ∧
      w.ctl.nrIneqConstr + Constr.rowsNeeded d (w.cons i) ≤ intMax
  | .addCost _ _ => w.ctl.ps ≠ none
  | .clearConstraints => w.ctl.ps ≠ none
  | .constructPs b _ _ _ => VarsFit d b
  | .initializeController _ _ => VarsFit d w.ctl.isInit
  | _ => True

/-- The same for a step of a program with several controllers that are moved and destroyed. -/
def LOpSafe (d : Dims) (w : LWorld K n) : LOp K n → Prop
  | .call k op => OpSafe d (w.w.view k) op
  | _ => True

end Copra.Spec
