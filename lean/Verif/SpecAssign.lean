import Verif.SpecSupply
import Verif.SpecCopies

/-! # Specification vocabulary: programs that assign over constraints, costs and preview systems in use (C103)

`*j = *i` for two objects of the same class replaces every member of `j`, the results and the record of its
initialisation included.  If a controller holds `j`, the next solve works with what was assigned. -/

namespace Copra.Spec
variable {K : Type} [Field K]

/-- A target cost whose matrix and reference fit the dimensions; it need not have been initialised. -/
structure TargetFits (d : Dims) (c : Cost K) : Prop where
  kind : c.kind = .target
  rows : c.M.rows = c.p.rows
  cols : c.M.cols = d.n

/-- Number of rows of the registered constraints of one type. -/
def rowsOf (w : World K) (t : CFlag) : Nat :=
  (w.ctl.spConstr.map fun i => if (w.cons i).constraintType = t then (w.cons i).nrConstr else 0).sum

/-- The rows of the registered constraints can be counted by an `int`. -/
def RowCountsFit (w : World K) : Prop := rowsOf w .equality ≤ intMax ∧ rowsOf w .inequality ≤ intMax

/-- The call is `addConstraint`. -/
def IsAdd : SOp K → Prop
  | .other (.call (.addConstraint _ _)) => True
  | _ => False

/-- What may be assigned over constraint `j`: any constraint of its class.  If the controller holds `j`, one that has been
initialised (by a controller or by the user) and is of the same type (equality, inequality or bound). -/
structure MayAssignConstr (w : World K) (g : Ghost) (j i : Nat) : Prop where
  kind : (w.cons i).kind = (w.cons j).kind
  used : j ∈ w.ctl.spConstr → g.constr i
  type : j ∈ w.ctl.spConstr → (w.cons i).constraintType = (w.cons j).constraintType
  rows : RowCountsFit (w.copyConstr j i)

/-- What may be assigned over cost `j`: any cost of its class.  If the controller holds `j`, one that has been initialised
or a target cost that fits. -/
structure MayAssignCost (d : Dims) (w : World K) (g : Ghost) (j i : Nat) : Prop where
  kind : (w.costs i).kind = (w.costs j).kind
  used : j ∈ w.ctl.spCost → g.cost i ∨ TargetFits d (w.costs i)

/-- What the client remembers about a cost assigned over is what it remembers about the original; a target cost that
fits is as good as initialised. -/
def Ghost.assignCost (g : Ghost) (d : Dims) (w : World K) (j i : Nat) : Ghost :=
  { g.copyCost j i with cost := fun k => (k = j ∧ (g.cost i ∨ TargetFits d (w.costs i))) ∨ (k ≠ j ∧ g.cost k) }

/-- Histories of API calls, assignments to public members (prediction matrices included), and assignments of whole
constraints, costs and preview systems, whether or not the controller holds them. -/
inductive EHist (d : Dims) (dmax : K) (E : World K → Op K → Prop) :
    World K → Ghost → Prop
  | start {w} : World.Init w → EHist d dmax E w Ghost.start
  | ok {w w' g op} : EHist d dmax E w g → SOpOk d w g op → OnSCalls E w op → w.sstep dmax op = .ok w' →
      (IsAdd op → RowCountsFit w') → EHist d dmax E w' (g.snext w True op)
  | thrown {w w' g op e} : EHist d dmax E w g → SOpOk d w g op → OnSCalls E w op → w.sstep dmax op = .thrown e w' →
      EHist d dmax E w' (g.snext w False op)
  | assignConstr {w g j i} : EHist d dmax E w g → MayAssignConstr w g j i →
      EHist d dmax E (w.copyConstr j i) (g.copyConstr j i)
  | assignCost {w g j i} : EHist d dmax E w g → MayAssignCost d w g j i →
      EHist d dmax E (w.copyCost j i) (g.assignCost d w j i)
  | assignPs {w g p q} : EHist d dmax E w g → HasSystem w q → EHist d dmax E (w.copyPs p q) g

/-- A trajectory bound has at least one finite entry. -/
def SomeBound (c : Constr K) : Prop :=
  c.kind = .trajBound →
    (∃ k < c.lower.rows, (c.lower.e k).isNinf = false) ∨ ∃ k < c.upper.rows, (c.upper.e k).isPinf = false

end Copra.Spec
