import Verif.SpecMulti
import Verif.Model.Lifetime

/-! # Specification vocabulary: histories of a program whose controllers are constructed, moved and destroyed -/

namespace Copra.Spec
variable {K : Type} [Zero K] [One K] [Add K] [Sub K] [Neg K] [Mul K] [Arith K] {n : Nat}

/-- The call needs no controller: it is made on an object, copies or drops a `shared_ptr`, or constructs a controller. -/
def NeedsNone : Op K → Prop
  | .system _ _ _ _ _ _ | .xInit _ _ | .setDynamics _ _ _ _ | .updatePs _ | .spanConstr _ _ | .initConstr _ _ _
  | .updateConstr _ _ | .spanCost _ _ | .weights _ _ | .weight _ _ | .initCost _ _ _ | .updateCost _ _
  | .refsConstr _ _ | .refsCost _ _ | .construct _ _ | .constructPs _ _ _ _ => True
  | _ => False

/-- The rules: calls only on living controllers (and by the rules of `SpecHist`); only living controllers are moved or
destroyed, never onto themselves, and never onto a controller of the other class. -/
def LOpOk (d : Dims) (w : LWorld K n) (g : MGhost n) : LOp K n → Prop
  | .call k op => (w.alive k = true ∨ NeedsNone op) ∧ OpOk d (w.w.view k) (g.view k) op
  | .move j k => j ≠ k ∧ w.alive k = true ∧ (w.alive j = true → (w.w.ctls j).isInit = (w.w.ctls k).isInit)
  | .destroy k => w.alive k = true

/-- An extra condition on calls. -/
def LExtra (E : World K → Op K → Prop) (w : LWorld K n) : LOp K n → Prop
  | .call k op => E (w.w.view k) op
  | _ => True

/-- The extra condition restricts only what the client does to the objects and with which arguments it constructs
controllers. -/
structure AboutCalls (E : World K → Op K → Prop) : Prop extends AboutObjects E where
  creates : ∀ w w' op, LWorld.Creates op = true → w'.pss = w.pss → w'.cons = w.cons → w'.costs = w.costs → E w op → E w' op

/-- Book-keeping: a moved controller takes along whether its bounds are as reset. -/
def MGhost.lnext (g : MGhost n) (w : LWorld K n) (ok : Prop) : LOp K n → MGhost n
  | .call k op => g.next w.w k ok op
  | .move j k => { g with clean := fun i => if i = j then g.clean k else g.clean i }
  | .destroy _ => g

/-- Histories. -/
inductive LHist (d : Dims) (dmax : K) (E : World K → Op K → Prop) : LWorld K n → MGhost n → Prop
  | start {w} : LWorld.Init w → LHist d dmax E w MGhost.start
  | ok {w w' g op} : LHist d dmax E w g → LOpOk d w g op → LExtra E w op →
      w.step dmax op = .ok w' → LHist d dmax E w' (g.lnext w True op)
  | thrown {w w' g op e} : LHist d dmax E w g → LOpOk d w g op → LExtra E w op →
      w.step dmax op = .thrown e w' → LHist d dmax E w' (g.lnext w False op)

end Copra.Spec
