import Verif.SpecHist
import Verif.Model.Multi

/-! # Specification vocabulary: histories of a program with several controllers

The rules are those of `SpecHist.Hist`, for each controller separately. -/

namespace Copra.Spec
variable {K : Type} [Zero K] [One K] [Add K] [Sub K] [Neg K] [Mul K] [Arith K] {n : Nat}

/-- What the client remembers: which constraints and costs were accepted by some controller, which costs were not
updated by any controller since, and for every controller whether its bounds are as reset. -/
structure MGhost (n : Nat) where
  constr : Nat → Prop
  cost : Nat → Prop
  fresh : Nat → Prop
  clean : Fin n → Prop

namespace MGhost

/-- At program start. -/
def start : MGhost n := ⟨fun _ => False, fun _ => False, fun _ => False, fun _ => True⟩

/-- The part that concerns controller `k`. -/
def view (g : MGhost n) (k : Fin n) : Ghost := ⟨g.constr, g.cost, g.fresh, g.clean k⟩

/-- Store the book-keeping of a call on controller `k`. -/
def put (g : MGhost n) (k : Fin n) (v : Ghost) : MGhost n :=
  ⟨v.constr, v.cost, v.fresh, fun j => if j = k then v.clean else g.clean j⟩

/-- Book-keeping for one API call on controller `k`. -/
def next (g : MGhost n) (w : MWorld K n) (k : Fin n) (ok : Prop) (op : Op K) : MGhost n :=
  g.put k ((g.view k).next (w.view k) ok op)

end MGhost

/-- Histories of a program with `n` controllers: any interleaving of calls on any of them that share any of the
objects, each call keeping the rules of `SpecHist` for its own controller.  `E` is an extra condition on every call. -/
inductive MHist (d : Dims) (dmax : K) (E : World K → Op K → Prop) : MWorld K n → MGhost n → Prop
  | start {w} : MWorld.Init w → MHist d dmax E w MGhost.start
  | ok {w w' g k op} : MHist d dmax E w g → OpOk d (w.view k) (g.view k) op → E (w.view k) op →
      w.step dmax k op = .ok w' → MHist d dmax E w' (g.next w k True op)
  | thrown {w w' g k op e} : MHist d dmax E w g → OpOk d (w.view k) (g.view k) op → E (w.view k) op →
      w.step dmax k op = .thrown e w' → MHist d dmax E w' (g.next w k False op)

/-- `w' g'` are reached from `w g` by further calls, each allowed by `E` and, with the controller it is made on, by `F`. -/
inductive MLater (d : Dims) (dmax : K) (E : World K → Op K → Prop) (F : Fin n → Op K → Prop) (w : MWorld K n)
    (g : MGhost n) : MWorld K n → MGhost n → Prop
  | refl : MLater d dmax E F w g w g
  | ok {w1 w2 g1 k op} : MLater d dmax E F w g w1 g1 → OpOk d (w1.view k) (g1.view k) op → E (w1.view k) op → F k op →
      w1.step dmax k op = .ok w2 → MLater d dmax E F w g w2 (g1.next w1 k True op)
  | thrown {w1 w2 g1 k op e} : MLater d dmax E F w g w1 g1 → OpOk d (w1.view k) (g1.view k) op → E (w1.view k) op →
      F k op → w1.step dmax k op = .thrown e w2 → MLater d dmax E F w g w2 (g1.next w1 k False op)

/-- The call is made on a preview system, a constraint or a cost, not on a controller. -/
def OnObject : Op K → Prop
  | .system _ _ _ _ _ _ | .xInit _ _ | .setDynamics _ _ _ _ | .updatePs _ | .spanConstr _ _ | .initConstr _ _ _
  | .updateConstr _ _ | .spanCost _ _ | .weights _ _ | .weight _ _ | .initCost _ _ _ | .updateCost _ _ => True
  | _ => False

/-- The extra condition restricts only what the client does to the objects, whichever controllers there are. -/
structure AboutObjects (E : World K → Op K → Prop) : Prop where
  shared : ∀ w w' op, OnObject op → w'.pss = w.pss → w'.cons = w.cons → w'.costs = w.costs → E w op → E w' op
  updatePs : ∀ w p, E w (.updatePs p)
  initConstr : ∀ w i p junk, E w (.initConstr i p junk)
  updateConstr : ∀ w i p, E w (.updateConstr i p)
  initCost : ∀ w i p junk, E w (.initCost i p junk)
  updateCost : ∀ w i p, E w (.updateCost i p)
  refsConstr : ∀ w i m, E w (.refsConstr i m)
  refsCost : ∀ w i m, E w (.refsCost i m)

end Copra.Spec
