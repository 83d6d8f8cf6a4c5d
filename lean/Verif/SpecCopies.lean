import Verif.SpecHist
import Verif.Model.Copies

/-! # Specification vocabulary: programs that copy constraints, costs and preview systems (C100) -/

namespace Copra.Spec
variable {K : Type} [Zero K] [One K] [Add K] [Sub K] [Neg K] [Mul K] [Arith K]

/-- The call is about constraint `i`. -/
def namesConstr : Op K → Nat → Prop
  | .spanConstr i _, j | .refsConstr i _, j | .addConstraint i _, j | .removeConstraint i, j | .initConstr i _ _, j
  | .updateConstr i _, j => j = i
  | _, _ => False

/-- The call is about cost `i`. -/
def namesCost : Op K → Nat → Prop
  | .spanCost i _, j | .weights i _, j | .weight i _, j | .refsCost i _, j | .addCost i _, j | .removeCost i, j
  | .initCost i _ _, j | .updateCost i _, j => j = i
  | _, _ => False

/-- The call is about preview system `p`. -/
def namesPs : Op K → Nat → Prop
  | .system p _ _ _ _ _, q | .xInit p _, q | .setDynamics p _ _ _, q | .updatePs p, q => q = p
  | _, _ => False

/-- What the client remembers about a copied constraint is what it remembers about the original. -/
def Ghost.copyConstr (g : Ghost) (j i : Nat) : Ghost :=
  { g with constr := fun k => (k = j ∧ g.constr i) ∨ (k ≠ j ∧ g.constr k) }

/-- What the client remembers about a copied cost is what it remembers about the original. -/
def Ghost.copyCost (g : Ghost) (j i : Nat) : Ghost :=
  { g with
    cost := fun k => (k = j ∧ g.cost i) ∨ (k ≠ j ∧ g.cost k)
    fresh := fun k => (k = j ∧ g.fresh i) ∨ (k ≠ j ∧ g.fresh k) }

/-- Histories of API calls as in `Hist`, in which moreover constraints and costs may be copied at any time, whatever their
state, to new objects (`C` and `Q` are the numbers of the constraints and costs that have been used so far), and any
preview system that has been given a system may be assigned to any other (also to one that a controller uses). -/
inductive CHist (d : Dims) (dmax : K) (E : World K → Op K → Prop) :
    World K → Ghost → (Nat → Prop) → (Nat → Prop) → Prop
  | start {w} : World.Init w → CHist d dmax E w Ghost.start (fun _ => False) (fun _ => False)
  | ok {w w' g C Q op} : CHist d dmax E w g C Q → OpOk d w g op → E w op → w.step dmax op = .ok w' →
      CHist d dmax E w' (g.next w True op) (fun i => C i ∨ namesConstr op i) (fun i => Q i ∨ namesCost op i)
  | thrown {w w' g C Q op e} : CHist d dmax E w g C Q → OpOk d w g op → E w op → w.step dmax op = .thrown e w' →
      CHist d dmax E w' (g.next w False op) (fun i => C i ∨ namesConstr op i) (fun i => Q i ∨ namesCost op i)
  | copyConstr {w g C Q i j} : CHist d dmax E w g C Q → j ≠ i → ¬ C j →
      CHist d dmax E (w.copyConstr j i) (g.copyConstr j i) (fun k => C k ∨ k = i ∨ k = j) Q
  | copyCost {w g C Q i j} : CHist d dmax E w g C Q → j ≠ i → ¬ Q j →
      CHist d dmax E (w.copyCost j i) (g.copyCost j i) C (fun k => Q k ∨ k = i ∨ k = j)
  | copyPs {w g C Q p q} : CHist d dmax E w g C Q → HasSystem w q → CHist d dmax E (w.copyPs p q) g C Q

/-- A condition on calls that looks at the object the call is about and not at others, and that restricts neither the
calls on preview systems nor `initialize…` and `update` of constraints and costs. -/
structure ObjectWise (E : World K → Op K → Prop) : Prop where
  system : ∀ w p A B v x N, E w (.system p A B v x N)
  xInit : ∀ w p x, E w (.xInit p x)
  setDynamics : ∀ w p A B v, E w (.setDynamics p A B v)
  updatePs : ∀ w p, E w (.updatePs p)
  initConstr : ∀ w i p junk, E w (.initConstr i p junk)
  updateConstr : ∀ w i p, E w (.updateConstr i p)
  initCost : ∀ w i p junk, E w (.initCost i p junk)
  updateCost : ∀ w i p, E w (.updateCost i p)
  spanConstr : ∀ w w' i j junk, E w (.spanConstr i junk) → w'.cons j = w.cons i → E w' (.spanConstr j junk)
  spanCost : ∀ w w' i j junk, E w (.spanCost i junk) → w'.costs j = w.costs i → E w' (.spanCost j junk)
  weights : ∀ w w' i j v, E w (.weights i v) → w'.costs j = w.costs i → E w' (.weights j v)
  weight : ∀ w w' i j x, E w (.weight i x) → w'.costs j = w.costs i → E w' (.weight j x)
  otherConstr : ∀ w op j c, E w op → ¬ namesConstr op j → E { w with cons := World.upd w.cons j c } op
  otherCost : ∀ w op j c, E w op → ¬ namesCost op j → E { w with costs := World.upd w.costs j c } op

end Copra.Spec
