import Verif.SpecHist
import Verif.Model.Fields

/-! # Specification vocabulary: programs that assign the public members of a preview system

The rule a client can reason with: every system has *dynamics in force*.  While its prediction matrices are stale
(`isUpdated` is false) those are simply the current members `A`, `B`, `d`; when they are up to date, those are the
members as they were at the last recomputation, whatever has been assigned since. -/

namespace Copra

/-- The state matrix, control matrix and bias of a system. -/
structure Dynamics (K : Type) where
  A : Mat K
  B : Mat K
  d : Vec K

namespace Spec
variable {K : Type} [Field K]

/-- The current members `A`, `B`, `d`. -/
def members (ps : PreviewSystem K) : Dynamics K := ⟨ps.A, ps.B, ps.d⟩

/-- The members `A`, `B`, `d` have the sizes of `d`. -/
def _root_.Copra.Dynamics.Sized (d : Dims) (v : Dynamics K) : Prop :=
  (v.A.rows = d.n ∧ v.A.cols = d.n) ∧ (v.B.rows = d.n ∧ v.B.cols = d.m) ∧ v.d.rows = d.n

/-- The operation recomputes the prediction matrices of system `q`: `updateSystem()` on it, or a `solve()` of the
controller using it while it is stale. -/
def recomputes (w : World K) : FOp K → Nat → Bool
  | .call (.updatePs p), q => q == p
  | .call (.solve _), q => w.ctl.ps == some q && !(w.pss q).isUpdated
  | _, _ => false

/-- Book-keeping of the client: the members of each system at its last recomputation. -/
def remember (w : World K) (op : FOp K) (v : Nat → Dynamics K) (q : Nat) : Dynamics K :=
  if recomputes w op q then members (w.pss q) else v q

/-- The dynamics in force. -/
def inForce (w : World K) (v : Nat → Dynamics K) (q : Nat) : Dynamics K :=
  if (w.pss q).isUpdated then v q else members (w.pss q)

/-- The program state with the members of every system replaced by the dynamics in force. -/
def showing (w : World K) (v : Nat → Dynamics K) : World K :=
  { w with pss := fun q => { w.pss q with A := (inForce w v q).A, B := (inForce w v q).B, d := (inForce w v q).d } }

/-- The trajectory of the dynamics in force for system `p`. -/
def trajInForce (d : Dims) (w : World K) (v : Nat → Dynamics K) (p : Nat) (U : Nat → K) : Nat → Nat → K :=
  sim d (inForce w v p).A (inForce w v p).B (inForce w v p).d (w.pss p).x0.e U

/-- Half the sum of the declared costs of the trajectory of the dynamics in force, plus `0.5e-6 |U|^2`. -/
def totalCostInForce (d : Dims) (w : World K) (v : Nat → Dynamics K) (p : Nat) (U : Nat → K) : K :=
  1 / 2 * (w.ctl.spCost.map fun i => (w.costs i).userData.value d (trajInForce d w v p U) U).sum
    + 1 / 2 * (1 / 1000000) * ∑ j ∈ Finset.range (d.m * d.N), U j ^ 2

/-- The rules for one operation: those of `OpOk`, and assigned matrices of the right size, to systems that have been
given a system. -/
def FOpOk (d : Dims) (w : World K) (g : Ghost) : FOp K → Prop
  | .call op => OpOk d w g op
  | .writeA p A => HasSystem w p ∧ A.rows = d.n ∧ A.cols = d.n
  | .writeB p B => HasSystem w p ∧ B.rows = d.n ∧ B.cols = d.m
  | .writeD p v => HasSystem w p ∧ v.rows = d.n
  | .writeX0 _ x => x.rows = d.n
  | .markStale p => HasSystem w p

/-- Book-keeping of `Hist` (assignments change nothing there). -/
def Ghost.fnext (g : Ghost) (w : World K) (ok : Prop) : FOp K → Ghost
  | .call op => g.next w ok op
  | _ => g

/-- The extra condition `E` on calls (assignments are always allowed). -/
def OnCalls (E : World K → Op K → Prop) (w : World K) : FOp K → Prop
  | .call op => E w op
  | _ => True

/-- Histories of API calls and assignments.  `v` remembers the members of each system at its last recomputation. -/
inductive FHist (d : Dims) (dmax : K) (E : World K → Op K → Prop) : World K → Ghost → (Nat → Dynamics K) → Prop
  | start {w v} : World.Init w → FHist d dmax E w Ghost.start v
  | ok {w w' g v op} : FHist d dmax E w g v → FOpOk d w g op → OnCalls E w op → w.fstep dmax op = .ok w' →
      FHist d dmax E w' (g.fnext w True op) (remember w op v)
  | thrown {w w' g v op e} : FHist d dmax E w g v → FOpOk d w g op → OnCalls E w op → w.fstep dmax op = .thrown e w' →
      FHist d dmax E w' (g.fnext w False op) (remember w op v)

/-- A condition on calls that does not look at the preview systems' members and allows assigning them. -/
structure BlindToMembers (E : World K → Op K → Prop) : Prop where
  blind : ∀ (w : World K) pss op, E w op → E { w with pss := pss } op
  assign : ∀ w p A B v, E w (.setDynamics p A B v)
  start : ∀ w p x, E w (.xInit p x)

end Spec
end Copra
