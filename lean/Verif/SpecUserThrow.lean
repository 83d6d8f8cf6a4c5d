import Verif.SpecUserAbort
import Verif.Model.UserThrow

/-! # Specification vocabulary: histories in which any code of the client may throw inside `solve` (C115) -/

namespace Copra.Spec
variable {K S : Type} [Field K]

/-- Histories as in `SpecUserAbort.AUHist`, in which moreover any `solve()` may be aborted by an exception from the solver. -/
inductive XHist (d : Dims) (dmax : K) : UWorld K S → Ghost → Nat × Nat → Prop
  | start {X} : X.Init → XHist d dmax X Ghost.start (0, 0)
  | ok {X X' g n op} : XHist d dmax X g n → UOk d X g op → X.step dmax op = .ok X' → RowsFit (countRows n X X' op) op →
      XHist d dmax X' (unext g X True op) (countRows n X X' op)
  | thrown {X X' g n op e} : XHist d dmax X g n → UOk d X g op → X.step dmax op = .thrown e X' →
      XHist d dmax X' (unext g X False op) n
  | aborted {X X' g n junk a} : XHist d dmax X g n → X.solveUserThrow junk a = some X' →
      XHist d dmax X' (abortGhost g X a) n
  | solverThrew {X X' g n env q} : XHist d dmax X g n → UOk d X g (.api (.solve env)) → X.solveThrow env = some (X', q) →
      XHist d dmax X' (unext g X True (.api (.solve env))) (countRows n X X' (.api (.solve env)))

/-- The two program states are the same but for the time measurements. -/
def ButTimesU (X X' : UWorld K S) : Prop :=
  ∃ a b, X' = { X with world := { X.world with ctl := { X.world.ctl with solveTime := a, solveAndBuildTime := b } } }

/-- `update` leaves members that a second `update` with the same system leaves as they are: the class computes its rows from its own
data, and does not count how often it was asked. -/
def ConstrClass.Settles (C : ConstrClass K S) : Prop := ∀ ps o o', C.update ps o = some o' → C.update ps o' = some o'

/-- The same of a cost class. -/
def CostClass.Settles (C : CostClass K S) : Prop := ∀ ps o o', C.update ps o = some o' → C.update ps o' = some o'

/-- The classes of all registered user-defined objects settle. -/
def Settled (X : UWorld K S) : Prop :=
  (∀ i ∈ X.world.ctl.spConstr, ∀ C, X.consClass i = some C → ConstrClass.Settles C) ∧
  ∀ i ∈ X.world.ctl.spCost, ∀ C, X.costClass i = some C → CostClass.Settles C

end Copra.Spec
