import Verif.SpecFields
import Verif.Model.Supplied

/-! # Specification vocabulary: programs that supply their own prediction matrices

Each preview system has a *prediction in force*, which maps an initial state and a control sequence to a trajectory:
while the system is stale (`isUpdated` is false), the simulation of its current members `A`, `B`, `d`; otherwise the
affine map `Phi x0 + Psi U + xi` of its current prediction matrices, whoever wrote them. -/

namespace Copra.Spec
variable {K : Type} [Field K]

/-- Component `r` of the state after `k` steps according to the prediction matrices: `Phi x + Psi U + xi`. -/
def predicted (d : Dims) (Phi Psi : Mat K) (xi : Vec K) (x U : Nat → K) (k r : Nat) : K :=
  (∑ c ∈ Finset.range d.n, Phi.e (k * d.n + r) c * x c)
    + (∑ j ∈ Finset.range (d.m * d.N), Psi.e (k * d.n + r) j * U j) + xi.e (k * d.n + r)

/-- The prediction in force. -/
def predNow (d : Dims) (ps : PreviewSystem K) (x U : Nat → K) : Nat → Nat → K :=
  if ps.isUpdated then predicted d ps.Phi ps.Psi ps.xi x U else sim d ps.A ps.B ps.d x U

/-- The predicted trajectory of system `p` from its own initial state. -/
def trajNow (d : Dims) (w : World K) (p : Nat) (U : Nat → K) : Nat → Nat → K :=
  predNow d (w.pss p) (w.pss p).x0.e U

/-- Half the sum of the declared costs of the predicted trajectory, plus `0.5e-6 |U|^2`. -/
def totalCostNow (d : Dims) (w : World K) (p : Nat) (U : Nat → K) : K :=
  1 / 2 * (w.ctl.spCost.map fun i => (w.costs i).userData.value d (trajNow d w p U) U).sum
    + 1 / 2 * (1 / 1000000) * ∑ j ∈ Finset.range (d.m * d.N), U j ^ 2

/-- The same from an initial state `x`. -/
def totalCostNowFrom (d : Dims) (w : World K) (p : Nat) (x U : Nat → K) : K :=
  1 / 2 * (w.ctl.spCost.map fun i => (w.costs i).userData.value d (predNow d (w.pss p) x U) U).sum
    + 1 / 2 * (1 / 1000000) * ∑ j ∈ Finset.range (d.m * d.N), U j ^ 2

/-- A `Phi` of the right size under which the state after no step is the initial state. -/
structure PhiFits (d : Dims) (M : Mat K) : Prop where
  rows : M.rows = d.n * (d.N + 1)
  cols : M.cols = d.n
  first : ∀ r < d.n, ∀ c < d.n, M.e r c = if r = c then 1 else 0

/-- A `Psi` of the right size under which no state depends on the present or future controls. -/
structure PsiFits (d : Dims) (M : Mat K) : Prop where
  rows : M.rows = d.n * (d.N + 1)
  cols : M.cols = d.m * d.N
  causal : ∀ k ≤ d.N, ∀ j < d.N, k ≤ j → ∀ r < d.n, ∀ c < d.m, M.e (k * d.n + r) (j * d.m + c) = 0

/-- A `xi` of the right size which does not move the initial state. -/
structure XiFits (d : Dims) (v : Vec K) : Prop where
  rows : v.rows = d.n * (d.N + 1)
  first : ∀ r < d.n, v.e r = 0

/-- The rules for one operation. -/
def SOpOk (d : Dims) (w : World K) (g : Ghost) : SOp K → Prop
  | .other op => FOpOk d w g op
  | .writePhi p M => HasSystem w p ∧ PhiFits d M
  | .writePsi p M => HasSystem w p ∧ PsiFits d M
  | .writeXi p v => HasSystem w p ∧ XiFits d v
  | .markUpdated p => HasSystem w p

/-- Book-keeping of `Hist` (assignments change nothing there). -/
def Ghost.snext (g : Ghost) (w : World K) (ok : Prop) : SOp K → Ghost
  | .other op => g.fnext w ok op
  | _ => g

/-- The extra condition `E` on calls (assignments are always allowed). -/
def OnSCalls (E : World K → Op K → Prop) (w : World K) : SOp K → Prop
  | .other op => OnCalls E w op
  | _ => True

/-- Histories of API calls and assignments, prediction matrices included. -/
inductive SHist (d : Dims) (dmax : K) (E : World K → Op K → Prop) : World K → Ghost → Prop
  | start {w} : World.Init w → SHist d dmax E w Ghost.start
  | ok {w w' g op} : SHist d dmax E w g → SOpOk d w g op → OnSCalls E w op → w.sstep dmax op = .ok w' →
      SHist d dmax E w' (g.snext w True op)
  | thrown {w w' g op e} : SHist d dmax E w g → SOpOk d w g op → OnSCalls E w op → w.sstep dmax op = .thrown e w' →
      SHist d dmax E w' (g.snext w False op)

/-- Mixed constraints given per step: one block of `E`, `G`, `f` imposed at every step. -/
def ConstrData.PerStepMixed (d : Dims) : ConstrData K → Prop
  | .mixed _ E G _ => E.cols = d.n ∧ G.cols = d.m
  | _ => False

/-- The effect of a control on a later state, other than the last one, depends on the delay only. -/
def DelayOnly (d : Dims) (Psi : Mat K) : Prop :=
  ∀ k, k + 1 < d.N → ∀ j, j + 1 < d.N → ∀ r < d.n, ∀ c < d.m,
    Psi.e ((k + 1) * d.n + r) ((j + 1) * d.m + c) = Psi.e (k * d.n + r) (j * d.m + c)

/-- What the code relies on: if a per-step mixed constraint is registered, supplied matrices have `DelayOnly`. -/
def MixedSuits (d : Dims) (w : World K) (p : Nat) : Prop :=
  (∃ i ∈ w.ctl.spConstr, (w.cons i).userData.PerStepMixed d) → (w.pss p).isUpdated = true → DelayOnly d (w.pss p).Psi

/-- Simulation of the time-varying system `x_{k+1} = A_k x_k + B_k u_k + v_k`. -/
def simVarying (d : Dims) (A B : Nat → Mat K) (v : Nat → Vec K) (x U : Nat → K) : Nat → Nat → K
  | 0 => x
  | k + 1 => fun r => (∑ t ∈ Finset.range d.n, (A k).e r t * simVarying d A B v x U k t)
      + (∑ c ∈ Finset.range d.m, (B k).e r c * ctrl d U k c) + (v k).e r

/-- Half the sum of the declared costs of the time-varying trajectory from the initial state of system `p`, plus
`0.5e-6 |U|^2`. -/
def totalCostVarying (d : Dims) (A B : Nat → Mat K) (v : Nat → Vec K) (w : World K) (p : Nat) (U : Nat → K) : K :=
  1 / 2 * (w.ctl.spCost.map fun i => (w.costs i).userData.value d (simVarying d A B v (w.pss p).x0.e U) U).sum
    + 1 / 2 * (1 / 1000000) * ∑ j ∈ Finset.range (d.m * d.N), U j ^ 2

/-- The prediction matrices of that system: computed row block by row block,
`Phi_0 = I`, `Phi_{k+1} = A_k Phi_k`, `Psi_0 = 0`, `Psi_{k+1} = A_k Psi_k + (0 .. B_k .. 0)`, `xi_0 = 0`,
`xi_{k+1} = A_k xi_k + v_k`. -/
structure Varying (d : Dims) (A B : Nat → Mat K) (v : Nat → Vec K) (Phi Psi : Mat K) (xi : Vec K) : Prop where
  phi0 : ∀ r < d.n, ∀ c < d.n, Phi.e r c = if r = c then 1 else 0
  phi : ∀ k < d.N, ∀ r < d.n, ∀ c < d.n,
    Phi.e ((k + 1) * d.n + r) c = ∑ t ∈ Finset.range d.n, (A k).e r t * Phi.e (k * d.n + t) c
  psi0 : ∀ r < d.n, ∀ j < d.N, ∀ c < d.m, Psi.e r (j * d.m + c) = 0
  psi : ∀ k < d.N, ∀ j < d.N, ∀ r < d.n, ∀ c < d.m, Psi.e ((k + 1) * d.n + r) (j * d.m + c) =
    (∑ t ∈ Finset.range d.n, (A k).e r t * Psi.e (k * d.n + t) (j * d.m + c)) + if j = k then (B k).e r c else 0
  xi0 : ∀ r < d.n, xi.e r = 0
  xi : ∀ k < d.N, ∀ r < d.n,
    xi.e ((k + 1) * d.n + r) = (∑ t ∈ Finset.range d.n, (A k).e r t * xi.e (k * d.n + t)) + (v k).e r

end Copra.Spec
