import Verif.SpecHist

/-! # Specification vocabulary: idle actuators (C116) -/

namespace Copra.Spec
variable {K : Type}

/-- The controls with those marked by `off` set to zero. -/
def switchedOff [Zero K] (off : Nat → Bool) (U : Nat → K) (j : Nat) : K := if off j then 0 else U j

/-- Control `c` of every step. -/
def actuator (m c j : Nat) : Bool := decide (j % m = c)

section
variable [Field K] [LinearOrder K]

/-- From the initial state `x`, switching off the marked controls breaks no constraint and raises no declared cost. -/
structure IdleEntries (d : Dims) (w : World K) (p : Nat) (x : Nat → K) (off : Nat → Bool) : Prop where
  cons : ∀ U : Nat → K, (∀ i ∈ w.ctl.spConstr, (w.cons i).userData.Holds d (trajFrom d w p x U) U) →
    ∀ i ∈ w.ctl.spConstr, (w.cons i).userData.Holds d (trajFrom d w p x (switchedOff off U)) (switchedOff off U)
  costs : ∀ U : Nat → K,
    (w.ctl.spCost.map fun i => (w.costs i).userData.value d (trajFrom d w p x (switchedOff off U)) (switchedOff off U)).sum ≤
      (w.ctl.spCost.map fun i => (w.costs i).userData.value d (trajFrom d w p x U) U).sum

/-- The constraint does not look at control `c`, or allows it to be zero. -/
def ConstrData.LeavesIdle (d : Dims) (c : Nat) : ConstrData K → Prop
  | .trajectory _ _ _ | .trajBound _ _ => True
  | .control _ G _ => if G.cols = d.m then ∀ r < G.rows, G.e r c = 0 else ∀ r < G.rows, ∀ k < d.N, G.e r (k * d.m + c) = 0
  | .mixed _ E G _ =>
    if E.cols = d.n ∧ G.cols = d.m then ∀ r < E.rows, G.e r c = 0 else ∀ r < E.rows, ∀ k < d.N, G.e r (k * d.m + c) = 0
  | .ctrlBound l u =>
    if l.rows = d.m then l.e c ≤ Ext.fin 0 ∧ Ext.fin 0 ≤ u.e c
    else ∀ k < d.N, l.e (k * d.m + c) ≤ Ext.fin 0 ∧ Ext.fin 0 ≤ u.e (k * d.m + c)

/-- The cost does not look at control `c`. -/
def CostData.LeavesIdle (d : Dims) (c : Nat) : CostData K → Prop
  | .trajectory _ _ _ | .target _ _ _ => True
  | .control M _ _ => if M.cols = d.m then ∀ r < M.rows, M.e r c = 0 else ∀ r < M.rows, ∀ k < d.N, M.e r (k * d.m + c) = 0
  | .mixed M C _ _ =>
    if M.cols = d.n ∧ C.cols = d.m then ∀ r < M.rows, C.e r c = 0 else ∀ r < M.rows, ∀ k < d.N, C.e r (k * d.m + c) = 0

/-- Actuator `c` does not act on the system, and no registered constraint or cost looks at it, but for control bounds that allow
it to rest. -/
structure IdleActuator (d : Dims) (w : World K) (p : Nat) (c : Nat) : Prop where
  lt : c < d.m
  B : ∀ r < d.n, (w.pss p).B.e r c = 0
  cons : ∀ i ∈ w.ctl.spConstr, ConstrData.LeavesIdle d c (w.cons i).userData
  costs : ∀ i ∈ w.ctl.spCost, CostData.LeavesIdle d c (w.costs i).userData

end

end Copra.Spec
