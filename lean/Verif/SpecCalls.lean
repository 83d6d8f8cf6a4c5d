import Verif.Model.Calls
import Verif.SpecUserAbort

/-! # Specification of the calls `solve()` makes into client code -/

namespace Copra.Spec
variable {K S : Type} [Field K]

/-- The arguments of `SI_solve` are a problem with `nrVar` variables, `nrEq` equalities and `nrIneq` inequalities. -/
structure SolveArgs.Sized (a : SolveArgs K) (nrVar nrEq nrIneq : Nat) : Prop where
  Qr : a.Q.rows = nrVar
  Qc : a.Q.cols = nrVar
  c : a.c.rows = nrVar
  Aeqr : a.Aeq.rows = nrEq
  Aeqc : a.Aeq.cols = nrVar
  beq : a.beq.rows = nrEq
  Aineqr : a.Aineq.rows = nrIneq
  Aineqc : a.Aineq.cols = nrVar
  bineq : a.bineq.rows = nrIneq
  lb : a.lb.rows = nrVar
  ub : a.ub.rows = nrVar

/-- The preview system `ps` describes the plant as system `p` of `w` does now, and predicts it exactly: its matrices have
the announced sizes and `Phi x + Psi U + xi` is the simulation, for every initial state and all controls. -/
structure PredictsNow (d : Dims) (w : World K) (p : Nat) (ps : PreviewSystem K) : Prop where
  x0 : ps.x0 = (w.pss p).x0
  xDim : ps.xDim = d.n
  uDim : ps.uDim = d.m
  nrUStep : ps.nrUStep = d.N
  isUpdated : ps.isUpdated = true
  Phi : ps.Phi.rows = d.n * (d.N + 1) ∧ ps.Phi.cols = d.n
  Psi : ps.Psi.rows = d.n * (d.N + 1) ∧ ps.Psi.cols = d.m * d.N
  xi : ps.xi.rows = d.n * (d.N + 1)
  predicts : ∀ x U : Nat → K, ∀ k ≤ d.N, ∀ r < d.n,
    rowValue ps.Phi x (k * d.n + r) + rowValue ps.Psi U (k * d.n + r) + ps.xi.e (k * d.n + r) = trajFrom d w p x U k r

/-- Histories as in `SpecUserAbort.AUHist`, with the record `log` of all the calls the `solve`s made, in order.  At each
`solve` that is not aborted the registered classes keep to what their authors owe the controller. -/
inductive Logged (d : Dims) (dmax : K) : UWorld K S → Ghost → Nat × Nat → List (Call K) → Prop
  | start {X} : X.Init → Logged d dmax X Ghost.start (0, 0) []
  | ok {X X' g n log op} : Logged d dmax X g n log → UOk d X g op → (∀ env, op ≠ .api (.solve env)) →
      X.step dmax op = .ok X' → RowsFit (countRows n X X' op) op →
      Logged d dmax X' (unext g X True op) (countRows n X X' op) log
  | thrown {X X' g n log op e} : Logged d dmax X g n log → UOk d X g op → X.step dmax op = .thrown e X' →
      Logged d dmax X' (unext g X False op) n log
  | solved {X X' g n log env t b q} : Logged d dmax X g n log → UOk d X g (.api (.solve env)) → Conforming d X →
      X.solveCalls env = some (t, X', b, q) →
      Logged d dmax X' (unext g X True (.api (.solve env))) (countRows n X X' (.api (.solve env))) (log ++ t)
  | aborted {X X' g n log junk a t} : Logged d dmax X g n log → X.solveUserThrowCalls junk a = some (t, X') →
      Logged d dmax X' (abortGhost g X a) n (log ++ t)

/-- What a solver written by a client may rely on: every `SI_solve` directly follows an `SI_problem` that announced the
sizes of its arguments, and `SI_result` is only called after an `SI_solve` that returned `true`, with no other call in
between. -/
structure Protocol (log : List (Call K)) : Prop where
  announced : ∀ pre post a r, log = pre ++ .solve a r :: post →
    ∃ pre' n e i, pre = pre' ++ [.problem n e i] ∧ SolveArgs.Sized a n e i
  succeeded : ∀ pre post, log = pre ++ .result :: post →
    ∃ pre' a rest, pre = pre' ++ .solve a (some true) :: rest ∧ ∀ c ∈ rest, c = .result

end Copra.Spec
