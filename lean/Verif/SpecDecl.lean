import Verif.SpecHist
import Mathlib.Logic.Function.Basic

/-! # Specification vocabulary: what a client program has declared

An abstract machine with no prediction matrices, caches, typed lists, counters, flags or buffers: its state is only the
data the client passed in, and every API call changes that data in the obvious way.  C90 says that the library behaves
like this machine. -/

namespace Copra.Spec
variable {K α : Type}

/-- The data of a preview system. -/
@[ext] structure SysDecl (K : Type) where
  A : Mat K
  B : Mat K
  bias : Vec K
  x0 : Vec K
  N : Nat

/-- Everything declared so far. -/
@[ext] structure Declared (K : Type) where
  /-- the preview systems -/
  sys : Nat → SysDecl K
  /-- the constraint and cost objects -/
  cons : Nat → ConstrData K
  costs : Nat → CostData K
  /-- number of references the client holds to them -/
  refsC : Nat → Nat
  refsK : Nat → Nat
  /-- the control constraints and control bounds that some controller has accepted -/
  used : Nat → Prop
  /-- the controller: its class, its system, its initial-state cost and bounds, and what was added to it, in order -/
  isInit : Bool
  ps : Option Nat
  R : Mat K
  r : Vec K
  lo : Vec (Ext K)
  up : Vec (Ext K)
  regC : List Nat
  regK : List Nat

/-- `M'` is the block diagonal matrix with `n` rows built from copies of `M`, followed by `extra` blocks of zero columns;
`M` itself if it has `n` rows already. -/
def SpannedMat [Zero K] (extra n : Nat) (M M' : Mat K) : Prop :=
  (n = M.rows ∧ M' = M) ∨
  (n ≠ M.rows ∧ 0 < M.rows ∧ M.rows ∣ n ∧ M'.rows = n ∧ M'.cols = M.cols * (n / M.rows + extra) ∧
    ∀ i < n, ∀ j < M'.cols, M'.e i j = if i / M.rows = j / M.cols then M.e (i % M.rows) (j % M.cols) else 0)

/-- `v'` is `v` repeated up to length `n`. -/
def SpannedVec (n : Nat) (v v' : Vec α) : Prop :=
  (n = v.rows ∧ v' = v) ∨ (n ≠ v.rows ∧ 0 < v.rows ∧ v.rows ∣ n ∧ v'.rows = n ∧ ∀ i < n, v'.e i = v.e (i % v.rows))

section
variable [Field K]

/-- The second is the first after `autoSpan()`: all members repeated up to the largest of their row counts. -/
def ConstrData.Spanned : ConstrData K → ConstrData K → Prop
  | .trajectory q E f, D => ∃ E' f', D = .trajectory q E' f' ∧
      SpannedMat 0 (max E.rows f.rows) E E' ∧ SpannedVec (max E.rows f.rows) f f'
  | .control q G f, D => ∃ G' f', D = .control q G' f' ∧
      SpannedMat 0 (max G.rows f.rows) G G' ∧ SpannedVec (max G.rows f.rows) f f'
  | .mixed q E G f, D => ∃ E' G' f', D = .mixed q E' G' f' ∧
      SpannedMat 1 (max f.rows (max E.rows G.rows)) E E' ∧ SpannedMat 0 (max f.rows (max E.rows G.rows)) G G' ∧
      SpannedVec (max f.rows (max E.rows G.rows)) f f'
  | .trajBound l u, D => ∃ l' u', D = .trajBound l' u' ∧
      SpannedVec (max l.rows u.rows) l l' ∧ SpannedVec (max l.rows u.rows) u u'
  | .ctrlBound l u, D => ∃ l' u', D = .ctrlBound l' u' ∧
      SpannedVec (max l.rows u.rows) l l' ∧ SpannedVec (max l.rows u.rows) u u'

/-- After an `autoSpan()` that threw: every member is as before or repeated. -/
def ConstrData.HalfSpanned : ConstrData K → ConstrData K → Prop
  | .trajectory q E f, D => ∃ E' f', D = .trajectory q E' f' ∧
      (E' = E ∨ SpannedMat 0 (max E.rows f.rows) E E') ∧ (f' = f ∨ SpannedVec (max E.rows f.rows) f f')
  | .control q G f, D => ∃ G' f', D = .control q G' f' ∧
      (G' = G ∨ SpannedMat 0 (max G.rows f.rows) G G') ∧ (f' = f ∨ SpannedVec (max G.rows f.rows) f f')
  | .mixed q E G f, D => ∃ E' G' f', D = .mixed q E' G' f' ∧
      (E' = E ∨ SpannedMat 1 (max f.rows (max E.rows G.rows)) E E') ∧
      (G' = G ∨ SpannedMat 0 (max f.rows (max E.rows G.rows)) G G') ∧
      (f' = f ∨ SpannedVec (max f.rows (max E.rows G.rows)) f f')
  | .trajBound l u, D => ∃ l' u', D = .trajBound l' u' ∧
      (l' = l ∨ SpannedVec (max l.rows u.rows) l l') ∧ (u' = u ∨ SpannedVec (max l.rows u.rows) u u')
  | .ctrlBound l u, D => ∃ l' u', D = .ctrlBound l' u' ∧
      (l' = l ∨ SpannedVec (max l.rows u.rows) l l') ∧ (u' = u ∨ SpannedVec (max l.rows u.rows) u u')

/-- The same for costs; `TargetCost` has no `autoSpan()` of its own. -/
def CostData.Spanned : CostData K → CostData K → Prop
  | .trajectory M p w, D => ∃ M' p' w', D = .trajectory M' p' w' ∧
      SpannedMat 0 (max M.rows (max w.rows p.rows)) M M' ∧ SpannedVec (max M.rows (max w.rows p.rows)) p p' ∧
      SpannedVec (max M.rows (max w.rows p.rows)) w w'
  | .target M p w, D => D = .target M p w
  | .control N p w, D => ∃ N' p' w', D = .control N' p' w' ∧
      SpannedMat 0 (max N.rows (max w.rows p.rows)) N N' ∧ SpannedVec (max N.rows (max w.rows p.rows)) p p' ∧
      SpannedVec (max N.rows (max w.rows p.rows)) w w'
  | .mixed M N p w, D => ∃ M' N' p' w', D = .mixed M' N' p' w' ∧
      SpannedMat 1 (max M.rows (max N.rows (max w.rows p.rows))) M M' ∧
      SpannedMat 0 (max M.rows (max N.rows (max w.rows p.rows))) N N' ∧
      SpannedVec (max M.rows (max N.rows (max w.rows p.rows))) p p' ∧
      SpannedVec (max M.rows (max N.rows (max w.rows p.rows))) w w'

def CostData.HalfSpanned : CostData K → CostData K → Prop
  | .trajectory M p w, D => ∃ M' p' w', D = .trajectory M' p' w' ∧
      (M' = M ∨ SpannedMat 0 (max M.rows (max w.rows p.rows)) M M') ∧
      (p' = p ∨ SpannedVec (max M.rows (max w.rows p.rows)) p p') ∧
      (w' = w ∨ SpannedVec (max M.rows (max w.rows p.rows)) w w')
  | .target M p w, D => D = .target M p w
  | .control N p w, D => ∃ N' p' w', D = .control N' p' w' ∧
      (N' = N ∨ SpannedMat 0 (max N.rows (max w.rows p.rows)) N N') ∧
      (p' = p ∨ SpannedVec (max N.rows (max w.rows p.rows)) p p') ∧
      (w' = w ∨ SpannedVec (max N.rows (max w.rows p.rows)) w w')
  | .mixed M N p w, D => ∃ M' N' p' w', D = .mixed M' N' p' w' ∧
      (M' = M ∨ SpannedMat 1 (max M.rows (max N.rows (max w.rows p.rows))) M M') ∧
      (N' = N ∨ SpannedMat 0 (max M.rows (max N.rows (max w.rows p.rows))) N N') ∧
      (p' = p ∨ SpannedVec (max M.rows (max N.rows (max w.rows p.rows))) p p') ∧
      (w' = w ∨ SpannedVec (max M.rows (max N.rows (max w.rows p.rows))) w w')

/-- `autoSpan()` is possible: the row counts of all members divide the largest of them. -/
def ConstrData.Spannable : ConstrData K → Prop
  | .trajectory _ E f => E.rows ∣ max E.rows f.rows ∧ f.rows ∣ max E.rows f.rows
  | .control _ G f => G.rows ∣ max G.rows f.rows ∧ f.rows ∣ max G.rows f.rows
  | .mixed _ E G f => E.rows ∣ max f.rows (max E.rows G.rows) ∧ G.rows ∣ max f.rows (max E.rows G.rows) ∧
      f.rows ∣ max f.rows (max E.rows G.rows)
  | .trajBound l u | .ctrlBound l u => l.rows ∣ max l.rows u.rows ∧ u.rows ∣ max l.rows u.rows

def CostData.Spannable : CostData K → Prop
  | .trajectory M p w | .control M p w => M.rows ∣ max M.rows (max w.rows p.rows) ∧
      p.rows ∣ max M.rows (max w.rows p.rows) ∧ w.rows ∣ max M.rows (max w.rows p.rows)
  | .target _ _ _ => True
  | .mixed M N p w => M.rows ∣ max M.rows (max N.rows (max w.rows p.rows)) ∧
      N.rows ∣ max M.rows (max N.rows (max w.rows p.rows)) ∧ p.rows ∣ max M.rows (max N.rows (max w.rows p.rows)) ∧
      w.rows ∣ max M.rows (max N.rows (max w.rows p.rows))

/-- The members have equally many rows, and as many columns (for bounds: rows) as the state or control of one step or as
the whole stacked trajectory or control sequence. -/
def ConstrData.Suits (n m N : Nat) : ConstrData K → Prop
  | .trajectory _ E f => E.rows = f.rows ∧ (E.cols = n ∨ E.cols = n * (N + 1))
  | .control _ G f => G.rows = f.rows ∧ (G.cols = m ∨ G.cols = m * N)
  | .mixed _ E G f => E.rows = f.rows ∧ G.rows = f.rows ∧
      ((E.cols = n ∧ G.cols = m) ∨ (E.cols = n * (N + 1) ∧ G.cols = m * N))
  | .trajBound l u => l.rows = u.rows ∧ (l.rows = n ∨ l.rows = n * (N + 1))
  | .ctrlBound l u => l.rows = u.rows ∧ (l.rows = m ∨ l.rows = m * N)

def CostData.Suits (n m N : Nat) : CostData K → Prop
  | .trajectory M p _ => M.rows = p.rows ∧ (M.cols = n ∨ M.cols = n * (N + 1))
  | .target M p _ => M.rows = p.rows ∧ M.cols = n
  | .control M p _ => M.rows = p.rows ∧ (M.cols = m ∨ M.cols = m * N)
  | .mixed M N' p _ => M.rows = p.rows ∧ N'.rows = p.rows ∧
      ((M.cols = n ∧ N'.cols = m) ∨ (M.cols = n * (N + 1) ∧ N'.cols = m * N))

/-- Control constraints and control bounds can be accepted only once. -/
def ConstrData.SingleUse : ConstrData K → Prop
  | .control _ _ _ | .ctrlBound _ _ => True
  | _ => False

/-- The data suits a preview system. -/
def SysDecl.Takes (s : SysDecl K) (C : ConstrData K) : Prop := C.Suits s.A.cols s.B.cols s.N
def SysDecl.TakesCost (s : SysDecl K) (C : CostData K) : Prop := C.Suits s.A.cols s.B.cols s.N

/-- The weights of a cost. -/
def CostData.weightsOf : CostData K → Vec K
  | .trajectory _ _ w | .target _ _ w | .control _ _ w | .mixed _ _ _ w => w

/-- The cost with other weights. -/
def CostData.withWeights (v : Vec K) : CostData K → CostData K
  | .trajectory M p _ => .trajectory M p v
  | .target M p _ => .target M p v
  | .control N p _ => .control N p v
  | .mixed M N p _ => .mixed M N p v

open Function (update) in
/-- What a call that returns does to the declared data. -/
def Effect (D : Declared K) : Op K → Declared K → Prop
  | .system p A B v x N, D' => D' = { D with sys := update D.sys p ⟨A, B, v, x, N.toNat⟩ }
  | .xInit p x, D' => D' = { D with sys := update D.sys p { D.sys p with x0 := x } }
  | .setDynamics p A B v, D' => D' = { D with sys := update D.sys p { D.sys p with A := A, B := B, bias := v } }
  | .spanConstr i _, D' => ∃ C, (D.cons i).Spanned C ∧ D' = { D with cons := update D.cons i C }
  | .spanCost i _, D' => ∃ C, (D.costs i).Spanned C ∧ D' = { D with costs := update D.costs i C }
  | .weights i v, D' => ∃ v', SpannedVec (D.costs i).weightsOf.rows v v' ∧
      D' = { D with costs := update D.costs i ((D.costs i).withWeights v') }
  | .weight i x, D' => D' = { D with costs := update D.costs i ((D.costs i).withWeights ⟨(D.costs i).weightsOf.rows, fun _ => x⟩) }
  | .refsConstr i n, D' => D' = { D with refsC := update D.refsC i n }
  | .refsCost i n, D' => D' = { D with refsK := update D.refsK i n }
  | .construct b _, D' => ∃ R r lo up, D' = { D with isInit := b, ps := none, R := R, r := r, lo := lo, up := up, regC := [], regK := [] } ∧
      R.rows = 0 ∧ R.cols = 0 ∧ r.rows = 0 ∧ lo.rows = 0 ∧ up.rows = 0
  | .constructPs b _ p _, D' => ∃ R r lo up, D' = { D with isInit := b, ps := some p, R := R, r := r, lo := lo, up := up, regC := [], regK := [] } ∧
      (b = true → R = ⟨(D.sys p).A.cols, (D.sys p).A.cols, fun _ _ => 0⟩ ∧ r = ⟨(D.sys p).A.cols, fun _ => 0⟩ ∧
        lo = ⟨(D.sys p).x0.rows, fun j => .fin ((D.sys p).x0.e j)⟩ ∧ up = ⟨(D.sys p).x0.rows, fun j => .fin ((D.sys p).x0.e j)⟩)
  | .initializeController p _, D' => D' = { D with ps := some p }
  | .addCost i _, D' => D' = { D with regK := D.regK ++ [i] }
  | .addConstraint i _, D' => D' = { D with
      regC := D.regC ++ [i], used := fun j => D.used j ∨ (j = i ∧ (D.cons i).SingleUse) }
  | .initConstr i _ _, D' => D' = { D with used := fun j => D.used j ∨ (j = i ∧ (D.cons i).SingleUse) }
  | .removeCost i, D' => D' = { D with regK := D.regK.erase i }
  | .removeConstraint i, D' => D' = { D with regC := D.regC.erase i }
  | .clearCosts, D' => D' = { D with regK := [] }
  | .clearConstraints, D' => D' = { D with regC := [] }
  | .resetInitialStateCost R r, D' => D' = { D with R := R, r := r }
  | .resetInitialStateBounds l u, D' => D' = { D with lo := l, up := u }
  | .solve _, D' => D' = { D with
      regC := D.regC.filter fun i => 0 < D.refsC i ∨ 1 < D.regC.count i
      regK := D.regK.filter fun i => 0 < D.refsK i ∨ 1 < D.regK.count i }
  | .updatePs _, D' | .updateConstr _ _, D' | .initCost _ _ _, D' | .updateCost _ _, D'
  | .useSolver _, D' => D' = D

/-- The calls that throw, and what they throw. -/
def Rejects (D : Declared K) : Op K → Exn → Prop
  | .system _ A B v x N, e => e = .domainError ∧
      ¬ (0 < N ∧ A.rows = A.cols ∧ B.rows = A.rows ∧ v.rows = A.rows ∧ x.rows = A.rows)
  | .spanConstr i _, e => e = .domainError ∧ ¬ (D.cons i).Spannable
  | .spanCost i _, e => e = .domainError ∧ ¬ (D.costs i).Spannable
  | .weights i v, e => e = .domainError ∧ ¬ v.rows ∣ (D.costs i).weightsOf.rows
  | .initConstr i p _, e => (e = .runtimeError ∧ D.used i) ∨ (e = .domainError ∧ ¬ D.used i ∧ ¬ (D.sys p).Takes (D.cons i))
  | .addConstraint i _, e => ∃ p, D.ps = some p ∧
      ((e = .runtimeError ∧ D.used i) ∨ (e = .domainError ∧ ¬ D.used i ∧ ¬ (D.sys p).Takes (D.cons i)))
  | .initCost i p _, e => e = .domainError ∧ ¬ (D.sys p).TakesCost (D.costs i)
  | .addCost i _, e => ∃ p, D.ps = some p ∧ e = .domainError ∧ ¬ (D.sys p).TakesCost (D.costs i)
  | _, _ => False

open Function (update) in
/-- What a call that throws does to the declared data: nothing, except that `autoSpan` may stop half way. -/
def FailedEffect (D : Declared K) : Op K → Declared K → Prop
  | .spanConstr i _, D' => ∃ C, (D.cons i).HalfSpanned C ∧ D' = { D with cons := update D.cons i C }
  | .spanCost i _, D' => ∃ C, (D.costs i).HalfSpanned C ∧ D' = { D with costs := update D.costs i C }
  | _, D' => D' = D

/-- One call of the machine, with its outcome: `none` if it returns, `some e` if it throws `e`. -/
def Machine (D : Declared K) (op : Op K) : Option Exn → Declared K → Prop
  | none, D' => (∀ e, ¬ Rejects D op e) ∧ Effect D op D'
  | some e, D' => Rejects D op e ∧ FailedEffect D op D'

/-- The machine executes a list of calls with outcomes. -/
inductive Declares : Declared K → List (Op K × Option Exn) → Declared K → Prop
  | nil {D} : Declares D [] D
  | call {D D' D'' op o l} : Declares D l D' → Machine D' op o D'' → Declares D (l ++ [(op, o)]) D''

/-- What is declared in a state of the library. -/
def declared (w : World K) : Declared K where
  sys := fun p => ⟨(w.pss p).A, (w.pss p).B, (w.pss p).d, (w.pss p).x0, (w.pss p).nrUStep⟩
  cons := fun i => (w.cons i).userData
  costs := fun i => (w.costs i).userData
  refsC := w.extCons
  refsK := w.extCosts
  used := fun i => (w.cons i).userData.SingleUse ∧ (w.cons i).hasBeenInitialized = true
  isInit := w.ctl.isInit
  ps := w.ctl.ps
  R := w.ctl.R
  r := w.ctl.r
  lo := w.ctl.x0lb
  up := w.ctl.x0ub
  regC := w.ctl.spConstr
  regK := w.ctl.spCost

end

variable [Field K] [LinearOrder K]

/-- The library executes a list of calls with outcomes, from a program start, keeping the rules (`Hist`). -/
inductive Executes (d : Dims) (dmax : K) (E : World K → Op K → Prop) (w0 : World K) :
    List (Op K × Option Exn) → World K → Ghost → Prop
  | start : World.Init w0 → Executes d dmax E w0 [] w0 Ghost.start
  | ok {l w w' g op} : Executes d dmax E w0 l w g → OpOk d w g op → E w op → w.step dmax op = .ok w' →
      Executes d dmax E w0 (l ++ [(op, none)]) w' (g.next w True op)
  | thrown {l w w' g op e} : Executes d dmax E w0 l w g → OpOk d w g op → E w op → w.step dmax op = .thrown e w' →
      Executes d dmax E w0 (l ++ [(op, some e)]) w' (g.next w False op)

namespace Declared

/-- The trajectory of the declared system `p` under the controls `U`. -/
def traj (d : Dims) (D : Declared K) (p : Nat) (U : Nat → K) : Nat → Nat → K :=
  sim d (D.sys p).A (D.sys p).B (D.sys p).bias (D.sys p).x0.e U

/-- `U` satisfies everything that was added to the controller. -/
def Admits (d : Dims) (D : Declared K) (p : Nat) (U : Nat → K) : Prop :=
  ∀ i ∈ D.regC, (D.cons i).Holds d (D.traj d p U) U

/-- Half the sum of the costs that were added to the controller, and the documented regularisation. -/
def cost (d : Dims) (D : Declared K) (p : Nat) (U : Nat → K) : K :=
  1 / 2 * (D.regK.map fun i => (D.costs i).value d (D.traj d p U) U).sum
    + 1 / 2 * (1 / 1000000) * ∑ j ∈ Finset.range (d.m * d.N), U j ^ 2

end Declared

end Copra.Spec
