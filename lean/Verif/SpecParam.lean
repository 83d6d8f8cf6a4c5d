import Verif.Model.LMPC

/-! # Specification vocabulary: the same program on two scalar types

Two programs make the same calls on numbers of two types `K` and `L`; `rel a b` says which number of `L` stands for
which number of `K`.  The relations below say that two matrices, objects, states, calls ... have the same sizes and
switches and that the numbers they contain correspond. -/

namespace Copra.Spec
variable {K L α β : Type}

/-- Any two numbers correspond: only sizes and switches are compared. -/
abbrev AnyNum {K L : Type} (_ : K) (_ : L) : Prop := True

/-- `rel` is respected by the operations of the scalars. -/
structure ScalarRel [Zero K] [One K] [Add K] [Sub K] [Neg K] [Mul K] [Arith K]
    [Zero L] [One L] [Add L] [Sub L] [Neg L] [Mul L] [Arith L] (rel : K → L → Prop) : Prop where
  zero : rel 0 0
  one : rel 1 1
  add {a b a' b'} : rel a a' → rel b b' → rel (a + b) (a' + b')
  sub {a b a' b'} : rel a a' → rel b b' → rel (a - b) (a' - b')
  neg {a a'} : rel a a' → rel (-a) (-a')
  mul {a b a' b'} : rel a a' → rel b b' → rel (a * b) (a' * b')
  dot {s n f g f' g'} : (∀ k < n, rel (f k) (f' k)) → (∀ k < n, rel (g k) (g' k)) →
    rel (Arith.dot s n f g) (Arith.dot s n f' g')
  micro : rel Arith.micro Arith.micro

/-- Both absent, or both present and related. -/
def OptR (r : α → β → Prop) : Option α → Option β → Prop
  | some a, some b => r a b
  | none, none => True
  | _, _ => False

/-- The same outcome (return, the same exception, undefined behaviour) with related objects. -/
def ResR (r : α → β → Prop) : Res α → Res β → Prop
  | .ok a, .ok b => r a b
  | .thrown e a, .thrown e' b => e = e' ∧ r a b
  | .ub, .ub => True
  | _, _ => False

/-- The same infinity, or related finite numbers. -/
def ExtR (rel : K → L → Prop) : Ext K → Ext L → Prop
  | .ninf, .ninf => True
  | .pinf, .pinf => True
  | .fin a, .fin b => rel a b
  | _, _ => False

structure MatR (rel : K → L → Prop) (A : Mat K) (B : Mat L) : Prop where
  rows : A.rows = B.rows
  cols : A.cols = B.cols
  e : ∀ i j, rel (A.e i j) (B.e i j)

structure VecR (r : α → β → Prop) (u : Vec α) (v : Vec β) : Prop where
  rows : u.rows = v.rows
  e : ∀ i, r (u.e i) (v.e i)

structure JunkR (rel : K → L → Prop) (j : Junk K) (j' : Junk L) : Prop where
  m : ∀ s a b, rel (j.m s a b) (j'.m s a b)
  v : ∀ s a, rel (j.v s a) (j'.v s a)
  x : ∀ s a, ExtR rel (j.x s a) (j'.x s a)

structure PsR (rel : K → L → Prop) (p : PreviewSystem K) (q : PreviewSystem L) : Prop where
  isUpdated : p.isUpdated = q.isUpdated
  nrUStep : p.nrUStep = q.nrUStep
  nrXStep : p.nrXStep = q.nrXStep
  xDim : p.xDim = q.xDim
  uDim : p.uDim = q.uDim
  fullXDim : p.fullXDim = q.fullXDim
  fullUDim : p.fullUDim = q.fullUDim
  x0 : VecR rel p.x0 q.x0
  A : MatR rel p.A q.A
  B : MatR rel p.B q.B
  d : VecR rel p.d q.d
  Phi : MatR rel p.Phi q.Phi
  Psi : MatR rel p.Psi q.Psi
  xi : VecR rel p.xi q.xi

structure ConstrR (rel : K → L → Prop) (c : Constr K) (c' : Constr L) : Prop where
  kind : c.kind = c'.kind
  isIneq : c.isIneq = c'.isIneq
  nrConstr : c.nrConstr = c'.nrConstr
  fullSizeEntry : c.fullSizeEntry = c'.fullSizeEntry
  hasBeenInitialized : c.hasBeenInitialized = c'.hasBeenInitialized
  E : MatR rel c.E c'.E
  G : MatR rel c.G c'.G
  f : VecR (ExtR rel) c.f c'.f
  lower : VecR (ExtR rel) c.lower c'.lower
  upper : VecR (ExtR rel) c.upper c'.upper
  lowerLines : c.lowerLines = c'.lowerLines
  upperLines : c.upperLines = c'.upperLines
  A : MatR rel c.A c'.A
  b : VecR (ExtR rel) c.b c'.b
  Y : MatR rel c.Y c'.Y
  z : VecR (ExtR rel) c.z c'.z
  lb : VecR (ExtR rel) c.lb c'.lb
  ub : VecR (ExtR rel) c.ub c'.ub

structure CostR (rel : K → L → Prop) (k : Cost K) (k' : Cost L) : Prop where
  kind : k.kind = k'.kind
  fullSizeEntry : k.fullSizeEntry = k'.fullSizeEntry
  M : MatR rel k.M k'.M
  N : MatR rel k.N k'.N
  p : VecR rel k.p k'.p
  weights : VecR rel k.weights k'.weights
  Q : MatR rel k.Q k'.Q
  c : VecR rel k.c k'.c
  E : MatR rel k.E k'.E
  f : VecR rel k.f k'.f

structure SolverR (rel : K → L → Prop) (s : Solver K) (s' : Solver L) : Prop where
  kind : s.kind = s'.kind
  result : VecR rel s.result s'.result

structure QPR (rel : K → L → Prop) (q : QP K) (q' : QP L) : Prop where
  nrVar : q.nrVar = q'.nrVar
  nrEq : q.nrEq = q'.nrEq
  nrIneq : q.nrIneq = q'.nrIneq
  Q : MatR rel q.Q q'.Q
  c : VecR rel q.c q'.c
  Aeq : MatR rel q.Aeq q'.Aeq
  beq : VecR (ExtR rel) q.beq q'.beq
  Aineq : MatR rel q.Aineq q'.Aineq
  bineq : VecR (ExtR rel) q.bineq q'.bineq
  lb : VecR (ExtR rel) q.lb q'.lb
  ub : VecR (ExtR rel) q.ub q'.ub

structure CtlR (rel : K → L → Prop) (l : LMPC K) (l' : LMPC L) : Prop where
  isInit : l.isInit = l'.isInit
  ps : l.ps = l'.ps
  sol : OptR (SolverR rel) l.sol l'.sol
  spCost : l.spCost = l'.spCost
  nrEqConstr : l.nrEqConstr = l'.nrEqConstr
  nrIneqConstr : l.nrIneqConstr = l'.nrIneqConstr
  spConstr : l.spConstr = l'.spConstr
  spEqConstr : l.spEqConstr = l'.spEqConstr
  spIneqConstr : l.spIneqConstr = l'.spIneqConstr
  spBoundConstr : l.spBoundConstr = l'.spBoundConstr
  Q : MatR rel l.Q l'.Q
  c : VecR rel l.c l'.c
  Aineq : MatR rel l.Aineq l'.Aineq
  bineq : VecR (ExtR rel) l.bineq l'.bineq
  Aeq : MatR rel l.Aeq l'.Aeq
  beq : VecR (ExtR rel) l.beq l'.beq
  lb : VecR (ExtR rel) l.lb l'.lb
  ub : VecR (ExtR rel) l.ub l'.ub
  trajectory : VecR rel l.trajectory l'.trajectory
  control : VecR rel l.control l'.control
  solveTime : l.solveTime = l'.solveTime
  solveAndBuildTime : l.solveAndBuildTime = l'.solveAndBuildTime
  R : MatR rel l.R l'.R
  r : VecR rel l.r l'.r
  x0lb : VecR (ExtR rel) l.x0lb l'.x0lb
  x0ub : VecR (ExtR rel) l.x0ub l'.x0ub

/-- The two program states agree up to `rel`. -/
structure WorldR (rel : K → L → Prop) (w : World K) (v : World L) : Prop where
  pss : ∀ p, PsR rel (w.pss p) (v.pss p)
  cons : ∀ i, ConstrR rel (w.cons i) (v.cons i)
  costs : ∀ i, CostR rel (w.costs i) (v.costs i)
  extCons : w.extCons = v.extCons
  extCosts : w.extCosts = v.extCosts
  ctl : CtlR rel w.ctl v.ctl

section
variable [Zero K] [One K] [Add K] [Sub K] [Neg K] [Mul K] [Arith K]

/-- A solve in state `w` gets as far as handing the problem `q` to the solver. -/
def Handed (w : World K) (env : SolveEnv K) (q : QP K) : Prop :=
  ∃ w1 p l, w.updateSystem env.junk = some w1 ∧ w1.ctl.ps = some p ∧
    w1.ctl.makeQPForm env.inverse w1.cons w1.costs (w1.pss p) = some l ∧ q = l.qp

/-- The environments of two corresponding solves: the same clocks, corresponding uninitialised memory, corresponding
answers to the problems that are handed over and (for an `InitialStateLMPC`) corresponding inverses. -/
structure EnvR (rel : K → L → Prop) (w : World K) (env : SolveEnv K) (env' : SolveEnv L) : Prop where
  junk : JunkR rel env.junk env'.junk
  times : env.t0 = env'.t0 ∧ env.t1 = env'.t1 ∧ env.t2 = env'.t2 ∧ env.t3 = env'.t3
  inverse : w.ctl.isInit = true → ∀ p, w.ctl.ps = some p → ∀ M M', MatR rel M M' → M.rows = (w.pss p).fullUDim →
    M.cols = (w.pss p).fullUDim → MatR rel (env.inverse M) (env'.inverse M')
  answer : ∀ q q', Handed w env q → QPR rel q q' →
    (env.answer q).1 = (env'.answer q').1 ∧ VecR rel (env.answer q).2 (env'.answer q').2

/-- The two calls are the same up to `rel`. -/
def OpR (rel : K → L → Prop) (w : World K) : Op K → Op L → Prop
  | .system p A B d x0 N, .system p' A' B' d' x0' N' =>
    p = p' ∧ MatR rel A A' ∧ MatR rel B B' ∧ VecR rel d d' ∧ VecR rel x0 x0' ∧ N = N'
  | .xInit p x, .xInit p' x' => p = p' ∧ VecR rel x x'
  | .setDynamics p A B d, .setDynamics p' A' B' d' => p = p' ∧ MatR rel A A' ∧ MatR rel B B' ∧ VecR rel d d'
  | .updatePs p, .updatePs p' => p = p'
  | .spanConstr i j, .spanConstr i' j' => i = i' ∧ JunkR rel j j'
  | .initConstr i p j, .initConstr i' p' j' => i = i' ∧ p = p' ∧ JunkR rel j j'
  | .updateConstr i p, .updateConstr i' p' => i = i' ∧ p = p'
  | .spanCost i j, .spanCost i' j' => i = i' ∧ JunkR rel j j'
  | .weights i v, .weights i' v' => i = i' ∧ VecR rel v v'
  | .weight i a, .weight i' a' => i = i' ∧ rel a a'
  | .initCost i p j, .initCost i' p' j' => i = i' ∧ p = p' ∧ JunkR rel j j'
  | .updateCost i p, .updateCost i' p' => i = i' ∧ p = p'
  | .refsConstr i n, .refsConstr i' n' => i = i' ∧ n = n'
  | .refsCost i n, .refsCost i' n' => i = i' ∧ n = n'
  | .construct b s, .construct b' s' => b = b' ∧ SolverR rel s s'
  | .constructPs b s p j, .constructPs b' s' p' j' => b = b' ∧ SolverR rel s s' ∧ p = p' ∧ JunkR rel j j'
  | .useSolver s, .useSolver s' => OptR (SolverR rel) s s'
  | .initializeController p j, .initializeController p' j' => p = p' ∧ JunkR rel j j'
  | .addCost i j, .addCost i' j' => i = i' ∧ JunkR rel j j'
  | .addConstraint i j, .addConstraint i' j' => i = i' ∧ JunkR rel j j'
  | .removeCost i, .removeCost i' => i = i'
  | .removeConstraint i, .removeConstraint i' => i = i'
  | .clearCosts, .clearCosts => True
  | .clearConstraints, .clearConstraints => True
  | .resetInitialStateCost R r, .resetInitialStateCost R' r' => MatR rel R R' ∧ VecR rel r r'
  | .resetInitialStateBounds l u, .resetInitialStateBounds l' u' => VecR (ExtR rel) l l' ∧ VecR (ExtR rel) u u'
  | .solve env, .solve env' => EnvR rel w env env'
  | _, _ => False
end

end Copra.Spec
