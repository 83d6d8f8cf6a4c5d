import Verif.SpecParam
import Verif.SpecHist
import Verif.SpecTol

/-! # Specification vocabulary: rounding errors

`FP` are the parameters of a floating-point arithmetic, `Rounds` the standard model of its rounding errors, `Tr` numbers
with error bars and `Side` three programs side by side: on machine numbers, on numbers with error bars, on exact numbers. -/

namespace Copra.Spec
variable {K L : Type}

/-- Parameters of a floating-point arithmetic: unit roundoff, underflow unit, overflow threshold; relative and absolute
error of a product of a row and a column of length `n`; error of the constant `1e-6`. -/
structure FP (L : Type) where
  u : L
  eta : L
  big : L
  gam : Nat → L
  bet : Nat → L
  mic : L

section
variable [Field L] [LinearOrder L]

/-- The standard model of floating-point arithmetic.  `val a` is the number a machine number `a` stands for, `none` for
NaN and infinities.  An operation whose exact result is not too large has a finite result within a relative error `u` and
an absolute error `eta` of it; about the others nothing is assumed. -/
structure Rounds [Zero K] [One K] [Add K] [Sub K] [Neg K] [Mul K] [Arith K] (ρ : FP L) (val : K → Option L) : Prop where
  zero : val 0 = some 0
  one : val 1 = some 1
  neg {a x} : val a = some x → val (-a) = some (-x)
  add {a b x y} : val a = some x → val b = some y → |x + y| ≤ ρ.big →
    ∃ z, val (a + b) = some z ∧ |z - (x + y)| ≤ ρ.u * |x + y| + ρ.eta
  sub {a b x y} : val a = some x → val b = some y → |x - y| ≤ ρ.big →
    ∃ z, val (a - b) = some z ∧ |z - (x - y)| ≤ ρ.u * |x - y| + ρ.eta
  mul {a b x y} : val a = some x → val b = some y → |x * y| ≤ ρ.big →
    ∃ z, val (a * b) = some z ∧ |z - x * y| ≤ ρ.u * |x * y| + ρ.eta
  dot {s n f g} {x y : Nat → L} : (∀ k < n, val (f k) = some (x k)) → (∀ k < n, val (g k) = some (y k)) →
    (∑ k ∈ Finset.range n, |x k * y k|) + (ρ.gam n * (∑ k ∈ Finset.range n, |x k * y k|) + ρ.bet n) ≤ ρ.big →
    ∃ z, val (Arith.dot s n f g) = some z ∧
      |z - ∑ k ∈ Finset.range n, x k * y k| ≤ ρ.gam n * (∑ k ∈ Finset.range n, |x k * y k|) + ρ.bet n
  micro : ∃ z, val Arith.micro = some z ∧ |z - 1 / 1000000| ≤ ρ.mic
  u_nonneg : 0 ≤ ρ.u
  gam_nonneg : ∀ n, 0 ≤ ρ.gam n

/-- A number with an error bar: the exact number and, unless an overflow is possible, a bound on the distance of the
machine number to it. -/
@[ext] structure Tr (ρ : FP L) where
  val : L
  err : Option L

namespace Tr
variable {ρ : FP L}

/-- The error bar of a rounded result, given the exact result and the error inherited from the arguments. -/
def rounded (ρ : FP L) (v : L) (e : Option L) : Option L :=
  e.bind fun e => if |v| + e ≤ ρ.big then some (e + (ρ.u * (|v| + e) + ρ.eta)) else none

/-- The error inherited by a product. -/
def prodErr (a b : Tr ρ) : Option L :=
  a.err.bind fun x => b.err.map fun y => |a.val| * y + |b.val| * x + x * y

/-- The sums of the moduli of the products (at most) and of their errors. -/
def bars (f g : Nat → Tr ρ) : Nat → Option (L × L)
  | 0 => some (0, 0)
  | n + 1 => (bars f g n).bind fun s => (prodErr (f n) (g n)).map fun e => (s.1 + (|(f n).val * (g n).val| + e), s.2 + e)

instance : Zero (Tr ρ) := ⟨⟨0, some 0⟩⟩
instance : One (Tr ρ) := ⟨⟨1, some 0⟩⟩
instance : Neg (Tr ρ) := ⟨fun a => ⟨-a.val, a.err⟩⟩
instance : Add (Tr ρ) := ⟨fun a b => ⟨a.val + b.val, rounded ρ (a.val + b.val) (a.err.bind fun x => b.err.map fun y => x + y)⟩⟩
instance : Sub (Tr ρ) := ⟨fun a b => ⟨a.val - b.val, rounded ρ (a.val - b.val) (a.err.bind fun x => b.err.map fun y => x + y)⟩⟩
instance : Mul (Tr ρ) := ⟨fun a b => ⟨a.val * b.val, rounded ρ (a.val * b.val) (prodErr a b)⟩⟩

theorem bars_congr {f g f' g' : Nat → Tr ρ} {n : Nat} (hf : ∀ k < n, f k = f' k) (hg : ∀ k < n, g k = g' k) :
    bars f g n = bars f' g' n := by
  induction n with
  | zero => rfl
  | succ n ih =>
    unfold bars
    rw [ih (fun k hk => hf k (Nat.lt_succ_of_lt hk)) fun k hk => hg k (Nat.lt_succ_of_lt hk), hf n (Nat.lt_succ_self n),
      hg n (Nat.lt_succ_self n)]

instance : Arith (Tr ρ) where
  dot _ n f g := ⟨∑ k ∈ Finset.range n, (f k).val * (g k).val, (bars f g n).bind fun s =>
    if s.1 + (ρ.gam n * s.1 + ρ.bet n) ≤ ρ.big then some (s.2 + (ρ.gam n * s.1 + ρ.bet n)) else none⟩
  dot_congr _ n f g f' g' hf hg := by
    rw [bars_congr hf hg]
    congr 1
    exact Finset.sum_congr rfl fun k hk => by rw [hf k (Finset.mem_range.1 hk), hg k (Finset.mem_range.1 hk)]
  micro := ⟨1 / 1000000, some ρ.mic⟩

/-- The machine number `a` is within the error bar of `t` of its exact value. -/
def Encloses (val : K → Option L) (a : K) (t : Tr ρ) : Prop :=
  ∀ e, t.err = some e → ∃ x, val a = some x ∧ |x - t.val| ≤ e

/-- `v` is the exact value of `t`. -/
def Exact (t : Tr ρ) (v : L) : Prop := t.val = v

/-- A machine number taken as it is: no error, unless it is not finite. -/
def lift (ρ : FP L) (val : K → Option L) (a : K) : Tr ρ :=
  match val a with
  | some x => ⟨x, some 0⟩
  | none => ⟨0, none⟩

/-- `t` is `a`, taken as it is. -/
def Taken (val : K → Option L) (a : K) (t : Tr ρ) : Prop := t = lift ρ val a

end Tr
end

/-! ## Problems -/

/-- The number or infinity a bound stands for. -/
def realExt [Zero L] (val : K → Option L) : Ext K → Ext L
  | .ninf => .ninf
  | .pinf => .pinf
  | .fin a => .fin ((val a).getD 0)

def realMat [Zero L] (val : K → Option L) (A : Mat K) : Mat L := ⟨A.rows, A.cols, fun i j => (val (A.e i j)).getD 0⟩
def realVec [Zero L] (val : K → Option L) (x : Vec K) : Vec L := ⟨x.rows, fun i => (val (x.e i)).getD 0⟩
def realBound [Zero L] (val : K → Option L) (x : Vec (Ext K)) : Vec (Ext L) := ⟨x.rows, fun i => realExt val (x.e i)⟩

/-- The problem (on exact numbers) that a problem on machine numbers stands for; entries that are not finite are read as
zero. -/
def realQP [Zero L] (val : K → Option L) (q : QP K) : QP L where
  nrVar := q.nrVar
  nrEq := q.nrEq
  nrIneq := q.nrIneq
  Q := realMat val q.Q
  c := realVec val q.c
  Aeq := realMat val q.Aeq
  beq := realBound val q.beq
  Aineq := realMat val q.Aineq
  bineq := realBound val q.bineq
  lb := realBound val q.lb
  ub := realBound val q.ub

section
variable [Field L] [LinearOrder L] {ρ : FP L}

/-- The error bar of `t` is at most `e`. -/
def Bar (t : Tr ρ) (e : L) : Prop := ∃ e', t.err = some e' ∧ e' ≤ e

/-- The same for a bound: infinities are exact. -/
def ExtBar (t : Ext (Tr ρ)) (e : L) : Prop :=
  match t with
  | .fin t => Bar t e
  | _ => 0 ≤ e

/-- With the error bars of row `i` of `A` and of `b`, the residual at `x` is known up to `δ`. -/
def RowBar (A : Mat (Tr ρ)) (b : Vec (Ext (Tr ρ))) (x : Nat → L) (δ : L) (i : Nat) : Prop :=
  ∃ (a : Nat → L) (β : L), (∀ j < A.cols, Bar (A.e i j) (a j)) ∧ ExtBar (b.e i) β ∧
    (∑ j ∈ Finset.range A.cols, a j * |x j|) + β ≤ δ

/-- With the error bars of the problem, all residuals at `x` are known up to `δ`. -/
def ConstraintBar (q : QP (Tr ρ)) (x : Nat → L) (δ : L) : Prop :=
  (∀ i < q.Aeq.rows, RowBar q.Aeq q.beq x δ i) ∧ (∀ i < q.Aineq.rows, RowBar q.Aineq q.bineq x δ i) ∧
  (∀ j < q.lb.rows, ExtBar (q.lb.e j) δ) ∧ (∀ j < q.ub.rows, ExtBar (q.ub.e j) δ)

/-- With the error bars of the problem, its objective at `x` is known up to `ε`. -/
def ObjectiveBar (q : QP (Tr ρ)) (x : Nat → L) (ε : L) : Prop :=
  ∃ (Q : Nat → Nat → L) (c : Nat → L), (∀ i < q.c.rows, ∀ j < q.c.rows, Bar (q.Q.e i j) (Q i j)) ∧
    (∀ j < q.c.rows, Bar (q.c.e j) (c j)) ∧
    1 / 2 * (∑ i ∈ Finset.range q.c.rows, ∑ j ∈ Finset.range q.c.rows, |x i| * Q i j * |x j|) +
      (∑ j ∈ Finset.range q.c.rows, c j * |x j|) ≤ ε

end

/-! ## Programs side by side -/

section
variable [Zero K] [One K] [Add K] [Sub K] [Neg K] [Mul K] [Arith K] [Field L] [LinearOrder L]

/-- The data the client (and, in `solve`, the solver) hands in correspond by `rel`. -/
def DataR {M : Type} [Zero M] [One M] [Add M] [Sub M] [Neg M] [Mul M] [Arith M] (rel : K → M → Prop) (w : World K) (t : World M) :
    Op K → Op M → Prop
  | .solve env, .solve env' => ∀ q q', Handed w env q → Handed t env' q' → VecR rel (env.answer q).2 (env'.answer q').2
  | op, op' => OpR rel w op op'

/-- Three programs that make the same calls: `w` on machine numbers, `t` on numbers with error bars and `v` on exact
numbers.  The data of the calls of `t` have the exact values of those of `v` and enclose those of `w`; `rel` says how
closely.  Nothing is said about what they compute. -/
inductive Side {ρ : FP L} (val : K → Option L) (rel : K → Tr ρ → Prop) (dmax : K) (tmax : Tr ρ) :
    World K → World (Tr ρ) → World L → Prop
  | start {w t v} : World.Init w → World.Init t → World.Init v → WorldR (Tr.Encloses val) w t → WorldR rel w t →
      WorldR Tr.Exact t v → Side val rel dmax tmax w t v
  | ok {w t v op top vop w' t' v'} : Side val rel dmax tmax w t v → OpR (Tr.Encloses val) w op top → DataR rel w t op top →
      OpR Tr.Exact t top vop → w.step dmax op = .ok w' → t.step tmax top = .ok t' → v.step tmax.val vop = .ok v' →
      Side val rel dmax tmax w' t' v'
  | thrown {w t v op top vop w' t' v' e e' e''} : Side val rel dmax tmax w t v → OpR (Tr.Encloses val) w op top →
      DataR rel w t op top → OpR Tr.Exact t top vop → w.step dmax op = .thrown e w' → t.step tmax top = .thrown e' t' →
      v.step tmax.val vop = .thrown e'' v' → Side val rel dmax tmax w' t' v'

/-- The three programs solve: `q`, `tq` and `vq` are the problems they hand over, `b` is the common result. -/
structure SideSolve {ρ : FP L} (val : K → Option L) (rel : K → Tr ρ → Prop) (dmax : K) (tmax : Tr ρ)
    (w : World K) (t : World (Tr ρ)) (v : World L) (env : SolveEnv K) (tenv : SolveEnv (Tr ρ)) (venv : SolveEnv L)
    (w' : World K) (t' : World (Tr ρ)) (v' : World L) (b : Bool) (q : QP K) (tq : QP (Tr ρ)) (vq : QP L) : Prop where
  side : Side val rel dmax tmax w t v
  encloses : EnvR (Tr.Encloses val) w env tenv
  data : DataR rel w t (.solve env) (.solve tenv)
  exact : EnvR Tr.Exact t tenv venv
  machine : w.solve env = some (w', b, q)
  bars : t.solve tenv = some (t', b, tq)
  ideal : v.solve venv = some (v', b, vq)

end
end Copra.Spec
