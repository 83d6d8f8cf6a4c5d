import Verif.SpecHist

/-! # Specification vocabulary: two executions of the same program

Two runs of the same client program on the same data, in which the memory that the library leaves uninitialised
may have different contents (and the clocks may read differently). -/

namespace Copra.Spec
variable {K : Type} [Zero K] [One K] [Add K] [Sub K] [Neg K] [Mul K] [Arith K]

/-- The QP solver is the same function in both environments, and reads nothing but the problem it is given. -/
def SameAnswer (e e' : SolveEnv K) : Prop :=
  ∀ q q' : QP K, QPEq q q' → (e.answer q).1 = (e'.answer q').1 ∧ VecEq (e.answer q).2 (e'.answer q').2

/-- The same API call with the same arguments; the contents of freshly allocated memory (and clock readings) may
differ. -/
def SameCall (d : Dims) : Op K → Op K → Prop
  | .spanConstr i _, b => ∃ junk, b = .spanConstr i junk
  | .initConstr i p _, b => ∃ junk, b = .initConstr i p junk
  | .spanCost i _, b => ∃ junk, b = .spanCost i junk
  | .initCost i p _, b => ∃ junk, b = .initCost i p junk
  | .constructPs t s p _, b => ∃ junk, b = .constructPs t s p junk
  | .initializeController p _, b => ∃ junk, b = .initializeController p junk
  | .addCost i _, b => ∃ junk, b = .addCost i junk
  | .addConstraint i _, b => ∃ junk, b = .addConstraint i junk
  | .solve e, b => ∃ e', b = .solve e' ∧ SameInverse d e e' ∧ SameAnswer e e'
  | a, b => b = a

/-- Two executions in lockstep: the same calls from the same start, with the same outcome (value or exception) at
every step so far.  (`c56_same_outcome` shows that outcomes cannot differ.) -/
inductive Twins (d : Dims) (dmax : K) : World K → World K → Ghost → Prop
  | start {w} : World.Init w → Twins d dmax w w Ghost.start
  | ok {w1 w2 w1' w2' g a b} : Twins d dmax w1 w2 g → OpOk d w1 g a → SameCall d a b →
      w1.step dmax a = .ok w1' → w2.step dmax b = .ok w2' → Twins d dmax w1' w2' (g.next w1 True a)
  | thrown {w1 w2 w1' w2' g a b e} : Twins d dmax w1 w2 g → OpOk d w1 g a → SameCall d a b →
      w1.step dmax a = .thrown e w1' → w2.step dmax b = .thrown e w2' → Twins d dmax w1' w2' (g.next w1 False a)

/-- What the client can read off two vectors that may be missing. -/
def OptVecEq {α : Type} : Option (Vec α) → Option (Vec α) → Prop
  | some u, some v => VecEq u v
  | none, none => True
  | _, _ => False

/-- The client sees the same outcome of a call. -/
def SameOutcome {α : Type} : Res α → Res α → Prop
  | .ok _, .ok _ => True
  | .thrown e _, .thrown e' _ => e = e'
  | .ub, .ub => True
  | _, _ => False

end Copra.Spec
