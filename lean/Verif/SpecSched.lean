import Verif.SpecMulti

/-! # Specification vocabulary: schedules of independent clients (C85) -/

namespace Copra.Spec
variable {K : Type} [Zero K] [One K] [Add K] [Sub K] [Neg K] [Mul K] [Arith K] {n : Nat}

/-- What the client observes of one call: it returned, it threw, or (for `solve`) it returned a `bool` after handing
over a problem. -/
inductive Outcome (K : Type) where
  | returned
  | threw (e : Exn)
  | solved (b : Bool) (q : QP K)

/-- One call on controller `k` (irrelevant for calls that name no controller); `none` if its behaviour is undefined. -/
def call (dmax : K) (w : MWorld K n) (k : Fin n) : Op K → Option (MWorld K n × Outcome K)
  | .solve env => (w.solve env k).map fun r => (r.1, .solved r.2.1 r.2.2)
  | op =>
    match w.step dmax k op with
    | .ok w' => some (w', .returned)
    | .thrown e w' => some (w', .threw e)
    | .ub => none

/-- A sequence of calls, exceptions being caught by the client; the second component logs what every call did. -/
def runAll (dmax : K) (w : MWorld K n) : List (Fin n × Op K) → Option (MWorld K n × List (Fin n × Outcome K))
  | [] => some (w, [])
  | (k, op) :: L => (call dmax w k op).bind fun r => (runAll dmax r.1 L).map fun s => (s.1, (k, r.2) :: s.2)

/-- Which client (an element of `T`) every controller and every object belongs to. -/
structure Owners (n : Nat) (T : Type) where
  ctl : Fin n → T
  ps : Nat → T
  cons : Nat → T
  costs : Nat → T

variable {T : Type}

/-- The call is made on a controller of client `t` and names no object of another client. -/
def Owners.Owns (own : Owners n T) (t : T) (c : Fin n × Op K) : Prop :=
  own.ctl c.1 = t ∧ Only (fun p => own.ps p = t) (fun i => own.cons i = t) (fun i => own.costs i = t) c.2

/-- Every call names objects of the client that makes it only. -/
def Owners.Separate (own : Owners n T) (L : List (Fin n × Op K)) : Prop := ∀ c ∈ L, own.Owns (own.ctl c.1) c

/-- The calls (or the logged outcomes) of client `t` in a schedule. -/
def Owners.part [DecidableEq T] {α : Type} (own : Owners n T) (t : T) (L : List (Fin n × α)) : List (Fin n × α) :=
  L.filter fun c => own.ctl c.1 = t

/-- The two program states are the same as far as client `t` is concerned. -/
structure Owners.SameFor (own : Owners n T) (t : T) (w v : MWorld K n) : Prop where
  ctls : ∀ k, own.ctl k = t → w.ctls k = v.ctls k
  pss : ∀ p, own.ps p = t → w.pss p = v.pss p
  cons : ∀ i, own.cons i = t → w.cons i = v.cons i
  costs : ∀ i, own.costs i = t → w.costs i = v.costs i
  extCons : ∀ i, own.cons i = t → w.extCons i = v.extCons i
  extCosts : ∀ i, own.costs i = t → w.extCosts i = v.extCosts i

end Copra.Spec
