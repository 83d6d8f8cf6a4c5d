import Verif.Props.AssignFresh
import Verif.Props.SuppliedExamples

/-! # C103 on a concrete program

A controller with a trajectory constraint, a target cost and a control cost solves once.  Then the constraint is replaced by
another one, with more rows, and the target cost by one with another reference that was just constructed; the controller solves
again. -/

namespace Copra
open Spec

set_option linter.unusedSectionVars false
set_option maxRecDepth 100000

/-- Programs without assignments of whole objects are a special case. -/
theorem Spec.SHist.assigning {K : Type} [Field K] [LinearOrder K] [IsStrictOrderedRing K] {d : Dims} {dmax : K}
    {E : World K → Op K → Prop} {w : World K} {g : Ghost} (h : SHist d dmax E w g) : EHist d dmax E w g := by
  induction h with
  | start hi => exact .start hi
  | ok h0 ho he hs ih => exact .ok ih ho he hs fun _ => (SHist.raw (.ok h0 ho he hs)).fits
  | thrown _ ho he hs ih => exact .thrown ih ho he hs

namespace Ex
open World

def dA : Dims := ⟨1, 1, 2⟩

def aCons (i : Nat) : Constr ℚ :=
  match i with
  | 0 => Constr.mkTrajectory (mat 1 1 [[1]]) (evec [.fin 5]) true
  | _ => Constr.mkTrajectory (mat 2 1 [[1], [-1]]) (evec [.fin 10, .fin 0]) true

def aCosts (i : Nat) : Cost ℚ :=
  match i with
  | 0 => Cost.mkTarget (mat 1 1 [[1]]) (vec [1])
  | 1 => Cost.mkControl (mat 1 1 [[1]]) (vec [0])
  | 2 => Cost.mkTarget (mat 1 1 [[1]]) (vec [3])
  | _ => Cost.mkControl (mat 1 1 [[1]]) (vec [2])

def as0 : World ℚ where
  pss := fun _ => PreviewSystem.default
  cons := aCons
  costs := aCosts
  extCons := fun _ => 1
  extCosts := fun _ => 1
  ctl := LMPC.construct false solver

theorem as0_init : World.Init as0 := by
  refine ⟨fun _ => rfl, ?_, ?_, false, solver, rfl⟩
  · intro i
    show World.FreshConstr (aCons i)
    unfold World.FreshConstr aCons
    split <;> exact .inl ⟨_, _, _, rfl⟩
  · intro i
    show World.FreshCost (aCosts i)
    unfold World.FreshCost aCosts
    split
    · exact .inr (.inl ⟨_, _, rfl⟩)
    · exact .inr (.inr (.inl ⟨_, _, rfl⟩))
    · exact .inr (.inl ⟨_, _, rfl⟩)
    · exact .inr (.inr (.inl ⟨_, _, rfl⟩))

/-- `x+ = x + u`, `x0 = 0`, two steps. -/
def aSys : Op ℚ := .system 0 (mat 1 1 [[1]]) (mat 1 1 [[1]]) (vec [0]) (vec [0]) 2
def aZero := env (vec [0, 0]) true

def as1 := after 1000 as0 aSys
def as2 := after 1000 as1 (.constructPs false solver 0 jk)
def as3 := after 1000 as2 (.addConstraint 0 jk)
def as4 := after 1000 as3 (.addCost 0 jk)
def as5 := after 1000 as4 (.addCost 1 jk)
def as6 := after 1000 as5 (.solve aZero)
def as7 := after 1000 as6 (.initConstr 1 0 jk)
def as8 : World ℚ := as7.copyConstr 0 1
def as9 : World ℚ := as8.copyCost 0 2

def ag5 : Ghost := ((((Ghost.start.next as0 True aSys).next as1 True (.constructPs false solver 0 jk)).next as2 True
  (.addConstraint 0 jk)).next as3 True (.addCost 0 jk)).next as4 True (.addCost 1 jk)
def ag7 : Ghost := (ag5.next as5 True (.solve aZero)).next as6 True (.initConstr 1 0 jk)
def ag9 : Ghost := (ag7.copyConstr 0 1).assignCost dA as8 0 2

theorem contractA {x : Vec ℚ} {l : LMPC ℚ} (hx : x.rows = 2) (hs : l.sol ≠ none) (hi : l.isInit = false) :
    SolveContract dA (env x true) l :=
  ⟨hs, fun q _ _ => env_answer hx q, fun h => by rw [hi] at h; cases h⟩

theorem asH6 : Hist dA 1000 Careful as6 (ag5.next as5 True (.solve aZero)) := by
  have s1 := hist_after (op := aSys) (d := dA) (E := Careful) (.start as0_init) ⟨rfl, rfl, rfl⟩
    ⟨trivial, trivial, trivial⟩ (by decide +kernel : okB 1000 as0 _ = true)
  have s2 := hist_after (op := .constructPs false solver 0 jk) s1 (hasF as1 (by decide +kernel)) ⟨trivial, trivial, trivial⟩
    (by decide +kernel : okB 1000 as1 _ = true)
  have s3 := hist_after (op := .addConstraint 0 jk) s2 (fun h => by cases h) ⟨trivial, trivial, trivial⟩
    (by decide +kernel : okB 1000 as2 _ = true)
  have s4 := hist_after (op := .addCost 0 jk) s3 trivial ⟨trivial, trivial, trivial⟩
    (by decide +kernel : okB 1000 as3 _ = true)
  have s5 := hist_after (op := .addCost 1 jk) s4 trivial ⟨trivial, trivial, trivial⟩
    (by decide +kernel : okB 1000 as4 _ = true)
  exact hist_after (op := .solve aZero) s5 ⟨(by decide +kernel : as5.ctl.ps ≠ none), contractA rfl
    (fun h => absurd (congrArg Option.isSome h) (by decide +kernel : as5.ctl.sol.isSome ≠ false))
    (by decide +kernel : as5.ctl.isInit = false)⟩
    ⟨trivial, trivial, fun _ _ => Nat.zero_lt_one⟩ (by decide +kernel : okB 1000 as5 _ = true)

theorem asH7 : Hist dA 1000 Careful as7 ag7 :=
  hist_after (op := .initConstr 1 0 jk) asH6 (hasF as6 (by decide +kernel)) ⟨trivial, trivial, trivial⟩
    (by decide +kernel : okB 1000 as6 _ = true)

theorem asH9 : EHist dA 1000 Careful as9 ag9 := by
  have s8 : EHist dA 1000 Careful as8 (ag7.copyConstr 0 1) := by
    refine .assignConstr (Spec.SHist.assigning (Spec.Hist.supplying asH7)) ⟨by decide +kernel, fun _ => Or.inr ⟨trivial, rfl⟩,
      fun _ => by decide +kernel, ?_⟩
    show rowsOf as8 .equality ≤ intMax ∧ rowsOf as8 .inequality ≤ intMax
    decide +kernel
  exact .assignCost s8 ⟨by decide +kernel, fun _ => Or.inr ⟨by decide +kernel, by decide +kernel, by decide +kernel⟩⟩

/-- The minimiser. -/
def aX : Vec ℚ := vec [3000000 / 3000001, 3000000 / 3000001]
def aOpt := env aX true
def asR : World ℚ × Bool × QP ℚ := (as9.solve aOpt).getD (as9, false, q13)

theorem asS : as9.solve aOpt = some (asR.1, true, asR.2.2) := by
  obtain ⟨r, hr⟩ := Option.isSome_iff_exists.1 (by decide +kernel : (as9.solve aOpt).isSome = true)
  have h1 : asR = r := by unfold asR; rw [hr]; rfl
  have h2 : asR.2.1 = true := by decide +kernel
  rw [hr, ← h2, h1]

theorem asO : OpOk dA as9 ag9 (.solve aOpt) :=
  ⟨(by decide +kernel : as9.ctl.ps ≠ none), contractA rfl
    (fun h => absurd (congrArg Option.isSome h) (by decide +kernel : as9.ctl.sol.isSome ≠ false))
    (by decide +kernel : as9.ctl.isInit = false)⟩

theorem asOptimal : IsOptimal asR.2.2 (aOpt.answer asR.2.2).2.e := by
  refine optimal_of_stationary ?_ (by decide +kernel) (by decide +kernel)
  have e : asR.2.2.c.rows = 2 := by decide +kernel
  rw [e]
  have h00 : asR.2.2.Q.e 0 0 = 2000001 / 1000000 := by decide +kernel
  have h01 : asR.2.2.Q.e 0 1 = 1 := by decide +kernel
  have h10 : asR.2.2.Q.e 1 0 = 1 := by decide +kernel
  have h11 : asR.2.2.Q.e 1 1 = 2000001 / 1000000 := by decide +kernel
  refine ⟨by unfold Spec.Symmetric; decide +kernel, fun x => ?_⟩
  simp only [Finset.sum_range_succ, Finset.sum_range_zero, zero_add, h00, h01, h10, h11]
  nlinarith [sq_nonneg (x 0 + x 1), sq_nonneg (x 0), sq_nonneg (x 1)]

theorem asFresh : CostsFresh dA as9 ag9 := by
  intro i hi
  rw [(by decide +kernel : as9.ctl.spCost = [0, 1])] at hi
  simp only [List.mem_cons, List.not_mem_nil, or_false] at hi
  rcases hi with rfl | rfl
  · exact fun h => h.elim
  · exact fun h => h.elim

theorem asHonest : ∀ i ∈ as9.ctl.spConstr, (as9.cons i).userData.Honest := by
  intro i hi
  rw [(by decide +kernel : as9.ctl.spConstr = [0])] at hi
  rw [List.mem_singleton.1 hi]
  have hk : (as9.cons 0).kind = .trajectory := by decide +kernel
  unfold Constr.userData
  rw [hk]
  trivial

/-- C103 applies: the answer respects the new constraint, at the least cost for the new reference. -/
example : (∀ i ∈ as9.ctl.spConstr, (as9.cons i).userData.Holds dA (trajNow dA as9 0 asR.1.ctl.control.e) asR.1.ctl.control.e) ∧
    ∀ V : Nat → ℚ, (∀ i ∈ as9.ctl.spConstr, (as9.cons i).userData.Holds dA (trajNow dA as9 0 V) V) →
      (∀ j < dA.m * dA.N, -1000 ≤ V j ∧ V j ≤ 1000) →
      totalCostNow dA as9 0 asR.1.ctl.control.e ≤ totalCostNow dA as9 0 V :=
  c103_optimum asH9 (fun _ _ h => h.1) asO (by decide +kernel) (fun _ => ⟨trivial, by decide +kernel⟩) asHonest asFresh asS
    (by decide +kernel) (by rintro ⟨i, hi, h⟩; rw [(by decide +kernel : as9.ctl.spConstr = [0])] at hi
                            rw [List.mem_singleton.1 hi] at h; exact h.elim) asOptimal

/-- The new constraint has six rows, the old one had three; the new linear term is three times the old one. -/
example : (as7.cons 0).nrConstr = 3 ∧ (as9.cons 0).nrConstr = 6 ∧ asR.2.2.nrIneq = 6 ∧
    asR.2.2.c.e 0 = 3 * (as7.ctl.c.e 0) := by decide +kernel

/-- C103 applies: assigning a control cost that was just constructed, or a constraint that was just constructed, ends
in undefined behaviour. -/
example : (as7.copyCost 1 3).solve aOpt = none ∧ (as6.copyConstr 0 1).solve aOpt = none := by
  have h6 := Spec.SHist.assigning (Spec.Hist.supplying asH6)
  exact ⟨c103_uninitialised_cost (Spec.SHist.assigning (Spec.Hist.supplying asH7)) (by decide) (by decide +kernel)
      (.inr (.inr (.inl ⟨mat 1 1 [[1]], vec [2], rfl⟩))) (by decide +kernel),
    c103_uninitialised_constraint h6 (by decide) (by decide +kernel)
      (.inl ⟨mat 2 1 [[1], [-1]], evec [.fin 10, .fin 0], true, rfl⟩) (fun h => by cases h)⟩

end Ex
end Copra
