import Verif.Props.UserOptimum

/-! # C91 and C92: a concrete program with user-defined classes

A client derives a budget constraint (the sum of the controls is at most a number it may change), a smoothness cost and
a constraint of type `Constraint`, and uses them together with objects of the library. -/

namespace Copra
open Spec

set_option linter.unusedSectionVars false
set_option maxRecDepth 100000

section
variable {K S : Type} [Field K]

namespace UWorld

/-- The state after a call (also after an exception). -/
def uafter (dmax : K) (X : UWorld K S) (op : UOp K S) : UWorld K S :=
  match X.step dmax op with
  | .ok X' => X'
  | .thrown _ X' => X'
  | .ub => X

/-- The call returns normally. -/
def uokB (dmax : K) (X : UWorld K S) (op : UOp K S) : Bool :=
  match X.step dmax op with
  | .ok _ => true
  | _ => false

theorem uokB_step {dmax : K} {X : UWorld K S} {op : UOp K S} (h : uokB dmax X op = true) : X.step dmax op = .ok (uafter dmax X op) := by
  unfold uokB at h
  unfold uafter
  cases hs : X.step dmax op <;> rw [hs] at h <;> first | rfl | cases h

theorem uhist_after {d : Dims} {dmax : K} {X : UWorld K S} {g : Ghost} {op : UOp K S}
    (h : UHist d dmax X g) (ho : UOk d X g op) (hk : uokB dmax X op = true) :
    UHist d dmax (uafter dmax X op) (unext g X True op) := .ok h ho (uokB_step hk)

end UWorld
end

namespace Ex.User
open UWorld

/-- The class of constraints "the sum of the controls is at most `s`"; the budget `s` is a member its author added. -/
def budget (fl : UFlag) : ConstrClass ℚ ℚ where
  flag := fl
  autoSpan := .ok
  init := fun ps o => if ps.uDim = 1 then .ok ({ o.1 with nrConstr := 1 }, o.2) else .thrown .domainError o
  update := fun ps o => some (⟨1, ⟨1, ps.fullUDim, fun _ _ => 1⟩, ⟨1, fun _ => .fin o.2⟩, ⟨1, ps.xDim, fun _ _ => 0⟩,
    ⟨1, fun _ => .fin o.2⟩⟩, o.2)

/-- A smoothness cost: `s/2` times the sum of the squares of the differences of successive controls. -/
def smooth : CostClass ℚ ℚ where
  autoSpan := .ok
  init := fun _ o => .ok o
  update := fun ps o => some (⟨⟨ps.fullUDim, ps.fullUDim, fun i j =>
      o.2 * (if i = j then (if i = 0 then 0 else 1) + (if i + 1 = ps.fullUDim then 0 else 1)
        else if i + 1 = j ∨ j + 1 = i then -1 else 0)⟩,
    Vec.zero ps.fullUDim, Mat.zero ps.xDim ps.fullUDim, Vec.zero ps.fullUDim, o.1.weights⟩, o.2)

def X0 : UWorld ℚ ℚ where
  world := { w0 with cons := fun i => if i = 10 then Constr.mkTrajectory Mat.empty Vec.nil true else theCons i }
  consClass := fun i => if i = 10 then some (budget .inequality) else if i = 11 then some (budget .constraint) else none
  costClass := fun i => if i = 10 then some smooth else none
  consMem := fun i => if i = 10 then 7 else -1
  costMem := fun _ => 2

theorem X0_init : X0.Init := by
  obtain ⟨a, b, c, e⟩ := w0_init
  refine ⟨a, fun i hi => ?_, fun i C hC => ?_, fun i _ => c i, e⟩
  · by_cases h : i = 10
    · subst h; cases hi
    · show World.FreshConstr (if i = 10 then _ else theCons i)
      rw [if_neg h]; exact b i
  · by_cases h : i = 10
    · subst h; cases hC; exact ⟨rfl, rfl⟩
    · by_cases h' : i = 11
      · subst h'; cases hC; exact ⟨rfl, rfl⟩
      · simp only [X0, h, h', if_false, reduceCtorEq] at hC

def X1 := uafter 1000 X0 (.api opSys)
def X2 := uafter 1000 X1 (.api opCtl)
def X3 := uafter 1000 X2 (.api (.addConstraint 0 jk))
def X4 := uafter 1000 X3 (.api (.addConstraint 2 jk))
def X5 := uafter 1000 X4 (.api (.addConstraint 10 jk))
def X6 := uafter 1000 X5 (.api (.addConstraint 11 jk))
def X7 := uafter 1000 X6 (.api (.addCost 0 jk))
def X8 := uafter 1000 X7 (.api (.addCost 1 jk))
def X9 := uafter 1000 X8 (.api (.addCost 10 jk))
def X10 := uafter 1000 X9 (.callConstr 10 fun o => (o.1, 3/2))

theorem hX10 : UHist d 1000 X10 ⟨fun j => (((False ∨ (True ∧ j = 0)) ∨ (True ∧ j = 2)) ∨ (True ∧ j = 10)) ∨ (True ∧ j = 11),
    fun j => ((False ∨ (True ∧ j = 0)) ∨ (True ∧ j = 1)) ∨ (True ∧ j = 10),
    fun j => ((False ∨ (True ∧ j = 0)) ∨ (True ∧ j = 1)) ∨ (True ∧ j = 10), True⟩ := by
  have a1 := uhist_after (d := d) (dmax := 1000) (op := .api opSys) (.start X0_init) ⟨⟨rfl, rfl, rfl⟩, trivial⟩ (by decide +kernel)
  have a2 := uhist_after (op := .api opCtl) a1 ⟨show HasSystem X1.world 0 by unfold HasSystem; decide +kernel, trivial⟩
    (by decide +kernel : uokB 1000 X1 _ = true)
  have a3 := uhist_after (op := .api (.addConstraint 0 jk)) a2 ⟨fun _ => (by decide +kernel : X2.world.ctl.spBoundConstr = []), trivial⟩
    (by decide +kernel : uokB 1000 X2 _ = true)
  have a4 := uhist_after (op := .api (.addConstraint 2 jk)) a3 ⟨fun _ => (by decide +kernel : X3.world.ctl.spBoundConstr = []), trivial⟩
    (by decide +kernel : uokB 1000 X3 _ = true)
  have a5 := uhist_after (op := .api (.addConstraint 10 jk)) a4
    ⟨fun h => absurd h (by decide +kernel : (X4.world.cons 10).kind ≠ .ctrlBound), trivial⟩ (by decide +kernel : uokB 1000 X4 _ = true)
  have a6 := uhist_after (op := .api (.addConstraint 11 jk)) a5
    ⟨fun h => absurd h (by decide +kernel : (X5.world.cons 11).kind ≠ .ctrlBound), trivial⟩ (by decide +kernel : uokB 1000 X5 _ = true)
  have a7 := uhist_after (op := .api (.addCost 0 jk)) a6 ⟨trivial, trivial⟩ (by decide +kernel : uokB 1000 X6 _ = true)
  have a8 := uhist_after (op := .api (.addCost 1 jk)) a7 ⟨trivial, trivial⟩ (by decide +kernel : uokB 1000 X7 _ = true)
  have a9 := uhist_after (op := .api (.addCost 10 jk)) a8 ⟨trivial, trivial⟩ (by decide +kernel : uokB 1000 X8 _ = true)
  exact uhist_after (op := .callConstr 10 fun o => (o.1, 3/2)) a9 trivial (by decide +kernel : uokB 1000 X9 _ = true)

/-- What the client knows in `X10`. -/
def gX : Ghost := ⟨fun j => (((False ∨ (True ∧ j = 0)) ∨ (True ∧ j = 2)) ∨ (True ∧ j = 10)) ∨ (True ∧ j = 11),
    fun j => ((False ∨ (True ∧ j = 0)) ∨ (True ∧ j = 1)) ∨ (True ∧ j = 10),
    fun j => ((False ∨ (True ∧ j = 0)) ∨ (True ∧ j = 1)) ∨ (True ∧ j = 10), True⟩

theorem smooth_conforms : CostClass.Conforms d smooth := by
  intro ps o o' h1 h2 e
  simp only [smooth, Option.some.injEq] at e
  subst e
  exact ⟨h2, h2, h2, h1, h2, h2⟩

theorem budget_conforms (fl : UFlag) : ConstrClass.Conforms d 1 (budget fl) := by
  intro ps o o' h1 h2 _ e
  simp only [budget, Option.some.injEq] at e
  subst e
  exact ⟨rfl, rfl, h2, rfl, rfl, h1, rfl⟩

/-- A registered constraint of `X0`'s program: one of the library or the budget. -/
theorem consClass_cases (i : Nat) : (i = 10 ∧ X0.consClass i = some (budget .inequality)) ∨
    (i = 11 ∧ X0.consClass i = some (budget .constraint)) ∨ X0.consClass i = none := by
  by_cases h : i = 10
  · exact .inl ⟨h, by rw [h]; rfl⟩
  · by_cases h' : i = 11
    · exact .inr (.inl ⟨h', by rw [h']; rfl⟩)
    · exact .inr (.inr (by simp [X0, h, h']))

theorem costClass_cases (i : Nat) : (i = 10 ∧ X0.costClass i = some smooth) ∨ X0.costClass i = none := by
  by_cases h : i = 10
  · exact .inl ⟨h, by rw [h]; rfl⟩
  · exact .inr (by simp [X0, h])

/-- The classes of the program conform in every state with these classes where only object 10 is user-defined among the
registered constraints and it has one row. -/
theorem conforming_of {X : UWorld ℚ ℚ} (h1 : X.consClass = X0.consClass) (h2 : X.costClass = X0.costClass)
    (h3 : 11 ∉ X.world.ctl.spConstr) (h4 : (X.world.cons 10).nrConstr = 1) : Conforming d X := by
  refine ⟨fun i hi C hC => ?_, fun i _ C hC => ?_⟩
  · rw [h1] at hC
    rcases consClass_cases i with ⟨rfl, e⟩ | ⟨rfl, e⟩ | e
    · rw [e] at hC; cases hC; rw [h4]; exact budget_conforms _
    · exact absurd hi h3
    · rw [e] at hC; cases hC
  · rw [h2] at hC
    rcases costClass_cases i with ⟨rfl, e⟩ | e
    · rw [e] at hC; cases hC; exact smooth_conforms
    · rw [e] at hC; cases hC

theorem returning_of {X : UWorld ℚ ℚ} (h1 : X.consClass = X0.consClass) (h2 : X.costClass = X0.costClass) : Returning d X := by
  refine ⟨fun i _ C hC ps o _ _ => ?_, fun i _ C hC ps o _ _ => ?_⟩
  · rw [h1] at hC
    rcases consClass_cases i with ⟨rfl, e⟩ | ⟨rfl, e⟩ | e <;> rw [e] at hC <;> cases hC <;> exact fun h => by cases h
  · rw [h2] at hC
    rcases costClass_cases i with ⟨rfl, e⟩ | e <;> rw [e] at hC <;> cases hC
    exact fun h => by cases h

/-- The minimiser. -/
def xU : Vec ℚ := vec [1000000000000 / 23000010000001, 6000001000000 / 23000010000001]

def rU : UWorld ℚ ℚ × Bool × QP ℚ := (X10.solve (env xU true)).getD (X10, false, q13)

theorem sU : X10.solve (env xU true) = some (rU.1, true, rU.2.2) := by
  have e : (X10.solve (env xU true)).isSome = true := by decide +kernel
  obtain ⟨r, hr⟩ := Option.isSome_iff_exists.1 e
  have h1 : rU = r := by unfold rU; rw [hr]; rfl
  have h2 : rU.2.1 = true := by decide +kernel
  rw [hr, ← h2, h1]

theorem oU : UOk d X10 gX (.api (.solve (env xU true))) :=
  ⟨⟨(by decide +kernel : X10.world.ctl.ps ≠ none), contract rfl
    (fun h => absurd (congrArg Option.isSome h) (by decide +kernel : X10.world.ctl.sol.isSome ≠ false)) (by decide +kernel)⟩, trivial⟩

theorem confU : Conforming d X10 := conforming_of rfl rfl (by decide +kernel) (by decide +kernel)

theorem honestU : ∀ i ∈ X10.world.ctl.spConstr, X10.consClass i = none → (X10.world.cons i).userData.Honest := by
  intro i hi hn
  rw [(by decide +kernel : X10.world.ctl.spConstr = [0, 2, 10])] at hi
  simp only [List.mem_cons, List.not_mem_nil, or_false] at hi
  have : (X10.world.cons i).kind ≠ .trajBound := by rcases hi with rfl | rfl | rfl <;> decide +kernel
  unfold Constr.userData
  cases h : (X10.world.cons i).kind <;> simp only <;> first | trivial | exact absurd h this | (split <;> trivial)

theorem freshU : ∀ i ∈ X10.world.ctl.spCost, X10.costClass i = none → (X10.world.costs i).userData.PerStepState d →
    gX.fresh i ∧ X10.world.ctl.spCost.count i = 1 := by
  intro i hi _ _
  rw [(by decide +kernel : X10.world.ctl.spCost = [0, 1, 10])] at hi ⊢
  simp only [List.mem_cons, List.not_mem_nil, or_false] at hi
  refine ⟨?_, ?_⟩
  · show ((False ∨ (True ∧ i = 0)) ∨ (True ∧ i = 1)) ∨ (True ∧ i = 10)
    tauto
  · rcases hi with rfl | rfl | rfl <;> rfl

theorem boundU : X10.world.ctl.spBoundConstr = [] → gX.clean := fun _ => trivial
theorem psU : X10.world.ctl.ps = some 0 := by decide +kernel
theorem plainU : X10.world.ctl.isInit = false := by decide +kernel

/-- C91, the objects of the library are undisturbed: applies. -/
example := c91_undisturbed hX10

/-- C91, a solve calls `update`: applies. -/
example := c91_updated hX10 confU oU sU psU

/-- The budget the client set through its own member function is the one the problem has. -/
example : (constrObj rU.1 10).1.b.e 0 = .fin (3/2) := by decide +kernel

/-- C91, the feasible set, applies; it has a point that satisfies all constraints, one that only violates the budget
and one that only violates a control bound of the library. -/
example : Feasible rU.2.2 (fun _ => 1 / 2) ∧ ¬ Feasible rU.2.2 (fun _ => 1) ∧ ¬ Feasible rU.2.2 (fun j => if j = 0 then 2 else -2) ∧
    ∀ U, Feasible rU.2.2 U ↔ AllHold d X10 rU.1 0 U ∧ (X10.world.ctl.spBoundConstr = [] → ∀ j < d.m * d.N, -1000 ≤ U j ∧ U j ≤ 1000) :=
  ⟨by decide +kernel, by decide +kernel, by decide +kernel, c91_feasible hX10 confU oU plainU boundU honestU sU psU⟩

/-- C91, the objective, applies. -/
example : ∃ k : ℚ, ∀ U, objective rU.2.2 U = totalWith d X10 rU.1 0 U + k := c91_objective hX10 confU oU plainU freshU sU psU

/-- C91, a solve is defined: applies. -/
example := c91_solve_defined hX10 confU (returning_of rfl rfl) (by unfold RowsCount; decide +kernel) oU

theorem optU : IsOptimal rU.2.2 ((env xU true).answer rU.2.2).2.e := by
  refine optimal_of_stationary ⟨by unfold Spec.Symmetric; decide +kernel, fun x => ?_⟩ (by decide +kernel) (by decide +kernel)
  rw [(by decide +kernel : rU.2.2.c.rows = 2)]
  simp only [Finset.sum_range_succ, Finset.sum_range_zero, (by decide +kernel : rU.2.2.Q.e 0 0 = 6000001 / 1000000),
    (by decide +kernel : rU.2.2.Q.e 0 1 = -1), (by decide +kernel : rU.2.2.Q.e 1 0 = -1),
    (by decide +kernel : rU.2.2.Q.e 1 1 = 4000001 / 1000000)]
  nlinarith [sq_nonneg (x 0 - x 1), sq_nonneg (x 0), sq_nonneg (x 1)]

/-- C91, end to end, applies, with every back end. -/
example (k : SolverKind) (junk : Junk ℚ) :=
  c91_end_to_end (k := k) (junk := junk) hX10 confU oU plainU boundU honestU freshU sU psU (by decide +kernel)
    (backEndOptimal_of (by decide +kernel) (by decide +kernel) (by decide +kernel) optU)

/-- C92 (the true part) applies to the budget. -/
example : X5.world.ctl.spConstr = [0, 2, 10] ∧ X5.world.ctl.spIneqConstr = [0, 10] := by decide +kernel

example := c92_registered_partial (dmax := 1000) (i := 10) (C := budget .inequality) (junk := jk) hX10 rfl (.inr rfl)
  (uokB_step (by decide +kernel))

/-- The other constraint is ignored. -/
example := c92_ignored (dmax := 1000) (X := X10) (i := 11) (C := budget .constraint) (junk := jk) rfl rfl (uokB_step (by decide +kernel))

/-- **C92 is false of the code**: it is not so that a solve updates the constraint that the client just added without an
exception (and so a fortiori not that the controls satisfy it). -/
theorem c92_false : ¬ ∀ (X X1 X' : UWorld ℚ ℚ) (g : Ghost) (i p : Nat) (C : ConstrClass ℚ ℚ) (env : SolveEnv ℚ) (b : Bool) (q : QP ℚ),
    UHist d 1000 X g → X.consClass i = some C → X.step 1000 (.api (.addConstraint i jk)) = .ok X1 → X1.world.ctl.ps = some p →
    X1.solve env = some (X', b, q) →
    ∃ k > 0, ConstrClass.Updates C (X'.world.pss p) k (constrObj X1 i) (constrObj X' i) := by
  intro H
  have h1 : X10.step 1000 (.api (.addConstraint 11 jk)) = .ok (uafter 1000 X10 (.api (.addConstraint 11 jk))) := uokB_step (by decide +kernel)
  have h2 : ((uafter 1000 X10 (.api (.addConstraint 11 jk))).solve (env xU true)).isSome = true := by decide +kernel
  obtain ⟨⟨X', b, q⟩, hr⟩ := Option.isSome_iff_exists.1 h2
  obtain ⟨k, hk, e⟩ := H _ _ _ _ 11 0 (budget .constraint) _ _ _ hX10 rfl h1 (by decide +kernel) hr
  obtain ⟨k, rfl⟩ := Nat.exists_eq_succ_of_ne_zero hk.ne'
  obtain ⟨o1, -, e2⟩ := times_last e
  have h3 : (constrObj X' 11).1.A.rows = 1 := by
    simp only [budget, Option.some.injEq] at e2
    rw [← e2]
  have h4 : ((uafter 1000 X10 (.api (.addConstraint 11 jk))).solve (env xU true)).map (fun r => (constrObj r.1 11).1.A.rows)
      = some 0 := by decide +kernel
  rw [hr] at h4
  simp only [Option.map_some, Option.some.injEq] at h4
  omega

/-! ## An initial-state controller -/

def Y2 := uafter 1000 X1 (.api (.constructPs true solver 0 jk))
def Y3 := uafter 1000 Y2 (.api (.addConstraint 0 jk))
def Y4 := uafter 1000 Y3 (.api (.addConstraint 2 jk))
def Y5 := uafter 1000 Y4 (.api (.addConstraint 10 jk))
def Y6 := uafter 1000 Y5 (.api (.addCost 0 jk))
def Y7 := uafter 1000 Y6 (.api (.addCost 10 jk))
def Y8 := uafter 1000 Y7 (.api (.resetInitialStateCost (mat 2 2 [[1, 0], [0, 1]]) (vec [1/10, 1/5])))
def Y9 := uafter 1000 Y8 (.api (.resetInitialStateBounds (evec [.fin (-5), .fin (-5)]) (evec [.fin 5, .fin 5])))

/-- What the client knows in `Y9`. -/
def gY : Ghost := ⟨fun j => ((False ∨ (True ∧ j = 0)) ∨ (True ∧ j = 2)) ∨ (True ∧ j = 10),
    fun j => (False ∨ (True ∧ j = 0)) ∨ (True ∧ j = 10), fun j => (False ∨ (True ∧ j = 0)) ∨ (True ∧ j = 10), True⟩

theorem hY9 : UHist d 1000 Y9 gY := by
  have a1 := uhist_after (d := d) (dmax := 1000) (op := .api opSys) (.start X0_init) ⟨⟨rfl, rfl, rfl⟩, trivial⟩ (by decide +kernel)
  have a2 := uhist_after (op := .api (.constructPs true solver 0 jk)) a1
    ⟨show HasSystem X1.world 0 by unfold HasSystem; decide +kernel, trivial⟩ (by decide +kernel : uokB 1000 X1 _ = true)
  have a3 := uhist_after (op := .api (.addConstraint 0 jk)) a2 ⟨fun _ => (by decide +kernel : Y2.world.ctl.spBoundConstr = []), trivial⟩
    (by decide +kernel : uokB 1000 Y2 _ = true)
  have a4 := uhist_after (op := .api (.addConstraint 2 jk)) a3 ⟨fun _ => (by decide +kernel : Y3.world.ctl.spBoundConstr = []), trivial⟩
    (by decide +kernel : uokB 1000 Y3 _ = true)
  have a5 := uhist_after (op := .api (.addConstraint 10 jk)) a4
    ⟨fun h => absurd h (by decide +kernel : (Y4.world.cons 10).kind ≠ .ctrlBound), trivial⟩ (by decide +kernel : uokB 1000 Y4 _ = true)
  have a6 := uhist_after (op := .api (.addCost 0 jk)) a5 ⟨trivial, trivial⟩ (by decide +kernel : uokB 1000 Y5 _ = true)
  have a7 := uhist_after (op := .api (.addCost 10 jk)) a6 ⟨trivial, trivial⟩ (by decide +kernel : uokB 1000 Y6 _ = true)
  have a8 := uhist_after (op := .api (.resetInitialStateCost (mat 2 2 [[1, 0], [0, 1]]) (vec [1/10, 1/5]))) a7 ⟨trivial, trivial⟩
    (by decide +kernel : uokB 1000 Y7 _ = true)
  exact uhist_after (op := .api (.resetInitialStateBounds (evec [.fin (-5), .fin (-5)]) (evec [.fin 5, .fin 5]))) a8 ⟨trivial, trivial⟩
    (by decide +kernel : uokB 1000 Y8 _ = true)

/-- The minimiser. -/
def yU : Vec ℚ := vec [-1/10, -1/5, 2900000900000 / 14000008000001, 1900000200000 / 14000008000001]

def rY : UWorld ℚ ℚ × Bool × QP ℚ := (Y9.solve (envI yU true)).getD (Y9, false, q13)

theorem sY : Y9.solve (envI yU true) = some (rY.1, true, rY.2.2) := by
  have e : (Y9.solve (envI yU true)).isSome = true := by decide +kernel
  obtain ⟨r, hr⟩ := Option.isSome_iff_exists.1 e
  have h1 : rY = r := by unfold rY; rw [hr]; rfl
  have h2 : rY.2.1 = true := by decide +kernel
  rw [hr, ← h2, h1]

theorem oY : UOk d Y9 gY (.api (.solve (envI yU true))) :=
  ⟨⟨by decide +kernel, contractI rfl (by decide +kernel) (by decide +kernel)⟩, trivial⟩

theorem confY : Conforming d Y9 := conforming_of rfl rfl (by decide +kernel) (by decide +kernel)

theorem honestY : ∀ i ∈ Y9.world.ctl.spConstr, Y9.consClass i = none → (Y9.world.cons i).userData.Honest := by
  intro i hi hn
  rw [(by decide +kernel : Y9.world.ctl.spConstr = [0, 2, 10])] at hi
  simp only [List.mem_cons, List.not_mem_nil, or_false] at hi
  have : (Y9.world.cons i).kind ≠ .trajBound := by rcases hi with rfl | rfl | rfl <;> decide +kernel
  unfold Constr.userData
  cases h : (Y9.world.cons i).kind <;> simp only <;> first | trivial | exact absurd h this | (split <;> trivial)

theorem freshY : ∀ i ∈ Y9.world.ctl.spCost, Y9.costClass i = none → (Y9.world.costs i).userData.PerStepState d →
    gY.fresh i ∧ Y9.world.ctl.spCost.count i = 1 := by
  intro i hi _ _
  rw [(by decide +kernel : Y9.world.ctl.spCost = [0, 10])] at hi ⊢
  simp only [List.mem_cons, List.not_mem_nil, or_false] at hi
  refine ⟨?_, ?_⟩
  · show (False ∨ (True ∧ i = 0)) ∨ (True ∧ i = 10)
    tauto
  · rcases hi with rfl | rfl <;> rfl

theorem psY : Y9.world.ctl.ps = some 0 := by decide +kernel
theorem initY : Y9.world.ctl.isInit = true := by decide +kernel

/-- C91, the feasible set of an `InitialStateLMPC`, applies; there is a feasible point and an infeasible one. -/
example : Feasible rY.2.2 (fun _ => 1 / 2) ∧ ¬ Feasible rY.2.2 (fun j => if j = 2 then 2 else 0) ∧
    ∀ x U, Feasible rY.2.2 (joined d x U) ↔ AllHoldFrom d Y9 rY.1 0 x U ∧ InitBounds d Y9.world.ctl x ∧
      (Y9.world.ctl.spBoundConstr = [] → ∀ j < d.m * d.N, -1000 ≤ U j ∧ U j ≤ 1000) :=
  ⟨by decide +kernel, by decide +kernel, c91_feasible_from hY9 confY oY initY (fun _ => trivial) honestY sY psY⟩

/-- C91, its objective, applies. -/
example := c91_objective_from hY9 confY oY initY freshY sY psY

theorem optY : IsOptimal rY.2.2 ((envI yU true).answer rY.2.2).2.e := by
  refine optimal_of_stationary ⟨by unfold Spec.Symmetric; decide +kernel, fun x => ?_⟩ (by decide +kernel) (by decide +kernel)
  rw [(by decide +kernel : rY.2.2.c.rows = 4)]
  have e : ∀ i < 4, ∀ j < 4, rY.2.2.Q.e i j = (mat 4 4 [[17000009000001 / 14000008000001, 13000004000000 / 14000008000001, 1, 0],
      [13000004000000 / 14000008000001, 75000025000001 / 14000008000001, 4, 1], [1, 4, 5000001 / 1000000, -1],
      [0, 1, -1, 3000001 / 1000000]]).e i j := by decide +kernel
  simp only [Finset.sum_range_succ, Finset.sum_range_zero, e _ (by decide : 0 < 4) _ (by decide : 0 < 4), e _ (by decide : 0 < 4) _ (by decide : 1 < 4),
    e _ (by decide : 0 < 4) _ (by decide : 2 < 4), e _ (by decide : 0 < 4) _ (by decide : 3 < 4), e _ (by decide : 1 < 4) _ (by decide : 0 < 4),
    e _ (by decide : 1 < 4) _ (by decide : 1 < 4), e _ (by decide : 1 < 4) _ (by decide : 2 < 4), e _ (by decide : 1 < 4) _ (by decide : 3 < 4),
    e _ (by decide : 2 < 4) _ (by decide : 0 < 4), e _ (by decide : 2 < 4) _ (by decide : 1 < 4), e _ (by decide : 2 < 4) _ (by decide : 2 < 4),
    e _ (by decide : 2 < 4) _ (by decide : 3 < 4), e _ (by decide : 3 < 4) _ (by decide : 0 < 4), e _ (by decide : 3 < 4) _ (by decide : 1 < 4),
    e _ (by decide : 3 < 4) _ (by decide : 2 < 4), e _ (by decide : 3 < 4) _ (by decide : 3 < 4)]
  simp only [mat, List.getD_cons_zero, List.getD_cons_succ]
  have s1 := sq_nonneg (x 0 + 4 * x 1 + 5000001 / 1000000 * x 2 - x 3)
  have s2 := sq_nonneg (x 1 - x 2 + 3000001 / 1000000 * x 3)
  have s3 := sq_nonneg ((x 0 + 4 * x 1 + 5000001 / 1000000 * x 2 - x 3) + (x 1 - x 2 + 3000001 / 1000000 * x 3))
  have s4 := sq_nonneg (x 0)
  have s5 := sq_nonneg (x 1)
  nlinarith

/-- C91, end to end for an `InitialStateLMPC`, applies, with every back end. -/
example (k : SolverKind) (junk : Junk ℚ) :=
  c91_end_to_end_from (k := k) (junk := junk) hY9 confY oY initY (fun _ => trivial) honestY freshY sY psY (by decide +kernel)
    (backEndOptimal_of (by decide +kernel) (by decide +kernel) (by decide +kernel) optY)

end Ex.User
end Copra
