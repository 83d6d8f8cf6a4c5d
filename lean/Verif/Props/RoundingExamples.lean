import Verif.Props.Ieee
import Verif.Props.WorldExamples

/-! # C98: a program in IEEE double precision

A double integrator with sampling time `0.1` (which is not a binary64 number), two steps, an inequality on the trajectory,
a control bound and two costs, in double precision, with error bars and exactly.  The worlds and the error bars are computed by
the model in the kernel. -/

set_option linter.unusedSectionVars false

namespace Copra.RoundEx
open Spec World

set_option maxRecDepth 100000

section
variable {A : Type} [Zero A] [One A] [Add A] [Sub A] [Neg A] [Mul A] [Arith A] (c : ℚ → A)

def mat (r k : Nat) (l : List (List ℚ)) : Mat A := ⟨r, k, fun i j => c ((l.getD i []).getD j 0)⟩
def vec (l : List ℚ) : Vec A := ⟨l.length, fun i => c (l.getD i 0)⟩
def bnd (l : List ℚ) : Vec (Ext A) := ⟨l.length, fun i => .fin (c (l.getD i 0))⟩
def jk : Junk A := ⟨fun _ _ _ => c 7, fun _ _ => c 7, fun _ _ => .fin (c 7)⟩

def theCons (i : Nat) : Constr A :=
  match i with
  | 0 => Constr.mkTrajectory (mat c 1 2 [[1, 1/10]]) (bnd c [5]) true
  | _ => Constr.mkCtrlBound (bnd c [-1]) (bnd c [1])

def theCosts (i : Nat) : Cost A :=
  match i with
  | 0 => Cost.mkTarget (mat c 2 2 [[1, 0], [0, 1]]) (vec c [0, 1/3])
  | _ => Cost.mkControl (mat c 1 1 [[11/10]]) (vec c [1/10])

def solver : Solver A := ⟨.quadProgDense, Vec.zero 0⟩

def w0 : World A where
  pss := fun _ => PreviewSystem.default
  cons := theCons c
  costs := theCosts c
  extCons := fun _ => 1
  extCosts := fun _ => 1
  ctl := LMPC.construct false solver

theorem w0_init : World.Init (w0 c) := by
  refine ⟨fun _ => rfl, ?_, ?_, false, solver, rfl⟩
  · intro i
    show World.FreshConstr (theCons c i)
    unfold World.FreshConstr theCons
    split
    · exact .inl ⟨_, _, _, rfl⟩
    · exact .inr (.inr (.inr (.inr ⟨_, _, rfl⟩)))
  · intro i
    show World.FreshCost (theCosts c i)
    unfold World.FreshCost theCosts
    split
    · exact .inr (.inl ⟨_, _, rfl⟩)
    · exact .inr (.inr (.inl ⟨_, _, rfl⟩))

def opSys : Op A := .system 0 (mat c 2 2 [[1, 1/10], [0, 1]]) (mat c 2 1 [[1/200], [1/10]]) (vec c [0, 0]) (vec c [1, 0]) 2
def opCtl : Op A := .constructPs false solver 0 (jk c)

def env : SolveEnv A where
  junk := jk c
  inverse := fun M => M
  answer := fun q => (true, if q.nrVar = 2 then vec c [1/3, 1/7] else Vec.zero q.nrVar)
  t0 := 10
  t1 := 20
  t2 := 25
  t3 := 31

def w1 := after (c 1000) (w0 c) (opSys c)
def w2 := after (c 1000) (w1 c) (opCtl c)
def w3 := after (c 1000) (w2 c) (.addConstraint 0 (jk c))
def w4 := after (c 1000) (w3 c) (.addConstraint 1 (jk c))
def w5 := after (c 1000) (w4 c) (.addCost 0 (jk c))
def w6 := after (c 1000) (w5 c) (.addCost 1 (jk c))

/-- The result of the solve. -/
def r6 := (World.solve (env c) (w6 c)).getD (w6 c, false, (w6 c).ctl.qp)

variable {c} {B : Type} [Zero B] [One B] [Add B] [Sub B] [Neg B] [Mul B] [Arith B] {c' : ℚ → B} {rel : A → B → Prop}

theorem mat_R (hc : ∀ x, rel (c x) (c' x)) (r k : Nat) (l : List (List ℚ)) : MatR rel (mat c r k l) (mat c' r k l) :=
  ⟨rfl, rfl, fun _ _ => hc _⟩
theorem vec_R (hc : ∀ x, rel (c x) (c' x)) (l : List ℚ) : VecR rel (vec c l) (vec c' l) := ⟨rfl, fun _ => hc _⟩
theorem bnd_R (hc : ∀ x, rel (c x) (c' x)) (l : List ℚ) : VecR (ExtR rel) (bnd c l) (bnd c' l) := ⟨rfl, fun _ => hc _⟩
theorem jk_R (hc : ∀ x, rel (c x) (c' x)) : JunkR rel (jk c) (jk c') := ⟨fun _ _ _ => hc _, fun _ _ => hc _, fun _ _ => hc _⟩
theorem solver_R (z : rel 0 0) : SolverR rel (solver : Solver A) (solver : Solver B) := ⟨rfl, rfl, fun _ => z⟩

theorem w0_R (hc : ∀ x, rel (c x) (c' x)) (z : rel 0 0) (o : rel 1 1) : WorldR rel (w0 c) (w0 c') := by
  refine ⟨fun _ => psDefault_R z, fun i => ?_, fun i => ?_, rfl, rfl, ctlConstruct_R z _ (solver_R z)⟩
  · show ConstrR rel (theCons c i) (theCons c' i)
    unfold theCons
    split
    · exact { constrFresh_R z .trajectory true with E := mat_R hc _ _ _, f := bnd_R hc _ }
    · exact { constrFresh_R z .ctrlBound true with lower := bnd_R hc _, upper := bnd_R hc _ }
  · show CostR rel (theCosts c i) (theCosts c' i)
    unfold theCosts
    split
    · exact costConstruct_R z o _ (mat_R hc _ _ _) (empty_R z) (vec_R hc _)
    · exact costConstruct_R z o _ (empty_R z) (mat_R hc _ _ _) (vec_R hc _)

theorem opSys_R (hc : ∀ x, rel (c x) (c' x)) (w : World A) : OpR rel w (opSys c) (opSys c') :=
  ⟨rfl, mat_R hc _ _ _, mat_R hc _ _ _, vec_R hc _, vec_R hc _, rfl⟩
theorem opCtl_R (hc : ∀ x, rel (c x) (c' x)) (z : rel 0 0) (w : World A) : OpR rel w (opCtl c) (opCtl c') :=
  ⟨rfl, solver_R z, rfl, jk_R hc⟩
theorem addC_R (hc : ∀ x, rel (c x) (c' x)) (w : World A) (i : Nat) :
    OpR rel w (.addConstraint i (jk c)) (.addConstraint i (jk c')) := ⟨rfl, jk_R hc⟩
theorem addK_R (hc : ∀ x, rel (c x) (c' x)) (w : World A) (i : Nat) : OpR rel w (.addCost i (jk c)) (.addCost i (jk c')) := ⟨rfl, jk_R hc⟩

theorem env_R (hc : ∀ x, rel (c x) (c' x)) (z : rel 0 0) (w : World A) : EnvR rel w (env c) (env c') := by
  refine ⟨jk_R hc, ⟨rfl, rfl, rfl, rfl⟩, fun _ _ _ _ _ h _ _ => h, fun q q' _ h => ⟨rfl, ?_⟩⟩
  show VecR rel (if q.nrVar = 2 then vec c [1/3, 1/7] else Vec.zero q.nrVar) (if q'.nrVar = 2 then vec c' [1/3, 1/7] else Vec.zero q'.nrVar)
  rw [h.nrVar]
  split
  · exact vec_R hc _
  · exact ⟨rfl, fun _ => z⟩

end

/-! ## The three programs -/

/-- Constants in double precision. -/
def cD (x : ℚ) : Double := ⟨fl64 x⟩
/-- The same, taken as they are, with error bars. -/
def cT (x : ℚ) : Tr binary64 := Tr.lift binary64 Mach.val (cD x)
/-- The exact values of the constants in double precision. -/
def cV (x : ℚ) : ℚ := (cT x).val

theorem cT_encloses (x : ℚ) : Tr.Encloses Mach.val (cD x) (cT x) := Tr.lift_encloses _
theorem cT_taken (x : ℚ) : Tr.Taken Mach.val (cD x) (cT x) := rfl
theorem cV_exact (x : ℚ) : Tr.Exact (cT x) (cV x) := rfl

def S := Side (ρ := binary64) Mach.val (Tr.Taken Mach.val) (cD 1000) (cT 1000)

theorem s6 : S (w6 cD) (w6 cT) (w6 cV) := by
  have S1 := Tr.scalar_encloses c98_binary64
  have z1 : Tr.Taken Mach.val (0 : Double) (0 : Tr binary64) := (Tr.lift_zero c98_binary64).symm
  have o1 : Tr.Taken Mach.val (1 : Double) (1 : Tr binary64) := (Tr.lift_one c98_binary64).symm
  have a0 : S (w0 cD) (w0 cT) (w0 cV) := .start (w0_init _) (w0_init _) (w0_init _) (w0_R cT_encloses S1.zero S1.one)
    (w0_R cT_taken z1 o1) (w0_R cV_exact rfl rfl)
  have a1 : S (w1 cD) (w1 cT) (w1 cV) := .ok a0 (opSys_R cT_encloses _) (opSys_R cT_taken (w0 cD)) (opSys_R cV_exact _)
    (okB_step (by decide +kernel)) (okB_step (by decide +kernel)) (okB_step (by decide +kernel))
  have a2 : S (w2 cD) (w2 cT) (w2 cV) := .ok a1 (opCtl_R cT_encloses S1.zero _) (opCtl_R cT_taken z1 (w1 cD)) (opCtl_R cV_exact rfl _)
    (okB_step (by decide +kernel)) (okB_step (by decide +kernel)) (okB_step (by decide +kernel))
  have a3 : S (w3 cD) (w3 cT) (w3 cV) := .ok a2 (addC_R cT_encloses _ 0) (addC_R cT_taken (w2 cD) 0) (addC_R cV_exact _ 0)
    (okB_step (by decide +kernel)) (okB_step (by decide +kernel)) (okB_step (by decide +kernel))
  have a4 : S (w4 cD) (w4 cT) (w4 cV) := .ok a3 (addC_R cT_encloses _ 1) (addC_R cT_taken (w3 cD) 1) (addC_R cV_exact _ 1)
    (okB_step (by decide +kernel)) (okB_step (by decide +kernel)) (okB_step (by decide +kernel))
  have a5 : S (w5 cD) (w5 cT) (w5 cV) := .ok a4 (addK_R cT_encloses _ 0) (addK_R cT_taken (w4 cD) 0) (addK_R cV_exact _ 0)
    (okB_step (by decide +kernel)) (okB_step (by decide +kernel)) (okB_step (by decide +kernel))
  exact .ok a5 (addK_R cT_encloses _ 1) (addK_R cT_taken (w5 cD) 1) (addK_R cV_exact _ 1)
    (okB_step (by decide +kernel)) (okB_step (by decide +kernel)) (okB_step (by decide +kernel))

/-- The client's view of the exact program. -/
theorem hV : Hist ⟨2, 1, 2⟩ (cT 1000).val NoBoundSpan (w6 cV) ⟨fun j => (False ∨ (True ∧ j = 0)) ∨ (True ∧ j = 1), fun j => (False ∨ (True ∧ j = 0)) ∨ (True ∧ j = 1),
    fun j => (False ∨ (True ∧ j = 0)) ∨ (True ∧ j = 1), True⟩ := by
  have a1 := hist_after (d := ⟨2, 1, 2⟩) (dmax := cV 1000) (E := NoBoundSpan) (op := opSys cV) (.start (w0_init cV)) ⟨rfl, rfl, rfl⟩
    trivial (by decide +kernel)
  have a2 := hist_after (op := opCtl cV) a1 (show HasSystem (w1 cV) 0 by unfold HasSystem; decide +kernel) trivial (by decide +kernel)
  have a3 := hist_after (op := .addConstraint 0 (jk cV)) a2 (fun _ => (by decide +kernel)) trivial (by decide +kernel)
  have a4 := hist_after (op := .addConstraint 1 (jk cV)) a3 (fun _ => (by decide +kernel : (w3 cV).ctl.spBoundConstr = [])) trivial
    (by decide +kernel : okB (cV 1000) (w3 cV) _ = true)
  have a5 := hist_after (op := .addCost 0 (jk cV)) a4 trivial trivial (by decide +kernel : okB (cV 1000) (w4 cV) _ = true)
  exact hist_after (op := .addCost 1 (jk cV)) a5 trivial trivial (by decide +kernel : okB (cV 1000) (w5 cV) _ = true)

theorem solve6 {A : Type} [Zero A] [One A] [Add A] [Sub A] [Neg A] [Mul A] [Arith A] {c : ℚ → A}
    (e : (World.solve (env c) (w6 c)).isSome = true) (f : (r6 c).2.1 = true) :
    World.solve (env c) (w6 c) = some ((r6 c).1, true, (r6 c).2.2) := by
  obtain ⟨r, hr⟩ := Option.isSome_iff_exists.1 e
  have : r6 c = r := by unfold r6; rw [hr]; rfl
  rw [hr, ← f, this]

theorem ss : SideSolve (ρ := binary64) Mach.val (Tr.Taken Mach.val) (cD 1000) (cT 1000) (w6 cD) (w6 cT) (w6 cV) (env cD) (env cT) (env cV)
    (r6 cD).1 (r6 cT).1 (r6 cV).1 true (r6 cD).2.2 (r6 cT).2.2 (r6 cV).2.2 where
  side := s6
  encloses := env_R cT_encloses (Tr.scalar_encloses c98_binary64).zero _
  data := by
    intro q q' hq hq'
    have n1 : q.nrVar = 2 := by
      rw [handed_unique hq (handed_of_solve (solve6 (c := cD) (by decide +kernel) (by decide +kernel))).1]
      decide +kernel
    have n2 : q'.nrVar = 2 := by
      rw [handed_unique hq' (handed_of_solve (solve6 (c := cT) (by decide +kernel) (by decide +kernel))).1]
      decide +kernel
    show VecR _ (if q.nrVar = 2 then vec cD [1/3, 1/7] else Vec.zero q.nrVar) (if q'.nrVar = 2 then vec cT [1/3, 1/7] else Vec.zero q'.nrVar)
    rw [if_pos n1, if_pos n2]
    exact vec_R cT_taken _
  exact := env_R cV_exact rfl _
  machine := solve6 (by decide +kernel) (by decide +kernel)
  bars := solve6 (by decide +kernel) (by decide +kernel)
  ideal := solve6 (by decide +kernel) (by decide +kernel)

/-! ## What the error bars say -/

theorem okV : OpOk ⟨2, 1, 2⟩ (w6 cV) ⟨fun j => (False ∨ (True ∧ j = 0)) ∨ (True ∧ j = 1), fun j => (False ∨ (True ∧ j = 0)) ∨ (True ∧ j = 1),
    fun j => (False ∨ (True ∧ j = 0)) ∨ (True ∧ j = 1), True⟩ (.solve (env cV)) := by
  refine ⟨by decide +kernel, fun h => absurd (congrArg Option.isSome h) (by decide +kernel : (w6 cV).ctl.sol.isSome ≠ false),
    fun q hq _ => ?_, fun h => absurd h (by decide +kernel)⟩
  have n : q.nrVar = 2 := by
    rw [hq]
    unfold numVars
    rw [(by decide +kernel : (w6 cV).ctl.isInit = false)]
    rfl
  show (if q.nrVar = 2 then vec cV [1/3, 1/7] else Vec.zero q.nrVar).rows = q.nrVar
  rw [if_pos n, n]
  rfl

/-- A way to compute error bars. -/
def barOf (t : Tr binary64) : ℚ := t.err.getD 0
def extBarOf : Ext (Tr binary64) → ℚ
  | .fin t => barOf t
  | _ => 0

theorem bar_of {t : Tr binary64} (h : t.err.isSome = true) : Bar t (barOf t) := by
  obtain ⟨e, he⟩ := Option.isSome_iff_exists.1 h
  exact ⟨e, he, by unfold barOf; rw [he]; exact le_refl _⟩

def extSome : Ext (Tr binary64) → Bool
  | .fin t => t.err.isSome
  | _ => true

theorem extBar_of {t : Ext (Tr binary64)} {δ : ℚ} (h : extSome t = true) (h0 : extBarOf t ≤ δ) : ExtBar t δ := by
  cases t with
  | ninf => exact h0
  | pinf => exact h0
  | fin t =>
    obtain ⟨e, he, k⟩ := bar_of h
    exact ⟨e, he, k.trans h0⟩

theorem rowBar_of {A : Mat (Tr binary64)} {b : Vec (Ext (Tr binary64))} {x : Nat → ℚ} {δ : ℚ} {i : Nat}
    (h1 : ∀ j < A.cols, (A.e i j).err.isSome = true) (h2 : extSome (b.e i) = true)
    (h3 : (∑ j ∈ Finset.range A.cols, barOf (A.e i j) * |x j|) + extBarOf (b.e i) ≤ δ) : RowBar A b x δ i :=
  ⟨_, _, fun j hj => bar_of (h1 j hj), extBar_of h2 (le_refl _), h3⟩

/-- The controls handed back, as exact numbers. -/
def U : Nat → ℚ := (vec cV [1/3, 1/7]).e

def eps : ℚ := 1 / 100000000000000

theorem barU : ConstraintBar (r6 cT).2.2 U eps := by
  refine ⟨fun i hi => absurd hi (by rw [(by decide +kernel : (r6 cT).2.2.Aeq.rows = 0)]; omega), fun i hi => ?_, fun j hj => ?_, fun j hj => ?_⟩
  · rw [(by decide +kernel : (r6 cT).2.2.Aineq.rows = 3)] at hi
    have c2 : (r6 cT).2.2.Aineq.cols = 2 := by decide +kernel
    refine rowBar_of (fun j hj => ?_) ?_ ?_
    · rw [c2] at hj
      revert i j
      decide +kernel
    · revert i; decide +kernel
    · revert i; decide +kernel
  · rw [(by decide +kernel : (r6 cT).2.2.lb.rows = 2)] at hj
    refine extBar_of ?_ ?_
    · revert j; decide +kernel
    · revert j; decide +kernel
  · rw [(by decide +kernel : (r6 cT).2.2.ub.rows = 2)] at hj
    refine extBar_of ?_ ?_
    · revert j; decide +kernel
    · revert j; decide +kernel

/-- The answer satisfies the constraints of the problem in double precision. -/
theorem feasU : FeasibleWithin 0 (realQP Mach.val (r6 cD).2.2) U := by
  refine ⟨fun i hi => absurd hi (by rw [(by decide +kernel : (realQP Mach.val (r6 cD).2.2).Aeq.rows = 0)]; omega), fun i hi => ?_,
    fun j hj => ?_, fun j hj => ?_⟩
  · rw [(by decide +kernel : (realQP Mach.val (r6 cD).2.2).Aineq.rows = 3)] at hi
    revert i; decide +kernel
  · rw [(by decide +kernel : (realQP Mach.val (r6 cD).2.2).lb.rows = 2)] at hj
    revert j; decide +kernel
  · rw [(by decide +kernel : (realQP Mach.val (r6 cD).2.2).ub.rows = 2)] at hj
    revert j; decide +kernel

theorem maxT : Tr.Encloses Mach.val (cD 1000) (cT 1000) := cT_encloses _

theorem honestV : ∀ i ∈ (w6 cV).ctl.spConstr, ((w6 cV).cons i).userData.Honest := by
  intro i hi
  rw [(by decide +kernel : (w6 cV).ctl.spConstr = [0, 1])] at hi
  simp only [List.mem_cons, List.not_mem_nil, or_false] at hi
  rcases hi with rfl | rfl <;> exact trivial

/-- C98 on this program: what satisfies the problem computed in double precision satisfies the declared constraints up to
`1e-14`. -/
example : ∀ i ∈ (w6 cV).ctl.spConstr, ((w6 cV).cons i).userData.HoldsWithin ⟨2, 1, 2⟩ (0 + eps) (Spec.traj ⟨2, 1, 2⟩ (w6 cV) 0 U) U :=
  c98_feasible c98_binary64 maxT ss hV (fun _ _ h => h) okV (by decide +kernel) (fun _ => trivial) honestV (p := 0) (by decide +kernel) feasU barU

/-- The trajectory handed back in double precision is the exact simulation up to `1e-14`. -/
example : ∀ k ≤ 2, ∀ c < 2, ∃ x, ((r6 cD).1.ctl.trajectory.e (k * 2 + c)).val = some x ∧
    |x - Spec.traj ⟨2, 1, 2⟩ (w6 cV) 0 (fun j => (((r6 cD).1.ctl.control.e j).val).getD 0) k c| ≤ eps := by
  intro k hk c hc
  have b : Bar ((r6 cT).1.ctl.trajectory.e (k * 2 + c)) (barOf ((r6 cT).1.ctl.trajectory.e (k * 2 + c))) := by
    refine bar_of ?_
    revert k c
    decide +kernel
  obtain ⟨x, h1, h2⟩ := c98_trajectory c98_binary64 maxT ss hV okV (by decide +kernel) (p := 0) (by decide +kernel) hk hc b
  refine ⟨x, h1, h2.trans ?_⟩
  clear h1 h2 b x
  revert k c
  decide +kernel

/-! ## Optimality -/

/-- The problem in double precision, as exact numbers. -/
def qD : QP ℚ := realQP Mach.val (r6 cD).2.2
def det : ℚ := qD.Q.e 0 0 * qD.Q.e 1 1 - qD.Q.e 0 1 * qD.Q.e 1 0
/-- Its minimiser. -/
def X : Nat → ℚ
  | 0 => (qD.c.e 1 * qD.Q.e 0 1 - qD.c.e 0 * qD.Q.e 1 1) / det
  | _ => (qD.c.e 0 * qD.Q.e 1 0 - qD.c.e 1 * qD.Q.e 0 0) / det

theorem psd_two {Q : Mat ℚ} (hs : Q.e 0 1 = Q.e 1 0) (h0 : 0 < Q.e 0 0) (hd : 0 ≤ Q.e 0 0 * Q.e 1 1 - Q.e 0 1 * Q.e 0 1) : PSD 2 Q := by
  refine ⟨fun i hi j hj => ?_, fun x => ?_⟩
  · interval_cases i <;> interval_cases j <;> first | rfl | exact hs | exact hs.symm
  · simp only [Finset.sum_range_succ, Finset.sum_range_zero, zero_add]
    rw [← hs]
    have e : Q.e 0 0 * (x 0 * Q.e 0 0 * x 0 + x 0 * Q.e 0 1 * x 1 + (x 1 * Q.e 0 1 * x 0 + x 1 * Q.e 1 1 * x 1)) =
        (Q.e 0 0 * x 0 + Q.e 0 1 * x 1) ^ 2 + (Q.e 0 0 * Q.e 1 1 - Q.e 0 1 * Q.e 0 1) * x 1 ^ 2 := by ring
    have : 0 ≤ Q.e 0 0 * (x 0 * Q.e 0 0 * x 0 + x 0 * Q.e 0 1 * x 1 + (x 1 * Q.e 0 1 * x 0 + x 1 * Q.e 1 1 * x 1)) := by
      rw [e]; positivity
    exact nonneg_of_mul_nonneg_right this h0

theorem optX : IsOptimal qD X := by
  have n : qD.c.rows = 2 := by decide +kernel
  refine optimal_of_stationary ?_ (by decide +kernel) (by decide +kernel)
  rw [n]
  exact psd_two (by decide +kernel) (by decide +kernel) (by decide +kernel)

theorem objBar {x : Nat → ℚ} {ε : ℚ} (h1 : ∀ i < 2, ∀ j < 2, ((r6 cT).2.2.Q.e i j).err.isSome = true)
    (h2 : ∀ j < 2, ((r6 cT).2.2.c.e j).err.isSome = true)
    (h3 : 1 / 2 * (∑ i ∈ Finset.range 2, ∑ j ∈ Finset.range 2, |x i| * barOf ((r6 cT).2.2.Q.e i j) * |x j|) +
      (∑ j ∈ Finset.range 2, barOf ((r6 cT).2.2.c.e j) * |x j|) ≤ ε) : ObjectiveBar (r6 cT).2.2 x ε := by
  have n : (r6 cT).2.2.c.rows = 2 := by decide +kernel
  refine ⟨fun i j => barOf ((r6 cT).2.2.Q.e i j), fun j => barOf ((r6 cT).2.2.c.e j), ?_, ?_, ?_⟩
  · rw [n]; exact fun i hi j hj => bar_of (h1 i hi j hj)
  · rw [n]; exact fun j hj => bar_of (h2 j hj)
  · rw [n]; exact h3

/-- The controls of the comparison. -/
def V : Nat → ℚ := fun _ => 1 / 2

theorem barV : ConstraintBar (r6 cT).2.2 V eps := by
  refine ⟨fun i hi => absurd hi (by rw [(by decide +kernel : (r6 cT).2.2.Aeq.rows = 0)]; omega), fun i hi => ?_, fun j hj => ?_, fun j hj => ?_⟩
  · rw [(by decide +kernel : (r6 cT).2.2.Aineq.rows = 3)] at hi
    have c2 : (r6 cT).2.2.Aineq.cols = 2 := by decide +kernel
    refine rowBar_of (fun j hj => ?_) ?_ ?_
    · rw [c2] at hj
      revert i j
      decide +kernel
    · revert i; decide +kernel
    · revert i; decide +kernel
  · rw [(by decide +kernel : (r6 cT).2.2.lb.rows = 2)] at hj
    refine extBar_of ?_ ?_
    · revert j; decide +kernel
    · revert j; decide +kernel
  · rw [(by decide +kernel : (r6 cT).2.2.ub.rows = 2)] at hj
    refine extBar_of ?_ ?_
    · revert j; decide +kernel
    · revert j; decide +kernel

theorem freshV : CostsFresh ⟨2, 1, 2⟩ (w6 cV) ⟨fun j => (False ∨ (True ∧ j = 0)) ∨ (True ∧ j = 1),
    fun j => (False ∨ (True ∧ j = 0)) ∨ (True ∧ j = 1), fun j => (False ∨ (True ∧ j = 0)) ∨ (True ∧ j = 1), True⟩ := by
  intro i hi _
  rw [(by decide +kernel : (w6 cV).ctl.spCost = [0, 1])] at hi ⊢
  simp only [List.mem_cons, List.not_mem_nil, or_false] at hi
  rcases hi with rfl | rfl
  · exact ⟨Or.inl (Or.inr ⟨trivial, rfl⟩), rfl⟩
  · exact ⟨Or.inr ⟨trivial, rfl⟩, rfl⟩

theorem heldV : ∀ i ∈ (w6 cV).ctl.spConstr, ((w6 cV).cons i).userData.HoldsWithin ⟨2, 1, 2⟩ (-eps) (Spec.traj ⟨2, 1, 2⟩ (w6 cV) 0 V) V := by
  refine ((c71_residuals hV (fun _ _ h => h) okV (by decide +kernel) (fun _ => trivial) honestV ss.ideal (p := 0) (by decide +kernel) (-eps) V).1 ?_).1
  refine ⟨fun i hi => absurd hi (by rw [(by decide +kernel : (r6 cV).2.2.Aeq.rows = 0)]; omega), fun i hi => ?_,
    fun j hj => ?_, fun j hj => ?_⟩
  · rw [(by decide +kernel : (r6 cV).2.2.Aineq.rows = 3)] at hi
    revert i; decide +kernel
  · rw [(by decide +kernel : (r6 cV).2.2.lb.rows = 2)] at hj
    revert j; decide +kernel
  · rw [(by decide +kernel : (r6 cV).2.2.ub.rows = 2)] at hj
    revert j; decide +kernel

/-- C98 on this program: the minimiser of the problem computed in double precision costs, exactly, at most `2e-14` more than
the controls `V`. -/
example : totalCost ⟨2, 1, 2⟩ (w6 cV) 0 X ≤ totalCost ⟨2, 1, 2⟩ (w6 cV) 0 V + (0 + eps + eps) :=
  c98_cost c98_binary64 maxT ss hV (fun _ _ h => h) okV (by decide +kernel) (fun _ => trivial) honestV (p := 0) (by decide +kernel) freshV
    (fun y hy => by rw [add_zero]; exact optX.2 y hy) (objBar (by decide +kernel) (by decide +kernel) (by decide +kernel))
    (objBar (by decide +kernel) (by decide +kernel) (by decide +kernel)) barV heldV (by
      intro j hj
      replace hj : j < 2 := hj
      revert j
      decide +kernel)

end Copra.RoundEx
