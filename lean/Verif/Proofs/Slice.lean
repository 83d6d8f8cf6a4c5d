import Verif.SpecSlice
import Verif.Proofs.Multi
import Verif.Proofs.UserSolve
import Verif.Proofs.Mask
import Verif.Props.System

/-! # A sliced controller behaves like a plain one -/

namespace Copra
open Spec

set_option linter.unusedSectionVars false
set_option linter.unusedSimpArgs false

section
variable {K : Type} [Field K] [LinearOrder K] [IsStrictOrderedRing K]

namespace World

/-- What a solve leaves in the controller. -/
theorem solve_ctl {env : SolveEnv K} {w w' : World K} {b : Bool} {q : QP K} (h : w.solve env = some (w', b, q)) :
    (∃ s, w.ctl.sol = some s ∧ w'.ctl.sol = some { s with result := (env.answer q).2 }) ∧
    w'.ctl.solveTime = some (env.t2 - env.t1) ∧ w'.ctl.solveAndBuildTime = some (env.t3 - env.t0) ∧
    LMPC.countConstr w.cons w.ctl.spEqConstr = some w'.ctl.nrEqConstr ∧
    LMPC.countConstr w.cons w.ctl.spIneqConstr = some w'.ctl.nrIneqConstr := by
  obtain ⟨w1, p, l, s, l', h1, hp, hl, hs, rfl, rfl, hl', rfl⟩ := solve_inv h
  obtain ⟨p1, ps, l1, l2, cons, costs, hp1, hps, e1, e2, hc, hk, rfl, f⟩ := updateSystem_inv h1
  have g : LMPC.Fixed w.ctl l := f.trans (LMPC.makeQPForm_fixed hl)
  have nr : l.nrEqConstr = l1.nrEqConstr ∧ l.nrIneqConstr = l1.nrIneqConstr := by
    obtain ⟨_, _, _, _, _, a, b⟩ := LMPC.updateConstraintMatrixSize_fixed e2
    rw [← a, ← b]
    exact ⟨(UWorld.makeQPForm_bounds hl).2.2.2.2.1, (UWorld.makeQPForm_bounds hl).2.2.2.2.2⟩
  have n1 : LMPC.countConstr w.cons w.ctl.spEqConstr = some l1.nrEqConstr ∧
      LMPC.countConstr w.cons w.ctl.spIneqConstr = some l1.nrIneqConstr := by
    unfold LMPC.updateNr at e1
    simp only [Option.bind_eq_bind, Option.bind_eq_some_iff, Option.pure_def, Option.some.injEq] at e1
    obtain ⟨a, ha, b, hb, rfl⟩ := e1
    exact ⟨ha, hb⟩
  have key : l'.sol = some { s with result := (env.answer l.qp).2 } ∧ l'.solveTime = some (env.t2 - env.t1) ∧
      l'.nrEqConstr = l.nrEqConstr ∧ l'.nrIneqConstr = l.nrIneqConstr := by
    split at hl'
    · have e := updateResults_frame hl'
      rw [e]
      exact ⟨rfl, rfl, rfl, rfl⟩
    · cases hl'
      exact ⟨rfl, rfl, rfl, rfl⟩
  exact ⟨⟨s, g.sol.symm.trans hs, key.1⟩, key.2.1, rfl, by rw [n1.1]; exact congrArg some (nr.1.symm.trans key.2.2.1.symm),
    by rw [n1.2]; exact congrArg some (nr.2.symm.trans key.2.2.2.symm)⟩

/-- The state of a program whose controller is an `LMPC` with the objects, registries, counters, solver and times of `w`. -/
structure PlainTwin (w v : World K) : Prop where
  pss : v.pss = w.pss
  cons : v.cons = w.cons
  costs : v.costs = w.costs
  extCons : v.extCons = w.extCons
  extCosts : v.extCosts = w.extCosts
  plain : v.ctl.isInit = false
  ps : v.ctl.ps = w.ctl.ps
  sol : v.ctl.sol = w.ctl.sol
  spCost : v.ctl.spCost = w.ctl.spCost
  nrEq : v.ctl.nrEqConstr = w.ctl.nrEqConstr
  nrIneq : v.ctl.nrIneqConstr = w.ctl.nrIneqConstr
  spConstr : v.ctl.spConstr = w.ctl.spConstr
  spEq : v.ctl.spEqConstr = w.ctl.spEqConstr
  spIneq : v.ctl.spIneqConstr = w.ctl.spIneqConstr
  spBound : v.ctl.spBoundConstr = w.ctl.spBoundConstr
  solveTime : v.ctl.solveTime = w.ctl.solveTime
  solveAndBuildTime : v.ctl.solveAndBuildTime = w.ctl.solveAndBuildTime

/-- The same call on an `LMPC`. -/
def plainOp : Op K → Op K
  | .construct _ s => .construct false s
  | .constructPs _ s p junk => .constructPs false s p junk
  | op => op

theorem PlainTwin.slice {w v : World K} (T : PlainTwin w v) : PlainTwin w.slice v := { T with }

theorem PlainTwin.opOk {d : Dims} {g : Ghost} {w v : World K} (T : PlainTwin w v) {op : Op K} (ns : ¬ IsSolve op)
    (ho : OpOk d w g op) : OpOk d v g (plainOp op) := by
  cases op <;> simp only [OpOk, plainOp, HasSystem, T.pss, T.cons, T.spBound] at ho ⊢ <;> first | exact ho | skip
  exact (ns trivial).elim

theorem PlainTwin.next {g : Ghost} {w v : World K} (T : PlainTwin w v) {op : Op K} (ok : Prop) :
    g.next w ok op = g.next v ok (plainOp op) := by
  cases op <;> simp only [Ghost.next, plainOp, T.spCost, T.spBound]

theorem onObject_plain {op : Op K} (h : OnObject op) : plainOp op = op := by
  cases op <;> first | rfl | exact h.elim

theorem onObject_plain' {op : Op K} (h : ¬ OnObject op) : ¬ OnObject (plainOp op) := by
  cases op <;> first | exact h | exact id

/-- What `initializeController` does not touch. -/
structure CtlKept (p : Nat) (l l' : LMPC K) : Prop where
  isInit : l'.isInit = l.isInit
  ps : l'.ps = some p
  sol : l'.sol = l.sol
  spCost : l'.spCost = l.spCost
  nrEq : l'.nrEqConstr = l.nrEqConstr
  nrIneq : l'.nrIneqConstr = l.nrIneqConstr
  spConstr : l'.spConstr = l.spConstr
  spEq : l'.spEqConstr = l.spEqConstr
  spIneq : l'.spIneqConstr = l.spIneqConstr
  spBound : l'.spBoundConstr = l.spBoundConstr
  solveTime : l'.solveTime = l.solveTime
  solveAndBuildTime : l'.solveAndBuildTime = l.solveAndBuildTime

theorem initializeController_keeps {dmax : K} {junk : Junk K} {p : Nat} {s : PreviewSystem K} {l l' : LMPC K}
    (h : l.initializeController dmax junk p s = some l') : CtlKept p l l' := by
  unfold LMPC.initializeController LMPC.clearConstraintMatrices LMPC.updateQPMatrixSize at h
  simp only [Option.bind_eq_bind, Option.bind_eq_some_iff, Option.pure_def, Option.some.injEq] at h
  obtain ⟨_, ⟨_, _, rfl⟩, _, _, rfl⟩ := h
  constructor <;> rfl

theorem initializeController_plain {l : LMPC K} (h : l.isInit = false) (dmax : K) (junk : Junk K) (p : Nat) (s : PreviewSystem K) :
    ∃ l', l.initializeController dmax junk p s = some l' ∧ l' = { l with
      ps := some p
      Aineq := Mat.zero 0 s.fullUDim
      Aeq := Mat.zero 0 s.fullUDim
      bineq := Vec.nil
      beq := Vec.nil
      lb := Vec.const s.fullUDim (.fin (-dmax))
      ub := Vec.const s.fullUDim (.fin dmax)
      Q := Mat.resize s.fullUDim s.fullUDim (junk.m 0)
      c := Vec.resize s.fullUDim (junk.v 0) } := by
  refine ⟨_, ?_, rfl⟩
  unfold LMPC.initializeController LMPC.clearConstraintMatrices LMPC.updateQPMatrixSize LMPC.optSize
  simp only [h, Bool.false_eq_true, if_false, Option.bind_eq_bind, Option.bind_some, Option.pure_def]

theorem PlainTwin.step {dmax : K} {w v w' : World K} {op : Op K} {ok : Prop} (T : PlainTwin w v) (ns : ¬ IsSolve op)
    (h : Out dmax w op ok w') : ∃ v', Out dmax v (plainOp op) ok v' ∧ PlainTwin w' v' := by
  by_cases hop : OnObject op
  · obtain ⟨a, b⟩ := out_object (u := v) hop ⟨T.pss, T.cons, T.costs⟩ h
    have e := out_ext (by cases op <;> first | trivial | exact hop.elim) h
    rw [onObject_plain hop]
    refine ⟨_, a, ?_⟩
    unfold withHeap
    constructor <;> first | rfl | skip
    all_goals simp only [b, e.1, e.2]
    · exact T.extCons
    · exact T.extCosts
    · exact T.plain
    · exact T.ps
    · exact T.sol
    · exact T.spCost
    · exact T.nrEq
    · exact T.nrIneq
    · exact T.spConstr
    · exact T.spEq
    · exact T.spIneq
    · exact T.spBound
    · exact T.solveTime
    · exact T.solveAndBuildTime
  obtain ⟨vp, vc, vk, vx, vy, vl⟩ := v
  obtain ⟨wp, wc, wk, wx, wy, wl⟩ := w
  obtain ⟨t1, t2, t3, t4, t5, t6, t7, t8, t9, t10, t11, t12, t13, t14, t15, t16, t17⟩ := T
  dsimp only at t1 t2 t3 t4 t5 t6 t7 t8 t9 t10 t11 t12 t13 t14 t15 t16 t17
  subst t1 t2 t3 t4 t5
  have nt : ∀ {o : Option (World K)} {e : Exn} {x : World K}, Res.ofOption o ≠ .thrown e x := Res.ofOption_ne_thrown
  cases op <;> (try exact (hop trivial).elim) <;> (try exact (ns trivial).elim)
  case refsConstr i n =>
    rcases h with ⟨ho, h⟩ | ⟨ho, e, h⟩ <;> cases h
    exact ⟨_, Or.inl ⟨ho, rfl⟩, ⟨rfl, rfl, rfl, rfl, rfl, t6, t7, t8, t9, t10, t11, t12, t13, t14, t15, t16, t17⟩⟩
  case refsCost i n =>
    rcases h with ⟨ho, h⟩ | ⟨ho, e, h⟩ <;> cases h
    exact ⟨_, Or.inl ⟨ho, rfl⟩, ⟨rfl, rfl, rfl, rfl, rfl, t6, t7, t8, t9, t10, t11, t12, t13, t14, t15, t16, t17⟩⟩
  case construct b s =>
    rcases h with ⟨ho, h⟩ | ⟨ho, e, h⟩ <;> cases h
    exact ⟨_, Or.inl ⟨ho, rfl⟩, by constructor <;> rfl⟩
  case constructPs b s p junk =>
    rcases h with ⟨ho, h⟩ | ⟨ho, e, h⟩ <;> simp only [World.step, Res.map_ok, Res.map_thrown, Res.ofOption_ok] at h
    · obtain ⟨l, hl, rfl⟩ := h
      have f := initializeController_keeps hl
      obtain ⟨l', hl', f'⟩ := initializeController_plain (l := LMPC.construct false s) rfl dmax junk p (vp p)
      refine ⟨⟨vp, vc, vk, vx, vy, l'⟩, Or.inl ⟨ho, ?_⟩, ?_⟩
      · have e : seedInit (LMPC.construct false s) (vp p) = LMPC.construct false s := rfl
        simp only [World.step, plainOp, e, hl']; rfl
      · have g := initializeController_keeps hl'
        have e : ∀ {α : Type} (F : LMPC K → α), (∀ l, F (seedInit l (vp p)) = F l) → True := fun _ _ => trivial
        refine ⟨rfl, rfl, rfl, rfl, rfl, g.isInit, g.ps.trans f.ps.symm, ?_, ?_, ?_, ?_, ?_, ?_, ?_, ?_, ?_, ?_⟩
        · exact g.sol.trans ((by unfold seedInit; split <;> rfl : _ = _).trans f.sol.symm)
        · exact g.spCost.trans ((by unfold seedInit; split <;> rfl : _ = _).trans f.spCost.symm)
        · exact g.nrEq.trans ((by unfold seedInit; split <;> rfl : _ = _).trans f.nrEq.symm)
        · exact g.nrIneq.trans ((by unfold seedInit; split <;> rfl : _ = _).trans f.nrIneq.symm)
        · exact g.spConstr.trans ((by unfold seedInit; split <;> rfl : _ = _).trans f.spConstr.symm)
        · exact g.spEq.trans ((by unfold seedInit; split <;> rfl : _ = _).trans f.spEq.symm)
        · exact g.spIneq.trans ((by unfold seedInit; split <;> rfl : _ = _).trans f.spIneq.symm)
        · exact g.spBound.trans ((by unfold seedInit; split <;> rfl : _ = _).trans f.spBound.symm)
        · exact g.solveTime.trans ((by unfold seedInit; split <;> rfl : _ = _).trans f.solveTime.symm)
        · exact g.solveAndBuildTime.trans ((by unfold seedInit; split <;> rfl : _ = _).trans f.solveAndBuildTime.symm)
    · obtain ⟨_, h, _⟩ := h
      exact absurd h Res.ofOption_ne_thrown
  case useSolver s =>
    rcases h with ⟨ho, h⟩ | ⟨ho, e, h⟩ <;> cases h
    exact ⟨_, Or.inl ⟨ho, rfl⟩, ⟨rfl, rfl, rfl, rfl, rfl, t6, t7, rfl, t9, t10, t11, t12, t13, t14, t15, t16, t17⟩⟩
  case initializeController p junk =>
    rcases h with ⟨ho, h⟩ | ⟨ho, e, h⟩ <;> simp only [World.step, Res.map_ok, Res.map_thrown, Res.ofOption_ok] at h
    · obtain ⟨l, hl, rfl⟩ := h
      have f := initializeController_keeps hl
      obtain ⟨l', hl', f'⟩ := initializeController_plain t6 dmax junk p (vp p)
      have g := initializeController_keeps hl'
      refine ⟨⟨vp, vc, vk, vx, vy, l'⟩, Or.inl ⟨ho, ?_⟩, ?_⟩
      · simp only [World.step, plainOp, hl']; rfl
      · exact ⟨rfl, rfl, rfl, rfl, rfl, g.isInit.trans t6, g.ps.trans f.ps.symm, g.sol.trans (t8.trans f.sol.symm),
          g.spCost.trans (t9.trans f.spCost.symm), g.nrEq.trans (t10.trans f.nrEq.symm), g.nrIneq.trans (t11.trans f.nrIneq.symm),
          g.spConstr.trans (t12.trans f.spConstr.symm), g.spEq.trans (t13.trans f.spEq.symm),
          g.spIneq.trans (t14.trans f.spIneq.symm), g.spBound.trans (t15.trans f.spBound.symm),
          g.solveTime.trans (t16.trans f.solveTime.symm), g.solveAndBuildTime.trans (t17.trans f.solveAndBuildTime.symm)⟩
    · obtain ⟨_, h, _⟩ := h
      exact absurd h Res.ofOption_ne_thrown
  case addCost i junk =>
    unfold Out at h ⊢
    simp only [World.step, plainOp, World.addCost, t7] at h ⊢
    cases hp : wl.ps with
    | none => rw [hp] at h; simp at h
    | some p =>
      rw [hp] at h
      dsimp only at h ⊢
      cases hi : (vk i).initializeCost junk (vp p) with
      | ok c =>
        rw [hi] at h; simp only [Res.ok.injEq, reduceCtorEq, exists_false, and_false, or_false] at h
        obtain ⟨ho, rfl⟩ := h
        exact ⟨_, Or.inl ⟨ho, rfl⟩, ⟨rfl, rfl, rfl, rfl, rfl, t6, (by first | rfl | exact hp.symm), t8, by rw [t9], t10, t11, t12, t13, t14, t15, t16, t17⟩⟩
      | thrown e c =>
        rw [hi] at h; simp only [Res.thrown.injEq, reduceCtorEq, and_false, false_or] at h
        obtain ⟨ho, e', rfl, rfl⟩ := h
        exact ⟨_, Or.inr ⟨ho, e, rfl⟩, ⟨rfl, rfl, rfl, rfl, rfl, t6, t7, t8, t9, t10, t11, t12, t13, t14, t15, t16, t17⟩⟩
      | ub => rw [hi] at h; simp at h
  case addConstraint i junk =>
    unfold Out at h ⊢
    simp only [World.step, plainOp, World.addConstraint, t7] at h ⊢
    cases hp : wl.ps with
    | none => rw [hp] at h; simp at h
    | some p =>
      rw [hp] at h
      dsimp only at h ⊢
      cases hi : (vc i).initializeConstraint junk (vp p) with
      | ok c =>
        rw [hi] at h
        dsimp only at h ⊢
        cases ha : wl.addConstraintByType i c with
        | none => rw [ha] at h; simp at h
        | some l =>
          rw [ha] at h; simp only [Res.ok.injEq, reduceCtorEq, exists_false, and_false, or_false] at h
          obtain ⟨ho, rfl⟩ := h
          unfold LMPC.addConstraintByType at ha ⊢
          cases ht : c.constraintType with
          | bound =>
            rw [ht] at ha
            dsimp only at ha ⊢
            cases ha
            exact ⟨_, Or.inl ⟨ho, rfl⟩, ⟨rfl, rfl, rfl, rfl, rfl, t6, t7, t8, t9, t10, t11, by rw [t12], t13, t14, by rw [t15], t16, t17⟩⟩
          | equality =>
            rw [ht] at ha
            simp only [Option.bind_eq_bind, Option.bind_eq_some_iff, Option.pure_def, Option.some.injEq] at ha
            obtain ⟨n, hn, rfl⟩ := ha
            rw [t10, hn]
            exact ⟨_, Or.inl ⟨ho, rfl⟩, ⟨rfl, rfl, rfl, rfl, rfl, t6, t7, t8, t9, rfl, t11, by rw [t12], by rw [t13], t14, t15, t16, t17⟩⟩
          | inequality =>
            rw [ht] at ha
            simp only [Option.bind_eq_bind, Option.bind_eq_some_iff, Option.pure_def, Option.some.injEq] at ha
            obtain ⟨n, hn, rfl⟩ := ha
            rw [t11, hn]
            exact ⟨_, Or.inl ⟨ho, rfl⟩, ⟨rfl, rfl, rfl, rfl, rfl, t6, t7, t8, t9, t10, rfl, by rw [t12], t13, by rw [t14], t15, t16, t17⟩⟩
      | thrown e c =>
        rw [hi] at h; simp only [Res.thrown.injEq, reduceCtorEq, and_false, false_or] at h
        obtain ⟨ho, e', rfl, rfl⟩ := h
        exact ⟨_, Or.inr ⟨ho, e, rfl⟩, ⟨rfl, rfl, rfl, rfl, rfl, t6, t7, t8, t9, t10, t11, t12, t13, t14, t15, t16, t17⟩⟩
      | ub => rw [hi] at h; simp at h
  case removeCost i =>
    rcases h with ⟨ho, h⟩ | ⟨ho, e, h⟩ <;> cases h
    exact ⟨_, Or.inl ⟨ho, rfl⟩, ⟨rfl, rfl, rfl, rfl, rfl, t6, t7, t8, congrArg (List.erase · i) t9, t10, t11, t12, t13, t14, t15, t16, t17⟩⟩
  case removeConstraint i =>
    rcases h with ⟨ho, h⟩ | ⟨ho, e, h⟩ <;> simp only [World.step, Res.map_ok, Res.map_thrown, Res.ofOption_ok] at h
    · obtain ⟨l, hl, rfl⟩ := h
      suffices ∃ l', vl.removeConstraint i (vc i) = some l' ∧ PlainTwin (⟨vp, vc, vk, vx, vy, l⟩ : World K) ⟨vp, vc, vk, vx, vy, l'⟩ by
        obtain ⟨l', a, b⟩ := this
        exact ⟨_, Or.inl ⟨ho, by simp only [World.step, plainOp, a]; rfl⟩, b⟩
      unfold LMPC.removeConstraint at hl ⊢
      rw [t12]
      split at hl
      · rename_i hm
        rw [if_pos hm]
        dsimp only at hl ⊢
        rw [t13, t14, t15]
        cases ht : (vc i).constraintType <;> rw [ht] at hl <;>
          simp only [Option.bind_eq_bind, Option.bind_eq_some_iff, Option.pure_def, Option.some.injEq] at hl <;>
          obtain ⟨n, hn, rfl⟩ := hl <;> rw [hn]
        · exact ⟨_, rfl, ⟨rfl, rfl, rfl, rfl, rfl, t6, t7, t8, t9, t10, t11, rfl, rfl, rfl, rfl, t16, t17⟩⟩
        · exact ⟨_, rfl, ⟨rfl, rfl, rfl, rfl, rfl, t6, t7, t8, t9, t10, t11, rfl, rfl, rfl, rfl, t16, t17⟩⟩
        · exact ⟨_, rfl, ⟨rfl, rfl, rfl, rfl, rfl, t6, t7, t8, t9, t10, t11, rfl, rfl, rfl, rfl, t16, t17⟩⟩
      · rename_i hm
        cases hl
        rw [if_neg hm]
        exact ⟨_, rfl, ⟨rfl, rfl, rfl, rfl, rfl, t6, t7, t8, t9, t10, t11, t12, t13, t14, t15, t16, t17⟩⟩
    · obtain ⟨_, h, _⟩ := h
      exact absurd h Res.ofOption_ne_thrown
  case clearCosts =>
    rcases h with ⟨ho, h⟩ | ⟨ho, e, h⟩ <;> cases h
    exact ⟨_, Or.inl ⟨ho, rfl⟩, ⟨rfl, rfl, rfl, rfl, rfl, t6, t7, t8, rfl, t10, t11, t12, t13, t14, t15, t16, t17⟩⟩
  case clearConstraints =>
    rcases h with ⟨ho, h⟩ | ⟨ho, e, h⟩ <;> simp only [World.step, Res.ofOption_ok] at h
    · unfold World.clearConstraints LMPC.clearConstraintMatrices at h
      simp only [Option.bind_eq_bind, Option.bind_eq_some_iff, Option.pure_def, Option.some.injEq] at h
      obtain ⟨p, hp, l, ⟨n, hn, rfl⟩, rfl⟩ := h
      refine ⟨⟨vp, vc, vk, vx, vy, { vl.clearRegistry with
          Aineq := Mat.zero 0 (vp p).fullUDim, Aeq := Mat.zero 0 (vp p).fullUDim, bineq := Vec.nil, beq := Vec.nil
          lb := Vec.const (vp p).fullUDim (.fin (-dmax)), ub := Vec.const (vp p).fullUDim (.fin dmax) }⟩, Or.inl ⟨ho, ?_⟩, ?_⟩
      · simp only [World.step, plainOp, World.clearConstraints, LMPC.clearConstraintMatrices, LMPC.optSize, LMPC.clearRegistry, t6, t7,
          hp, Option.bind_eq_bind, Option.bind_some, Bool.false_eq_true, if_false, Option.pure_def]
        rfl
      · exact ⟨rfl, rfl, rfl, rfl, rfl, t6, t7, t8, t9, rfl, rfl, rfl, rfl, rfl, rfl, t16, t17⟩
    · exact absurd h Res.ofOption_ne_thrown
  case resetInitialStateCost R r =>
    rcases h with ⟨ho, h⟩ | ⟨ho, e, h⟩ <;> cases h
    exact ⟨_, Or.inl ⟨ho, rfl⟩, ⟨rfl, rfl, rfl, rfl, rfl, t6, t7, t8, t9, t10, t11, t12, t13, t14, t15, t16, t17⟩⟩
  case resetInitialStateBounds lo up =>
    rcases h with ⟨ho, h⟩ | ⟨ho, e, h⟩ <;> cases h
    exact ⟨_, Or.inl ⟨ho, rfl⟩, ⟨rfl, rfl, rfl, rfl, rfl, t6, t7, t8, t9, t10, t11, t12, t13, t14, t15, t16, t17⟩⟩

/-- A solve of the `InitialStateLMPC` and a (failing) solve of the `LMPC`. -/
theorem PlainTwin.solve {d : Dims} {dmax : K} {E : World K → Op K → Prop} {g : Ghost} {w v w' : World K} {env : SolveEnv K} {b : Bool} {q : QP K}
    (T : PlainTwin w v) (hv : Hist d dmax E v g) (ho : OpOk d w g (.solve env)) (h : w.solve env = some (w', b, q)) :
    ∃ env' v', OpOk d v g (.solve env') ∧ v.step dmax (.solve env') = .ok v' ∧ PlainTwin w' v' := by
  have ho' : OpOk d v g (.solve { env with answer := fun _ => (false, (env.answer q).2) }) :=
    ⟨(by rw [T.ps]; exact ho.1), ⟨(by rw [T.sol]; exact ho.2.sol), fun _ _ h => (by cases h),
      fun h => (by rw [T.plain] at h; cases h)⟩⟩
  obtain ⟨v', b', q', hs, hst, _, _⟩ := c50_solve_defined hv ho'
  refine ⟨_, v', ho', hst, ?_⟩
  obtain ⟨p, s, e1, e2, e3, e4, e5, e6, e7⟩ := solve_withHeap h
  obtain ⟨p', s', f1, f2, f3, f4, f5, f6, f7⟩ := solve_withHeap hs
  rw [T.ps, e1] at f1
  cases f1
  rw [T.pss, e2] at f2
  cases f2
  rw [T.spConstr, T.cons, e4] at f4
  rw [T.spCost, T.costs, e5] at f5
  obtain ⟨F, r1, r2, r3, r4, r5⟩ := solve_frame h
  obtain ⟨F', r1', r2', r3', r4', r5'⟩ := solve_frame hs
  obtain ⟨⟨σ, s1, s2⟩, s3, s4, s5, s6⟩ := solve_ctl h
  obtain ⟨⟨σ', s1', s2'⟩, s3', s4', s5', s6'⟩ := solve_ctl hs
  rw [T.sol, s1] at s1'
  cases s1'
  rw [T.cons, T.spEq, s5] at s5'
  rw [T.cons, T.spIneq, s6] at s6'
  have cd : (v.ctl.checkDelete v.extCons v.extCosts).spConstr = (w.ctl.checkDelete w.extCons w.extCosts).spConstr ∧
      (v.ctl.checkDelete v.extCons v.extCosts).spEqConstr = (w.ctl.checkDelete w.extCons w.extCosts).spEqConstr ∧
      (v.ctl.checkDelete v.extCons v.extCosts).spIneqConstr = (w.ctl.checkDelete w.extCons w.extCosts).spIneqConstr ∧
      (v.ctl.checkDelete v.extCons v.extCosts).spBoundConstr = (w.ctl.checkDelete w.extCons w.extCosts).spBoundConstr ∧
      (v.ctl.checkDelete v.extCons v.extCosts).spCost = (w.ctl.checkDelete w.extCons w.extCosts).spCost := by
    simp only [LMPC.checkDelete, T.spConstr, T.spEq, T.spIneq, T.spBound, T.spCost, T.extCons, T.extCosts, and_self]
  obtain ⟨c1, c2, c3, c4, c5⟩ := cd
  exact ⟨f3.trans ((by rw [T.pss] : _ = _).trans e3.symm), (Option.some.inj f4).symm, (Option.some.inj f5).symm,
    f6.trans (T.extCons.trans e6.symm), f7.trans (T.extCosts.trans e7.symm),
    F'.isInit.trans T.plain, F'.ps.trans (T.ps.trans F.ps.symm), s2'.trans s2.symm, r5'.trans (c5.trans r5.symm),
    (Option.some.inj s5').symm, (Option.some.inj s6').symm, r1'.trans (c1.trans r1.symm), r2'.trans (c2.trans r2.symm),
    r3'.trans (c3.trans r3.symm), r4'.trans (c4.trans r4.symm), s3'.trans s3.symm, s4'.trans s4.symm⟩

/-- Every program with a controller of either class has a twin whose controller is an `LMPC`. -/
theorem plainTwin_exists {d : Dims} {dmax : K} {E : World K → Op K → Prop} (hE : OnlyObjects E) {w : World K} {g : Ghost}
    (h : Hist d dmax E w g) : ∃ v, Hist d dmax E v g ∧ PlainTwin w v := by
  have key : ∀ {w w' v : World K} {g : Ghost} {op : Op K} {ok : Prop}, Hist d dmax E v g → PlainTwin w v → OpOk d w g op →
      E w op → Out dmax w op ok w' → ∃ v', Hist d dmax E v' (g.next w ok op) ∧ PlainTwin w' v' := by
    intro w w' v g op ok hv T ho he hs
    by_cases ns : IsSolve op
    · obtain ⟨env, rfl⟩ : ∃ env, op = .solve env := by cases op <;> first | exact ns.elim | exact ⟨_, rfl⟩
      obtain ⟨hok, b, q, hq⟩ := solve_out hs
      obtain ⟨env', v', o, st, T'⟩ := T.solve hv ho hq
      refine ⟨v', ?_, T'⟩
      have e : g.next w ok (.solve env) = g.next v True (.solve env') := by
        simp only [Ghost.next, T.spCost, T.spBound]
      rw [e]
      exact .ok hv o (hE.others _ _ id) st
    · obtain ⟨v', o, T'⟩ := T.step ns hs
      refine ⟨v', ?_, T'⟩
      rw [T.next]
      refine MWorld.hist_closed v g _ ok v' hv ⟨T.opOk ns ho, ?_⟩ o
      by_cases ob : OnObject op
      · rw [onObject_plain ob]
        exact hE.shared w v op ob T.pss T.cons T.costs he
      · exact hE.others _ _ (onObject_plain' ob)
  induction h with
  | @start w h =>
    obtain ⟨h1, h2, h3, b, s, h4⟩ := h
    refine ⟨{ w with ctl := LMPC.construct false s }, .start ⟨h1, h2, h3, false, s, rfl⟩, ?_⟩
    constructor <;> first | rfl | (rw [h4]; rfl)
  | ok h ho he hs ih => obtain ⟨v, hv, T⟩ := ih; exact key hv T ho he (Or.inl ⟨trivial, hs⟩)
  | thrown h ho he hs ih => obtain ⟨v, hv, T⟩ := ih; exact key hv T ho he (Or.inr ⟨id, _, hs⟩)

/-! ## After `initializeController` -/

/-- `l` with the results and initial-state data of `x`. -/
def _root_.Copra.LMPC.graft (x l : LMPC K) : LMPC K :=
  { l with control := x.control, trajectory := x.trajectory, R := x.R, r := x.r, x0lb := x.x0lb, x0ub := x.x0ub }

def graft (x : LMPC K) (w : World K) : World K := { w with ctl := x.graft w.ctl }

theorem graft_initialize (x l : LMPC K) (dmax : K) (junk : Junk K) (p : Nat) (s : PreviewSystem K) :
    (x.graft l).initializeController dmax junk p s = (l.initializeController dmax junk p s).map x.graft := by
  unfold LMPC.initializeController LMPC.clearConstraintMatrices LMPC.updateQPMatrixSize LMPC.optSize LMPC.graft
  obtain ⟨isInit, _⟩ := l
  cases isInit <;> dsimp only
  · rfl
  · simp only [if_true]
    cases chkInt (s.xDim + s.fullUDim) <;> rfl

theorem graft_addByType (x l : LMPC K) (i : Nat) (c : Constr K) :
    (x.graft l).addConstraintByType i c = (l.addConstraintByType i c).map x.graft := by
  unfold LMPC.addConstraintByType LMPC.graft
  cases c.constraintType <;> dsimp only
  · cases chkInt (l.nrEqConstr + c.nrConstr) <;> rfl
  · cases chkInt (l.nrIneqConstr + c.nrConstr) <;> rfl
  · rfl

theorem graft_remove (x l : LMPC K) (i : Nat) (c : Constr K) :
    (x.graft l).removeConstraint i c = (l.removeConstraint i c).map x.graft := by
  unfold LMPC.removeConstraint
  change (if i ∈ l.spConstr then _ else _) = _
  split
  · cases c.constraintType <;> dsimp only [LMPC.graft]
    · cases LMPC.eraseFind? l.spEqConstr i <;> rfl
    · cases LMPC.eraseFind? l.spIneqConstr i <;> rfl
    · cases LMPC.eraseFind? l.spBoundConstr i <;> rfl
  · rfl

theorem ofOption_map {α β : Type} (o : Option α) (f : α → β) : Res.ofOption (o.map f) = (Res.ofOption o).map f := by
  cases o <;> rfl

/-- The calls that do not look at the results or the initial-state data. -/
theorem graft_step (x : LMPC K) (dmax : K) (w : World K) (op : Op K) (h1 : ¬ IsSolve op) (h2 : ¬ IsConstruct op) :
    ∃ x', (w.graft x).step dmax op = (w.step dmax op).map (graft x') := by
  cases op <;> (try exact (h1 trivial).elim) <;> (try exact (h2 trivial).elim)
  case resetInitialStateCost R r => exact ⟨{ x with R := R, r := r }, rfl⟩
  case resetInitialStateBounds lo up => exact ⟨{ x with x0lb := lo, x0ub := up }, rfl⟩
  case initializeController p junk =>
    refine ⟨x, ?_⟩
    simp only [World.step]
    change (Res.ofOption ((x.graft w.ctl).initializeController dmax junk p (w.pss p))).map _ = _
    rw [graft_initialize, ofOption_map, Res.map_map, Res.map_map]
    rfl
  case removeConstraint i =>
    refine ⟨x, ?_⟩
    simp only [World.step]
    change (Res.ofOption ((x.graft w.ctl).removeConstraint i (w.cons i))).map _ = _
    rw [graft_remove, ofOption_map, Res.map_map, Res.map_map]
    rfl
  case addCost i junk =>
    refine ⟨x, ?_⟩
    obtain ⟨wp, wc, wk, wx, wy, ⟨isI, ops, _⟩⟩ := w
    simp only [World.step, World.addCost, graft, LMPC.graft]
    cases ops with
    | none => rfl
    | some p => dsimp only; cases (wk i).initializeCost junk (wp p) <;> rfl
  case addConstraint i junk =>
    refine ⟨x, ?_⟩
    simp only [World.step, World.addConstraint]
    change (match w.ctl.ps with | none => _ | some p => _) = _
    cases w.ctl.ps with
    | none => rfl
    | some p =>
      dsimp only
      change (match (w.cons i).initializeConstraint junk (w.pss p) with | .ok c => _ | .thrown e c => _ | .ub => _) = _
      cases (w.cons i).initializeConstraint junk (w.pss p) with
      | ok c =>
        dsimp only
        change (match (x.graft w.ctl).addConstraintByType i c with | some l => _ | none => _) = _
        rw [graft_addByType]
        cases w.ctl.addConstraintByType i c <;> rfl
      | thrown e c => rfl
      | ub => rfl
  case clearConstraints =>
    refine ⟨x, ?_⟩
    simp only [World.step, World.clearConstraints]
    change Res.ofOption (w.ctl.ps.bind _) = _
    cases w.ctl.ps with
    | none => rfl
    | some p =>
      simp only [Option.bind_eq_bind, Option.bind_some, Option.pure_def]
      unfold LMPC.clearConstraintMatrices LMPC.optSize
      simp only [Option.bind_eq_bind, Option.pure_def]
      change Res.ofOption ((if w.ctl.isInit then chkInt ((w.pss p).xDim + (w.pss p).fullUDim) else some (w.pss p).fullUDim).bind _ |>.bind _) =
        Res.map _ (Res.ofOption ((if w.ctl.isInit then chkInt ((w.pss p).xDim + (w.pss p).fullUDim) else some (w.pss p).fullUDim).bind _ |>.bind _))
      cases (if w.ctl.isInit then chkInt ((w.pss p).xDim + (w.pss p).fullUDim) else some (w.pss p).fullUDim) <;> rfl
  all_goals
    refine ⟨x, ?_⟩
    simp only [World.step, graft]
    first
    | rfl
    | (rw [Res.map_map]; rfl)

theorem graft_updateNr (x l : LMPC K) (cons : Nat → Constr K) :
    (x.graft l).updateNr cons = (l.updateNr cons).map x.graft := by
  unfold LMPC.updateNr
  simp only [Option.bind_eq_bind, Option.pure_def]
  change (LMPC.countConstr cons l.spEqConstr).bind _ = _
  cases LMPC.countConstr cons l.spEqConstr with
  | none => rfl
  | some a =>
    simp only [Option.bind_some]
    change (LMPC.countConstr cons l.spIneqConstr).bind _ = _
    cases LMPC.countConstr cons l.spIneqConstr <;> rfl

theorem graft_updateSize (x l : LMPC K) (junk : Junk K) (s : PreviewSystem K) :
    (x.graft l).updateConstraintMatrixSize junk s = (l.updateConstraintMatrixSize junk s).map x.graft := by
  unfold LMPC.updateConstraintMatrixSize
  simp only [Option.bind_eq_bind, Option.pure_def]
  change (l.optSize s).bind _ = _
  cases l.optSize s <;> rfl

theorem graft_updateSystem (x : LMPC K) (junk : Junk K) (w : World K) :
    (w.graft x).updateSystem junk = (w.updateSystem junk).map (graft x) := by
  obtain ⟨wp, wc, wk, wx, wy, wl⟩ := w
  rw [updateSystem_eq, updateSystem_eq]
  unfold graft
  dsimp only
  have e1 : ({ x.graft wl with Q := (Mat.identity (x.graft wl).Q.rows (x.graft wl).Q.cols).scale (1 / 1000000), c := Vec.zero (x.graft wl).c.rows } : LMPC K) =
      x.graft { wl with Q := (Mat.identity wl.Q.rows wl.Q.cols).scale (1 / 1000000), c := Vec.zero wl.c.rows } := rfl
  rw [e1]
  generalize ({ wl with Q := (Mat.identity wl.Q.rows wl.Q.cols).scale (1 / 1000000), c := Vec.zero wl.c.rows } : LMPC K) = L
  change wl.ps.bind _ = _
  cases wl.ps with
  | none => rfl
  | some p =>
    rw [Option.bind_some, Option.bind_some]
    cases (if (wp p).isUpdated then some (wp p) else (wp p).updateSystem) with
    | none => rfl
    | some s =>
      rw [Option.bind_some, Option.bind_some]
      rw [graft_updateNr]
      generalize LMPC.updateNr wc L = o
      cases o with
      | none => rfl
      | some l =>
        rw [Option.map_some, Option.bind_some, Option.bind_some, graft_updateSize]
        cases l.updateConstraintMatrixSize junk s with
        | none => rfl
        | some l =>
          rw [Option.map_some, Option.bind_some, Option.bind_some]
          change (l.spConstr.foldlM (updateConstr s) wc).bind _ = _
          cases l.spConstr.foldlM (updateConstr s) wc with
          | none => rfl
          | some c =>
            rw [Option.bind_some, Option.bind_some]
            change (l.spCost.foldlM (updateCost s) wk).bind _ = _
            cases l.spCost.foldlM (updateCost s) wk <;> rfl

theorem graft_costTerms (x : LMPC K) (costs : Nat → Cost K) : ∀ (L : List Nat) (l : LMPC K),
    L.foldlM (LMPC.addCostTerms costs) (x.graft l) = (L.foldlM (LMPC.addCostTerms costs) l).map x.graft
  | [], l => rfl
  | i :: L, l => by
    rw [List.foldlM_cons, List.foldlM_cons]
    have e : LMPC.addCostTerms costs (x.graft l) i = (LMPC.addCostTerms costs l i).map x.graft := by
      unfold LMPC.addCostTerms
      simp only [Option.bind_eq_bind, Option.pure_def]
      change (l.Q.add? (costs i).Q).bind _ = _
      cases l.Q.add? (costs i).Q with
      | none => rfl
      | some Q =>
        simp only [Option.bind_some]
        change (l.c.add? (costs i).c).bind _ = _
        cases l.c.add? (costs i).c <;> rfl
    rw [e]
    cases LMPC.addCostTerms costs l i with
    | none => rfl
    | some l => exact graft_costTerms x costs L l

theorem graft_makeQPForm (x l : LMPC K) (hi : l.isInit = false) (inv : Mat K → Mat K) (cons : Nat → Constr K) (costs : Nat → Cost K)
    (s : PreviewSystem K) : (x.graft l).makeQPForm inv cons costs s = (l.makeQPForm inv cons costs s).map x.graft := by
  have hi' : (x.graft l).isInit = false := hi
  unfold LMPC.makeQPForm
  rw [if_neg (by rw [hi']; exact Bool.false_ne_true), if_neg (by rw [hi]; exact Bool.false_ne_true)]
  unfold LMPC.makeQPFormBase
  simp only [Option.bind_eq_bind, Option.pure_def]
  rw [show (x.graft l).spCost = l.spCost from rfl, graft_costTerms]
  cases l.spCost.foldlM (LMPC.addCostTerms costs) l with
  | none => rfl
  | some l =>
    simp only [Option.map_some, Option.bind_some]
    change (l.spEqConstr.foldlM (LMPC.putRows cons s) (0, l.Aeq, l.beq)).bind _ = _
    cases l.spEqConstr.foldlM (LMPC.putRows cons s) (0, l.Aeq, l.beq) with
    | none => rfl
    | some a =>
      simp only [Option.bind_some]
      change (l.spIneqConstr.foldlM (LMPC.putRows cons s) (0, l.Aineq, l.bineq)).bind _ = _
      cases l.spIneqConstr.foldlM (LMPC.putRows cons s) (0, l.Aineq, l.bineq) with
      | none => rfl
      | some b =>
        simp only [Option.bind_some]
        change (l.spBoundConstr.foldlM (LMPC.putBounds cons) (0, l.lb, l.ub)).bind _ = _
        cases l.spBoundConstr.foldlM (LMPC.putBounds cons) (0, l.lb, l.ub) <;> rfl

theorem graft_updateResults (x l l' : LMPC K) (hi : l.isInit = false) (s : PreviewSystem K) (h : l.updateResults s = some l') :
    (x.graft l).updateResults s = some (({ x with control := l'.control, trajectory := l'.trajectory } : LMPC K).graft l') := by
  obtain ⟨isI, ops, σ, _⟩ := l
  dsimp only at hi
  subst hi
  unfold LMPC.updateResults at h ⊢
  unfold LMPC.graft
  simp only [Bool.false_eq_true, if_false] at h ⊢
  cases σ with
  | none => cases h
  | some σ =>
    simp only [Option.bind_eq_bind, Option.bind_some, Option.bind_eq_some_iff, Option.pure_def, Option.some.injEq] at h
    obtain ⟨t, ht, rfl⟩ := h
    simp only [Option.bind_eq_bind, Option.bind_some, ht, Option.pure_def]

theorem solve_intro {env : SolveEnv K} {w w1 : World K} {p : Nat} {l l' : LMPC K} {σ : Solver K}
    (h1 : w.updateSystem env.junk = some w1) (hp : w1.ctl.ps = some p)
    (hl : w1.ctl.makeQPForm env.inverse w1.cons w1.costs (w1.pss p) = some l) (hs : l.sol = some σ)
    (hl' : (if (env.answer l.qp).1 then LMPC.updateResults (w1.pss p)
          (LMPC.checkDelete w1.extCons w1.extCosts
            { l with sol := some { σ with result := (env.answer l.qp).2 }, solveTime := some (env.t2 - env.t1) })
        else some (LMPC.checkDelete w1.extCons w1.extCosts
            { l with sol := some { σ with result := (env.answer l.qp).2 }, solveTime := some (env.t2 - env.t1) }))
        = some l') :
    w.solve env = some ({ w1 with ctl := { l' with solveAndBuildTime := some (env.t3 - env.t0) } }, (env.answer l.qp).1, l.qp) := by
  unfold solve
  rw [h1]
  simp only [Option.bind_eq_bind, Option.bind_some, Option.pure_def]
  rw [hp]
  simp only [Option.bind_some]
  rw [hl]
  simp only [Option.bind_some]
  rw [hs]
  simp only [Option.bind_some]
  split at hl'
  · rename_i hb
    rw [if_pos hb, hl']
    rfl
  · rename_i hb
    rw [if_neg hb]
    cases hl'
    rfl

/-- The results and the initial-state data do not influence what `solve()` of an `LMPC` does. -/
theorem graft_solve (x : LMPC K) {env : SolveEnv K} {w w' : World K} {b : Bool} {q : QP K} (hi : w.ctl.isInit = false)
    (h : w.solve env = some (w', b, q)) :
    ∃ x', (w.graft x).solve env = some (w'.graft x', b, q) ∧
      (b = true → x'.control = w'.ctl.control ∧ x'.trajectory = w'.ctl.trajectory) := by
  obtain ⟨w1, p, l, σ, l', h1, hp, hl, hs, rfl, rfl, hl', rfl⟩ := solve_inv h
  have f : w1.ctl.isInit = w.ctl.isInit := by
    obtain ⟨_, _, _, _, _, _, _, _, _, _, _, _, rfl, f⟩ := updateSystem_inv h1
    exact f.isInit
  have hi1 := f.trans hi
  have f2 := (LMPC.makeQPForm_fixed hl).isInit.trans hi1
  have h1' : (w.graft x).updateSystem env.junk = some (w1.graft x) := by rw [graft_updateSystem, h1]; rfl
  have hl1 : (w1.graft x).ctl.makeQPForm env.inverse (w1.graft x).cons (w1.graft x).costs ((w1.graft x).pss p) = some (x.graft l) := by
    change (x.graft w1.ctl).makeQPForm env.inverse w1.cons w1.costs (w1.pss p) = _
    rw [graft_makeQPForm _ _ hi1, hl]; rfl
  split at hl'
  · rename_i hb
    have e := graft_updateResults x _ _ (by exact f2) _ hl'
    have k := solve_intro (l' := ({ x with control := l'.control, trajectory := l'.trajectory } : LMPC K).graft l') h1' hp hl1 (σ := σ) hs
      (by rw [if_pos (by exact hb)]; exact e)
    exact ⟨{ x with control := l'.control, trajectory := l'.trajectory }, k, fun _ => ⟨rfl, rfl⟩⟩
  · rename_i hb
    cases hl'
    have k := solve_intro (l' := x.graft (LMPC.checkDelete w1.extCons w1.extCosts
        { l with sol := some { σ with result := (env.answer l.qp).2 }, solveTime := some (env.t2 - env.t1) })) h1' hp hl1 (σ := σ) hs
      (by rw [if_neg (by exact hb)]; rfl)
    exact ⟨x, k, fun h => absurd h hb⟩

theorem out_det {dmax : K} {w w' w'' : World K} {op : Op K} {ok : Prop} (h : Out dmax w op ok w') (h' : Out dmax w op ok w'') :
    w' = w'' := by
  rcases h with ⟨o, h⟩ | ⟨o, e, h⟩ <;> rcases h' with ⟨o', h'⟩ | ⟨o', e', h'⟩ <;> (try contradiction) <;> rw [h] at h' <;> injection h'

/-- The controller stays an `LMPC`. -/
theorem out_plain {dmax : K} {w w' : World K} {op : Op K} {ok : Prop} (hi : w.ctl.isInit = false) (ns : ¬ IsSolve op)
    (hc : ¬ IsConstruct op) (h : Out dmax w op ok w') : w'.ctl.isInit = false := by
  have po : plainOp op = op := by cases op <;> first | rfl | exact (hc trivial).elim
  have T : PlainTwin w w := by constructor <;> first | rfl | exact hi
  obtain ⟨v', o, T'⟩ := T.step ns h
  rw [po] at o
  rw [out_det h o]
  exact T'.plain

theorem graft_out (x : LMPC K) {dmax : K} {w w' : World K} {op : Op K} {ok : Prop} (ns : ¬ IsSolve op)
    (hc : ¬ IsConstruct op) (h : Out dmax w op ok w') : ∃ x', Out dmax (w.graft x) op ok (w'.graft x') := by
  obtain ⟨x', e⟩ := graft_step x dmax w op ns hc
  refine ⟨x', ?_⟩
  rcases h with ⟨o, h⟩ | ⟨o, k, h⟩ <;> rw [h] at e
  · exact Or.inl ⟨o, e⟩
  · exact Or.inr ⟨o, k, e⟩

/-- A sliced controller that was initialised since: the program equals one with an ordinary `LMPC`, except for the results of
the last successful solve and the members that an `LMPC` does not have. -/
theorem sliced_plain {d : Dims} {dmax : K} {E : World K → Op K → Prop} (hE : OnlyObjects E) {r : Prop} {w : World K} {g : Ghost}
    (h : SlicedHist d dmax E r w g) : w.ctl.isInit = false ∧
      ∃ v, Hist d dmax E v g ∧ v.ctl.isInit = false ∧ PlainTwin w v ∧ (r → ∃ x, v = w.graft x) := by
  have key : ∀ {r : Prop} {w w' v : World K} {g : Ghost} {op : Op K} {ok : Prop}, w.ctl.isInit = false → Hist d dmax E v g →
      v.ctl.isInit = false → PlainTwin w v → (r → ∃ x, v = w.graft x) → OpOk d w g op → E w op → ¬ IsConstruct op →
      (IsSolve op → r) → Out dmax w op ok w' → w'.ctl.isInit = false ∧
      ∃ v', Hist d dmax E v' (g.next w ok op) ∧ v'.ctl.isInit = false ∧ PlainTwin w' v' ∧
        (r ∨ IsInitialize op → ∃ x, v' = w'.graft x) := by
    intro r w w' v g op ok hw hv hvi T hr ho he hc hsol hs
    by_cases ns : IsSolve op
    · obtain ⟨env, rfl⟩ : ∃ env, op = .solve env := by cases op <;> first | exact ns.elim | exact ⟨_, rfl⟩
      obtain ⟨hok, b, q, hq⟩ := solve_out hs
      obtain ⟨x, rfl⟩ := hr (hsol trivial)
      obtain ⟨x', hx, _⟩ := graft_solve x hw hq
      have hi := (solve_frame hq).1.isInit.trans hw
      have o : OpOk d (w.graft x) g (.solve env) := ⟨ho.1, ⟨ho.2.sol, ho.2.answer, fun h => (by rw [hvi] at h; cases h)⟩⟩
      refine ⟨hi, w'.graft x', ?_, hi, ?_, fun _ => ⟨x', rfl⟩⟩
      · rw [eq_true hok]
        have := Hist.ok (op := .solve env) (w' := w'.graft x') hv o (hE.others _ _ id) (by simp only [World.step, hx]; rfl)
        exact this
      · constructor <;> first | rfl | exact hi
    · have po : plainOp op = op := by cases op <;> first | rfl | exact (hc trivial).elim
      obtain ⟨v', o, T'⟩ := T.step ns hs
      rw [po] at o
      have hw' : w'.ctl.isInit = false := out_plain hw ns hc hs
      refine ⟨hw', v', ?_, T'.plain, T', ?_⟩
      · rw [T.next, po]
        refine MWorld.hist_closed v g _ ok v' hv ⟨by have := T.opOk ns ho; rwa [po] at this, ?_⟩ o
        by_cases ob : OnObject op
        · exact hE.shared w v op ob T.pss T.cons T.costs he
        · exact hE.others _ _ ob
      · intro hri
        by_cases hin : IsInitialize op
        · obtain ⟨p, junk, rfl⟩ : ∃ p junk, op = .initializeController p junk := by
            cases op <;> first | exact hin.elim | exact ⟨_, _, rfl⟩
          obtain ⟨l1, a1, b1⟩ := initializeController_plain hw dmax junk p (w.pss p)
          obtain ⟨l2, a2, b2⟩ := initializeController_plain hvi dmax junk p (v.pss p)
          have o1 : w' = { w with ctl := l1 } ∧ ok := by
            rcases hs with ⟨k, h⟩ | ⟨k, e, h⟩ <;> simp only [World.step, a1] at h
            · exact ⟨(Res.ok.inj h).symm, k⟩
            · cases h
          have o2 : v' = { v with ctl := l2 } := by
            rcases o with ⟨k, h⟩ | ⟨k, e, h⟩ <;> simp only [World.step, a2] at h
            · exact (Res.ok.inj h).symm
            · cases h
          obtain ⟨o1, _⟩ := o1
          refine ⟨l2, ?_⟩
          subst o1 o2 b1 b2
          clear a1 a2 o hs hv hr ho he hsol T' hw'
          obtain ⟨vp, vc, vk, vx, vy, ⟨v1, v2, v3, v4, v5, v6, v7, v8, v9, v10, v11, v12, v13, v14, v15, v16, v17, v18, v19, v20, v21, v22, v23, v24, v25, v26⟩⟩ := v
          obtain ⟨wp, wc, wk, wx, wy, ⟨w1, w2, w3, w4, w5, w6, w7, w8, w9, w10, w11, w12, w13, w14, w15, w16, w17, w18, w19, w20, w21, w22, w23, w24, w25, w26⟩⟩ := w
          obtain ⟨t1, t2, t3, t4, t5, t6, t7, t8, t9, t10, t11, t12, t13, t14, t15, t16, t17⟩ := T
          dsimp only at t1 t2 t3 t4 t5 t6 t7 t8 t9 t10 t11 t12 t13 t14 t15 t16 t17 hw hvi
          subst t1 t2 t3 t4 t5 t7 t8 t9 t10 t11 t12 t13 t14 t15 t16 t17 hw hvi
          rfl
        · obtain ⟨x, rfl⟩ := hr (hri.resolve_right hin)
          obtain ⟨x', h'⟩ := graft_out x ns hc hs
          exact ⟨x', out_det o h'⟩
  induction h with
  | @moved w g h hi =>
    obtain ⟨v, hv, T⟩ := plainTwin_exists hE h
    exact ⟨rfl, v, hv, T.plain, T.slice, fun h => h.elim⟩
  | ok _ ho he hc hsol hs ih =>
    obtain ⟨a, v, b, c, T, e⟩ := ih
    exact key a b c T e ho he hc hsol (Or.inl ⟨trivial, hs⟩)
  | thrown _ ho he hc hsol hs ih =>
    obtain ⟨a, v, b, c, T, e⟩ := ih
    exact key a b c T e ho he hc hsol (Or.inr ⟨id, _, hs⟩)

end World
end
end Copra
