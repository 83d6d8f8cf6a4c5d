import Verif.Proofs.MakeQP
import Verif.SpecHist

/-! # One `solve` of a prepared controller -/

namespace Copra
open Spec

set_option linter.unusedSectionVars false
set_option linter.unusedSimpArgs false

variable {K : Type} [Field K] [LinearOrder K] [IsStrictOrderedRing K]

namespace World

/-- A controller whose registered objects were accepted for dimensions `d`; nothing is known about the contents of the
prediction matrices. -/
structure CanRaw (d : Dims) (p : Nat) (w : World K) : Prop where
  ps : w.ctl.ps = some p
  sys : SysRaw d (w.pss p)
  x0 : (w.pss p).x0.rows = d.n
  cons : ∀ i ∈ w.ctl.spConstr, Constr.Reg d (w.cons i)
  costs : ∀ i ∈ w.ctl.spCost, Cost.Pre d (w.costs i)
  part : LMPC.Partition w.cons w.ctl
  one : w.ctl.spBoundConstr.length ≤ 1
  eqLe : total (fun i => (w.cons i).nrConstr) w.ctl.spEqConstr ≤ intMax
  ineqLe : total (fun i => (w.cons i).nrConstr) w.ctl.spIneqConstr ≤ intMax
  wle : w.ctl.isInit = true → d.n + d.m * d.N ≤ intMax
  Qr : w.ctl.Q.rows = numVars d w.ctl
  Qc : w.ctl.Q.cols = numVars d w.ctl
  cr : w.ctl.c.rows = numVars d w.ctl
  lbr : w.ctl.lb.rows = numVars d w.ctl
  ubr : w.ctl.ub.rows = numVars d w.ctl

/-- The same, when up-to-date prediction matrices are those of the dynamics. -/
structure CanUpdate (d : Dims) (p : Nat) (w : World K) : Prop extends CanRaw d p w where
  pred : (w.pss p).isUpdated = true → SysPred d (w.pss p)

/-- The heap after `updateSystem`, whatever the prediction matrices contained. -/
structure HeapRaw (d : Dims) (p : Nat) (w w' : World K) : Prop where
  others : ∀ j, j ≠ p → w'.pss j = w.pss j
  sys : SysRaw d (w'.pss p)
  pred : (w.pss p).isUpdated = false → SysPred d (w'.pss p)
  keep : (w.pss p).isUpdated = true → w'.pss p = w.pss p
  upd : (w'.pss p).isUpdated = true
  A : (w'.pss p).A = (w.pss p).A
  B : (w'.pss p).B = (w.pss p).B
  bias : (w'.pss p).d = (w.pss p).d
  x0 : (w'.pss p).x0 = (w.pss p).x0
  cons : ∀ i, (i ∈ w.ctl.spConstr → Constr.Reg d (w'.cons i) ∧ Constr.Frame (w.cons i) (w'.cons i) ∧
      (Constr.Suits d (w'.pss p) (w'.cons i) → Constr.UpToDate d (w'.pss p) (w'.cons i))) ∧
      (i ∉ w.ctl.spConstr → w'.cons i = w.cons i)
  costs : ∀ i, (i ∈ w.ctl.spCost → Cost.Reg d (w'.costs i) ∧ Cost.Same (w.costs i) (w'.costs i) ∧
      (Cost.Clean d (w.costs i) → (Cost.Accumulates (w.costs i) → w.ctl.spCost.count i ≤ 1) →
        Cost.Entries d (w'.pss p) (w'.costs i))) ∧ (i ∉ w.ctl.spCost → w'.costs i = w.costs i)
  extCons : w'.extCons = w.extCons
  extCosts : w'.extCosts = w.extCosts

/-- The heap after `updateSystem`. -/
structure HeapUpdated (d : Dims) (p : Nat) (w w' : World K) : Prop where
  others : ∀ j, j ≠ p → w'.pss j = w.pss j
  sys : SysOk d (w'.pss p)
  pred : SysPred d (w'.pss p)
  upd : (w'.pss p).isUpdated = true
  A : (w'.pss p).A = (w.pss p).A
  B : (w'.pss p).B = (w.pss p).B
  bias : (w'.pss p).d = (w.pss p).d
  x0 : (w'.pss p).x0 = (w.pss p).x0
  cons : ∀ i, (i ∈ w.ctl.spConstr → Constr.Reg d (w'.cons i) ∧ Constr.Frame (w.cons i) (w'.cons i) ∧
      Constr.UpToDate d (w'.pss p) (w'.cons i)) ∧ (i ∉ w.ctl.spConstr → w'.cons i = w.cons i)
  costs : ∀ i, (i ∈ w.ctl.spCost → Cost.Reg d (w'.costs i) ∧ Cost.Same (w.costs i) (w'.costs i) ∧
      (Cost.Clean d (w.costs i) → (Cost.Accumulates (w.costs i) → w.ctl.spCost.count i ≤ 1) →
        Cost.Entries d (w'.pss p) (w'.costs i))) ∧ (i ∉ w.ctl.spCost → w'.costs i = w.costs i)
  extCons : w'.extCons = w.extCons
  extCosts : w'.extCosts = w.extCosts

theorem HeapRaw.frame {d : Dims} {p : Nat} {w w' : World K} (h : HeapRaw d p w w') (i : Nat) :
    Constr.Frame (w.cons i) (w'.cons i) := by
  by_cases hi : i ∈ w.ctl.spConstr
  · exact ((h.cons i).1 hi).2.1
  · rw [(h.cons i).2 hi]; exact Constr.Frame.refl _

theorem HeapRaw.same {d : Dims} {p : Nat} {w w' : World K} (h : HeapRaw d p w w') (i : Nat) :
    Cost.Same (w.costs i) (w'.costs i) := by
  by_cases hi : i ∈ w.ctl.spCost
  · exact ((h.costs i).1 hi).2.1
  · rw [(h.costs i).2 hi]; exact Cost.Same.refl _

theorem HeapRaw.updated {d : Dims} {p : Nat} {w w' : World K} (h : HeapRaw d p w w')
    (hp : (w.pss p).isUpdated = true → SysPred d (w.pss p)) : HeapUpdated d p w w' := by
  have P : SysPred d (w'.pss p) := by
    cases hu : (w.pss p).isUpdated
    · exact h.pred hu
    · rw [h.keep hu]; exact hp hu
  exact ⟨h.others, ⟨h.sys.dims, h.sys.base, fun _ => P⟩, P, h.upd, h.A, h.B, h.bias, h.x0,
    fun i => ⟨fun hi => ⟨((h.cons i).1 hi).1, ((h.cons i).1 hi).2.1, ((h.cons i).1 hi).2.2 fun _ _ => P.shifts⟩,
      (h.cons i).2⟩, h.costs, h.extCons, h.extCosts⟩

theorem HeapUpdated.raw {d : Dims} {p : Nat} {w w' : World K} (h : HeapUpdated d p w w')
    (hk : (w.pss p).isUpdated = true → w'.pss p = w.pss p) : HeapRaw d p w w' :=
  ⟨h.others, h.sys.raw, fun _ => h.pred, hk, h.upd, h.A, h.B, h.bias, h.x0,
    fun i => ⟨fun hi => ⟨((h.cons i).1 hi).1, ((h.cons i).1 hi).2.1, fun _ => ((h.cons i).1 hi).2.2⟩,
      (h.cons i).2⟩, h.costs, h.extCons, h.extCosts⟩

theorem HeapUpdated.frame {d : Dims} {p : Nat} {w w' : World K} (h : HeapUpdated d p w w') (i : Nat) :
    Constr.Frame (w.cons i) (w'.cons i) := by
  by_cases hi : i ∈ w.ctl.spConstr
  · exact ((h.cons i).1 hi).2.1
  · rw [(h.cons i).2 hi]; exact Constr.Frame.refl _

theorem HeapUpdated.same {d : Dims} {p : Nat} {w w' : World K} (h : HeapUpdated d p w w') (i : Nat) :
    Cost.Same (w.costs i) (w'.costs i) := by
  by_cases hi : i ∈ w.ctl.spCost
  · exact ((h.costs i).1 hi).2.1
  · rw [(h.costs i).2 hi]; exact Cost.Same.refl _

theorem CanRaw.typed {d : Dims} {p : Nat} {w : World K} (h : CanRaw d p w) :
    (∀ i ∈ w.ctl.spEqConstr, i ∈ w.ctl.spConstr ∧ (w.cons i).kind ≠ .ctrlBound ∧ (w.cons i).ineq = false) ∧
    (∀ i ∈ w.ctl.spIneqConstr, i ∈ w.ctl.spConstr ∧ (w.cons i).kind ≠ .ctrlBound ∧ (w.cons i).ineq = true) ∧
    (∀ i ∈ w.ctl.spBoundConstr, i ∈ w.ctl.spConstr ∧ (w.cons i).kind = .ctrlBound) := by
  refine ⟨?_, ?_, ?_⟩
  · intro i hi
    rw [h.part.eq] at hi
    simp only [List.mem_filter, decide_eq_true_eq] at hi
    refine ⟨hi.1, ?_⟩
    have := hi.2
    unfold Constr.constraintType at this
    unfold Constr.ineq
    cases hk : (w.cons i).kind <;> rw [hk] at this <;> simp_all
  · intro i hi
    rw [h.part.ineq] at hi
    simp only [List.mem_filter, decide_eq_true_eq] at hi
    refine ⟨hi.1, ?_⟩
    have := hi.2
    unfold Constr.constraintType at this
    unfold Constr.ineq
    cases hk : (w.cons i).kind <;> rw [hk] at this <;> simp_all
  · intro i hi
    rw [h.part.bound] at hi
    simp only [List.mem_filter, decide_eq_true_eq] at hi
    refine ⟨hi.1, ?_⟩
    have := hi.2
    unfold Constr.constraintType at this
    cases hk : (w.cons i).kind <;> rw [hk] at this <;> simp only at this <;> first | rfl | (split at this <;> cases this) | cases this

theorem width_congr {d : Dims} {l l' : LMPC K} (h : l'.isInit = l.isInit) : numVars d l' = numVars d l := by
  unfold numVars; rw [h]

theorem updateSystem_raw {d : Dims} {p : Nat} {w : World K} {junk : Junk K} (h : CanRaw d p w) :
    Ok (w.updateSystem junk) fun w' => HeapRaw d p w w' ∧ LMPC.Fixed w.ctl w'.ctl ∧
      LMPC.Prepared d w'.cons w'.costs w'.ctl ∧ w'.ctl.lb = w.ctl.lb ∧ w'.ctl.ub = w.ctl.ub := by
  rw [updateSystem_eq, h.ps]
  simp only [Option.bind_some]
  have hps : Ok (if (w.pss p).isUpdated then some (w.pss p) else (w.pss p).updateSystem) fun ps' =>
      SysRaw d ps' ∧ ((w.pss p).isUpdated = false → SysPred d ps') ∧ ((w.pss p).isUpdated = true → ps' = w.pss p) ∧
      ps'.isUpdated = true ∧ ps'.A = (w.pss p).A ∧ ps'.B = (w.pss p).B ∧ ps'.d = (w.pss p).d ∧ ps'.x0 = (w.pss p).x0 := by
    split
    · next hu => exact Ok.pure' ⟨h.sys, fun e => (by rw [hu] at e; cases e), fun _ => rfl, hu, rfl, rfl, rfl, rfl⟩
    · next hu =>
      exact (Copra.updateSystem_raw h.sys).mono fun _ ⟨a1, a2, a3⟩ => ⟨a1.raw, fun _ => a2, fun e => absurd e hu, a3⟩
  rw [← Option.bind_eq_bind]
  apply Ok.bind
  refine hps.mono ?_
  rintro ps' ⟨s1, s2, s2', s3, s4, s5, s6, s7⟩
  have S := s1.dims.toSysShape
  have hx : ps'.x0.rows = d.n := by rw [s7]; exact h.x0
  unfold LMPC.updateNr
  simp only
  rw [LMPC.countConstr_ok h.eqLe, LMPC.countConstr_ok h.ineqLe]
  simp only [Option.bind_eq_bind, Option.bind_some, Option.pure_def]
  unfold LMPC.updateConstraintMatrixSize
  rw [LMPC.optSize_ok S (by exact h.wle)]
  simp only [Option.bind_eq_bind, Option.bind_some, Option.pure_def]
  rw [← Option.bind_eq_bind]
  apply Ok.bind
  refine (updateConstrs_raw S hx h.cons).mono ?_
  intro cons' hc
  rw [← Option.bind_eq_bind]
  apply Ok.bind
  refine (updateCosts_ok S hx h.costs).mono ?_
  intro costs' hk
  refine ⟨_, rfl, ?_⟩
  have hfr : ∀ i, Constr.Frame (w.cons i) (cons' i) := by
    intro i
    by_cases hi : i ∈ w.ctl.spConstr
    · exact ((hc i).1 hi).2.1
    · rw [(hc i).2 hi]; exact Constr.Frame.refl _
  have hnr : ∀ i, (cons' i).nrConstr = (w.cons i).nrConstr := fun i => (hfr i).nr
  obtain ⟨t1, t2, t3⟩ := h.typed
  refine ⟨?_, ?_, ?_, rfl, rfl⟩
  · refine ⟨fun j hj => upd_ne _ _ hj, ?_, ?_, ?_, ?_, ?_, ?_, ?_, ?_, ?_, ?_, rfl, rfl⟩
    all_goals simp only [upd_same]
    · exact s1
    · exact s2
    · exact s2'
    · exact s3
    · exact s4
    · exact s5
    · exact s6
    · exact s7
    · exact hc
    · exact hk
  · constructor <;> rfl
  · have hwd : numVars d { w.ctl with
        Q := (Mat.identity w.ctl.Q.rows w.ctl.Q.cols).scale (1 / 1000000), c := Vec.zero w.ctl.c.rows,
        nrEqConstr := total (fun i => (w.cons i).nrConstr) w.ctl.spEqConstr,
        nrIneqConstr := total (fun i => (w.cons i).nrConstr) w.ctl.spIneqConstr } = numVars d w.ctl := rfl
    refine ⟨?_, ?_, ?_, h.one, ?_, ?_, ?_, ?_, ?_, rfl, hwd, rfl, rfl, hwd, rfl, h.lbr, h.ubr⟩
    · intro i hi
      obtain ⟨a, b, _⟩ := t1 i hi
      exact ((hc i).1 a).1.sizes (by rw [(hfr i).kind]; exact b)
    · intro i hi
      obtain ⟨a, b, _⟩ := t2 i hi
      exact ((hc i).1 a).1.sizes (by rw [(hfr i).kind]; exact b)
    · intro i hi
      obtain ⟨a, b⟩ := t3 i hi
      have := ((hc i).1 a).1
      unfold Constr.Reg at this
      have hk : (cons' i).kind = .ctrlBound := by rw [(hfr i).kind]; exact b
      rw [hk] at this
      exact this
    · intro i hi
      exact ((hk i).1 hi).1.sizes
    · show (Mat.identity w.ctl.Q.rows w.ctl.Q.cols).scale (1 / 1000000) = _
      rw [h.Qr, h.Qc]; rfl
    · show Vec.zero w.ctl.c.rows = _
      rw [h.cr]; rfl
    · exact (total_congr fun i _ => hnr i).symm
    · exact (total_congr fun i _ => hnr i).symm

theorem updateSystem_ok {d : Dims} {p : Nat} {w : World K} {junk : Junk K} (h : CanUpdate d p w) :
    Ok (w.updateSystem junk) fun w' => HeapUpdated d p w w' ∧ LMPC.Fixed w.ctl w'.ctl ∧
      LMPC.Prepared d w'.cons w'.costs w'.ctl ∧ w'.ctl.lb = w.ctl.lb ∧ w'.ctl.ub = w.ctl.ub :=
  (updateSystem_raw h.toCanRaw).mono fun _ ⟨a, b⟩ => ⟨a.updated h.pred, b⟩

/-- The outcome of a solve, whatever the prediction matrices contained. -/
structure SolvedRaw (d : Dims) (p : Nat) (env : SolveEnv K) (w w' : World K) (b : Bool) (q : QP K) : Prop where
  heap : HeapRaw d p w w'
  nrVar : q.nrVar = numVars d w.ctl
  plain : w.ctl.isInit = false → LMPC.Assembled d w'.cons w'.costs w.ctl q
  init : w.ctl.isInit = true → LMPC.AssembledInit d env.inverse w'.cons w'.costs w.ctl q
  answer : b = (env.answer q).1
  Q : w'.ctl.Q = q.Q
  c : w'.ctl.c = q.c
  lb : w'.ctl.lb = q.lb
  ub : w'.ctl.ub = q.ub
  nrEq : w'.ctl.nrEqConstr = q.nrEq
  nrIneq : w'.ctl.nrIneqConstr = q.nrIneq
  sol : ∃ s, w.ctl.sol = some s ∧ w'.ctl.sol = some { s with result := (env.answer q).2 }
  fail : b = false → w'.ctl.control = w.ctl.control ∧ w'.ctl.trajectory = w.ctl.trajectory
  success : b = true → w'.ctl.control.rows = d.m * d.N ∧
    (∀ j < d.m * d.N, w'.ctl.control.e j = (env.answer q).2.e (if w.ctl.isInit then d.n + j else j)) ∧
    IsStacked d (predC d (w'.pss p) (if w.ctl.isInit then (env.answer q).2.e else (w.pss p).x0.e) w'.ctl.control.e)
      w'.ctl.trajectory

/-- The outcome of a solve. -/
structure Solved (d : Dims) (p : Nat) (env : SolveEnv K) (w w' : World K) (b : Bool) (q : QP K) : Prop where
  heap : HeapUpdated d p w w'
  nrVar : q.nrVar = numVars d w.ctl
  plain : w.ctl.isInit = false → LMPC.Assembled d w'.cons w'.costs w.ctl q
  init : w.ctl.isInit = true → LMPC.AssembledInit d env.inverse w'.cons w'.costs w.ctl q
  answer : b = (env.answer q).1
  Q : w'.ctl.Q = q.Q
  c : w'.ctl.c = q.c
  lb : w'.ctl.lb = q.lb
  ub : w'.ctl.ub = q.ub
  nrEq : w'.ctl.nrEqConstr = q.nrEq
  nrIneq : w'.ctl.nrIneqConstr = q.nrIneq
  sol : ∃ s, w.ctl.sol = some s ∧ w'.ctl.sol = some { s with result := (env.answer q).2 }
  fail : b = false → w'.ctl.control = w.ctl.control ∧ w'.ctl.trajectory = w.ctl.trajectory
  success : b = true → w'.ctl.control.rows = d.m * d.N ∧
    (∀ j < d.m * d.N, w'.ctl.control.e j = (env.answer q).2.e (if w.ctl.isInit then d.n + j else j)) ∧
    IsStacked d (sim d (w.pss p).A (w.pss p).B (w.pss p).d
      (if w.ctl.isInit then (env.answer q).2.e else (w.pss p).x0.e) w'.ctl.control.e) w'.ctl.trajectory

theorem assembled_congr {d : Dims} {cons : Nat → Constr K} {costs : Nat → Cost K} {l l' : LMPC K} {q : QP K}
    (f : LMPC.Fixed l l') (e1 : l'.lb = l.lb) (e2 : l'.ub = l.ub) (h : LMPC.Assembled d cons costs l' q) :
    LMPC.Assembled d cons costs l q := by
  obtain ⟨a0, a1, a2, a3, a4, a5, a6, a7, a8, a9, a10, a11, a12, a13⟩ := h
  rw [f.spCost] at a6 a7
  rw [f.spEqConstr] at a1 a8
  rw [f.spIneqConstr] at a2 a9
  rw [f.spBoundConstr] at a12 a13
  rw [e1, e2] at a12
  exact ⟨a0, a1, a2, a3, a4, a5, a6, a7, a8, a9, a10, a11, a12, a13⟩

theorem assembledInit_congr {d : Dims} {inverse : Mat K → Mat K} {cons : Nat → Constr K} {costs : Nat → Cost K}
    {l l' : LMPC K} {q : QP K} (f : LMPC.Fixed l l') (e1 : l'.lb = l.lb) (e2 : l'.ub = l.ub)
    (h : LMPC.AssembledInit d inverse cons costs l' q) : LMPC.AssembledInit d inverse cons costs l q := by
  obtain ⟨a0, a1, a2, a3, a4, a5, a6, a7, a8, a9, a10, a11, a12, a13, a14, a15, a16, a17, a18⟩ := h
  rw [f.spCost] at a6 a7 a11
  rw [f.spEqConstr] at a1 a12
  rw [f.spIneqConstr] at a2 a13
  rw [f.spBoundConstr] at a17 a18
  rw [f.x0lb, f.x0ub] at a16
  rw [f.r] at a10
  rw [f.R] at a9
  rw [e1, e2] at a17
  exact ⟨a0, a1, a2, a3, a4, a5, a6, a7, a8, a9, a10, a11, a12, a13, a14, a15, a16, a17, a18⟩

/-- A solve of a prepared controller is defined, whatever the solver answers. -/
theorem solve_raw {d : Dims} {p : Nat} {w : World K} {env : SolveEnv K} (h : CanRaw d p w)
    (hc : SolveContract d env w.ctl) : ∃ w' b q, w.solve env = some (w', b, q) ∧ SolvedRaw d p env w w' b q := by
  obtain ⟨w1, e1, H1, f1, P1, l1, u1⟩ := updateSystem_raw (junk := env.junk) h
  have S := H1.sys.dims.toSysShape
  have hp1 : w1.ctl.ps = some p := by rw [f1.ps]; exact h.ps
  have hw1 : numVars d w1.ctl = numVars d w.ctl := width_congr f1.isInit
  -- assembling
  have hq : ∃ l, w1.ctl.makeQPForm env.inverse w1.cons w1.costs (w1.pss p) = some l ∧
      (w.ctl.isInit = false → LMPC.Assembled d w1.cons w1.costs w.ctl l.qp) ∧
      (w.ctl.isInit = true → LMPC.AssembledInit d env.inverse w1.cons w1.costs w.ctl l.qp) := by
    unfold LMPC.makeQPForm
    cases hi : w.ctl.isInit
    · have hi1 : w1.ctl.isInit = false := by rw [f1.isInit]; exact hi
      rw [hi1]
      obtain ⟨l, e, a⟩ := LMPC.makeQPFormBase_ok S P1 hi1
      exact ⟨l, e, fun _ => assembled_congr f1 l1 u1 a, fun h => by cases h⟩
    · have hi1 : w1.ctl.isInit = true := by rw [f1.isInit]; exact hi
      rw [hi1]
      obtain ⟨r1, r2, r3, r4, r5, r6⟩ := hc.init hi
      obtain ⟨l, e, a⟩ := LMPC.makeQPFormInit_ok S P1 hi1 (by rw [f1.R]; exact r1) (by rw [f1.R]; exact r2)
        (by rw [f1.r]; exact r3) (by rw [f1.x0lb]; exact r4) (by rw [f1.x0ub]; exact r5) r6
      exact ⟨l, e, fun h => (by cases h), fun _ => assembledInit_congr f1 l1 u1 a⟩
  obtain ⟨l, el, a1, a2⟩ := hq
  have fl := f1.trans (LMPC.makeQPForm_fixed el)
  have hnv : l.qp.nrVar = numVars d w.ctl := by
    unfold numVars
    cases hi : w.ctl.isInit
    · rw [(a1 hi).nrVar, (a1 hi).cr]; rfl
    · rw [(a2 hi).nrVar, (a2 hi).cr]; rfl
  obtain ⟨s, hs⟩ := Option.ne_none_iff_exists'.1 hc.sol
  have hsl : l.sol = some s := by rw [fl.sol]; exact hs
  unfold solve
  rw [e1]
  simp only [Option.bind_eq_bind, Option.bind_some]
  rw [hp1]
  simp only [Option.bind_some]
  rw [el]
  simp only [Option.bind_some]
  rw [hsl]
  simp only [Option.bind_some]
  cases hb : (env.answer l.qp).1
  · simp only [Bool.false_eq_true, if_false, Option.pure_def]
    refine ⟨_, _, _, rfl, ⟨?_, hnv, a1, a2, hb.symm, rfl, rfl, rfl, rfl, rfl, rfl, ⟨s, hs, rfl⟩, ?_, ?_⟩⟩
    · exact ⟨H1.others, H1.sys, H1.pred, H1.keep, H1.upd, H1.A, H1.B, H1.bias, H1.x0, H1.cons, H1.costs, H1.extCons, H1.extCosts⟩
    · exact fun _ => ⟨fl.control, fl.trajectory⟩
    · exact fun h => by cases h
  · simp only [if_true]
    obtain ⟨l', e', g1, g2, g3, g4⟩ := LMPC.updateResults_raw (l := LMPC.checkDelete w1.extCons w1.extCosts
      { l with sol := some { s with result := (env.answer l.qp).2 }, solveTime := some (env.t2 - env.t1) })
      (s := { s with result := (env.answer l.qp).2 }) S (by rw [H1.x0]; exact h.x0) rfl
      (by
        show (env.answer l.qp).2.rows = _
        rw [hc.answer _ hnv hb, hnv]
        exact (width_congr (by exact fl.isInit)).symm)
    rw [e']
    simp only [Option.bind_some, Option.pure_def]
    refine ⟨_, _, _, rfl, ⟨?_, hnv, a1, a2, hb.symm, ?_, ?_, ?_, ?_, ?_, ?_, ⟨s, hs, ?_⟩, ?_, ?_⟩⟩
    · exact ⟨H1.others, H1.sys, H1.pred, H1.keep, H1.upd, H1.A, H1.B, H1.bias, H1.x0, H1.cons, H1.costs, H1.extCons, H1.extCosts⟩
    · show l'.Q = _; rw [g1]; rfl
    · show l'.c = _; rw [g1]; rfl
    · show l'.lb = _; rw [g1]; rfl
    · show l'.ub = _; rw [g1]; rfl
    · show l'.nrEqConstr = _; rw [g1]; rfl
    · show l'.nrIneqConstr = _; rw [g1]; rfl
    · show l'.sol = _; rw [g1]; rfl
    · exact fun h => by cases h
    · intro _
      rw [H1.x0] at g4
      have hi : (LMPC.checkDelete w1.extCons w1.extCosts
        { l with sol := some { s with result := (env.answer l.qp).2 }, solveTime := some (env.t2 - env.t1) }).isInit
        = w.ctl.isInit := fl.isInit
      rw [hi] at g3 g4
      exact ⟨g2, g3, g4⟩

theorem SolvedRaw.solved {d : Dims} {p : Nat} {env : SolveEnv K} {w w' : World K} {b : Bool} {q : QP K}
    (S : SolvedRaw d p env w w' b q) (hp : (w.pss p).isUpdated = true → SysPred d (w.pss p)) :
    Solved d p env w w' b q := by
  have H := S.heap.updated hp
  refine ⟨H, S.nrVar, S.plain, S.init, S.answer, S.Q, S.c, S.lb, S.ub, S.nrEq, S.nrIneq, S.sol, S.fail, fun hb => ?_⟩
  obtain ⟨a1, a2, a3, a4⟩ := S.success hb
  refine ⟨a1, a2, a3, fun k r hk hr => ?_⟩
  rw [a4 k r hk hr, predC_eq_sim H.pred _ _ k hk r hr, H.A, H.B, H.bias]

/-- A solve of a prepared controller is defined, whatever the solver answers. -/
theorem solve_ok {d : Dims} {p : Nat} {w : World K} {env : SolveEnv K} (h : CanUpdate d p w)
    (hc : SolveContract d env w.ctl) : ∃ w' b q, w.solve env = some (w', b, q) ∧ Solved d p env w w' b q := by
  obtain ⟨w', b, q, e, S⟩ := solve_raw h.toCanRaw hc
  exact ⟨w', b, q, e, S.solved h.pred⟩

end World
end Copra
