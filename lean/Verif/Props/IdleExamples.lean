import Verif.Props.Idle
import Verif.Props.PlantsInitExamples

/-! # C116 on concrete programs

The plant of `m7` with a second actuator that is not connected, and `sj5` with one. -/

namespace Copra
open Spec

set_option linter.unusedSectionVars false
set_option maxRecDepth 100000

namespace Ex
open World

def dID : Dims := ⟨2, 2, 2⟩

def consID (i : Nat) : Constr ℚ :=
  if i = 0 then Constr.mkTrajectory (mat 1 2 [[1, 0]]) (evec [.fin 5]) true
  else Constr.mkCtrlBound (evec [.fin (-1), .fin (-2)]) (evec [.fin 1, .fin 2])

def costsID (i : Nat) : Cost ℚ :=
  if i = 0 then Cost.mkTrajectory (mat 2 2 [[1, 0], [0, 1]]) (vec [0, 0])
  else Cost.mkControl (mat 1 2 [[1, 0]]) (vec [1])

def id0 : World ℚ := { w0 with cons := consID, costs := costsID }

theorem id0_init : World.Init id0 := by
  obtain ⟨a, _, _, e⟩ := w0_init
  refine ⟨a, fun i => ?_, fun i => ?_, e⟩
  · show World.FreshConstr (consID i)
    unfold consID
    split
    · exact .inl ⟨_, _, _, rfl⟩
    · exact .inr (.inr (.inr (.inr ⟨_, _, rfl⟩)))
  · show World.FreshCost (costsID i)
    unfold costsID
    split
    · exact .inl ⟨_, _, rfl⟩
    · exact .inr (.inr (.inl ⟨_, _, rfl⟩))

def opSysID : Op ℚ := .system 0 (mat 2 2 [[1, 1], [0, 1]]) (mat 2 2 [[0, 0], [1, 0]]) (vec [0, 0]) (vec [1, 0]) 2

def id1 := after 1000 id0 opSysID
def id2 := after 1000 id1 opCtl
def id3 := after 1000 id2 (.addConstraint 0 jk)
def id4 := after 1000 id3 (.addConstraint 2 jk)
def id5 := after 1000 id4 (.addCost 1 jk)
def id6 := after 1000 id5 (.addCost 0 jk)

theorem hid6 : ∃ g : Ghost, Hist dID 1000 Careful id6 g ∧ g.fresh 0 ∧ g.clean := by
  have a1 := hist_after (d := dID) (dmax := 1000) (E := Careful) (op := opSysID) (.start id0_init) ⟨rfl, rfl, rfl⟩
    ⟨trivial, trivial, trivial⟩ (by decide +kernel)
  have a2 := hist_after (op := opCtl) a1 (show HasSystem id1 0 by unfold HasSystem; decide +kernel)
    ⟨trivial, trivial, trivial⟩ (by decide +kernel : okB 1000 id1 _ = true)
  have a3 := hist_after (op := .addConstraint 0 jk) a2 (fun h => absurd h (by decide +kernel : (id2.cons 0).kind ≠ .ctrlBound))
    ⟨trivial, trivial, trivial⟩ (by decide +kernel : okB 1000 id2 _ = true)
  have a4 := hist_after (op := .addConstraint 2 jk) a3 (fun _ => (by decide +kernel : id3.ctl.spBoundConstr = []))
    ⟨trivial, trivial, trivial⟩ (by decide +kernel : okB 1000 id3 _ = true)
  have a5 := hist_after (op := .addCost 1 jk) a4 trivial ⟨trivial, trivial, trivial⟩ (by decide +kernel : okB 1000 id4 _ = true)
  have a6 := hist_after (op := .addCost 0 jk) a5 trivial ⟨trivial, trivial, trivial⟩ (by decide +kernel : okB 1000 id5 _ = true)
  exact ⟨_, a6, Or.inr ⟨trivial, rfl⟩, trivial⟩

/-- The answer of `m7`, with the second actuator at rest. -/
def yID : Vec ℚ := vec [-1000000000000 / 7000006000001, 0, 4000001000000 / 7000006000001, 0]

def rID : World ℚ × Bool × QP ℚ := (id6.solve (envTP yID)).getD (id6, false, q13)

theorem sID : id6.solve (envTP yID) = some (rID.1, true, rID.2.2) := by
  obtain ⟨r, hr⟩ := Option.isSome_iff_exists.1 (by decide +kernel : (id6.solve (envTP yID)).isSome = true)
  have h1 : rID = r := by unfold rID; rw [hr]; rfl
  have h2 : rID.2.1 = true := by decide +kernel
  rw [hr, ← h2, h1]

theorem contractID {x : Vec ℚ} {l : LMPC ℚ} (hx : x.rows = 4) (hs : l.sol ≠ none) (hi : l.isInit = false) :
    SolveContract dID (envTP x) l := by
  refine ⟨hs, fun q _ _ => ?_, fun h => by rw [hi] at h; cases h⟩
  show (if q.nrVar = 4 then x else Vec.zero q.nrVar).rows = q.nrVar
  split
  · next h => rw [hx, h]
  · rfl

theorem solveID {g : Ghost} (h : Hist dID 1000 Careful id6 g) (c : g.clean) :
    PlainSolve dID 1000 id6 g 0 (envTP yID) rID.1 true rID.2.2 where
  hist := h.mono fun _ _ h => ⟨h.1, h.2.1⟩
  allowed := ⟨by decide +kernel, contractID rfl
    (fun h => absurd (congrArg Option.isSome h) (by decide +kernel : id6.ctl.sol.isSome ≠ false)) (by decide +kernel)⟩
  ps := by decide +kernel
  plain := by decide +kernel
  clean := fun _ => c
  honest := honestOf (by decide +kernel)
  solve := sID

theorem idleActuatorID : IdleActuator dID id6 0 1 where
  lt := by decide
  B := by decide +kernel
  cons := by
    rw [(by decide +kernel : id6.ctl.spConstr = [0, 2])]
    simp only [List.forall_mem_cons, List.not_mem_nil, false_imp_iff, implies_true, and_true]
    refine ⟨trivial, ?_⟩
    rw [(by rfl : (id6.cons 2).userData = .ctrlBound (evec [.fin (-1), .fin (-2)]) (evec [.fin 1, .fin 2]))]
    simp only [ConstrData.LeavesIdle]
    rw [if_pos (by decide +kernel)]
    decide +kernel
  costs := by
    rw [(by decide +kernel : id6.ctl.spCost = [1, 0])]
    simp only [List.forall_mem_cons, List.not_mem_nil, false_imp_iff, implies_true, and_true]
    refine ⟨?_, trivial⟩
    unfold CostData.LeavesIdle
    rw [(by rfl : (id6.costs 1).userData = .control (mat 1 2 [[1, 0]]) (vec [1]) (id6.costs 1).weights)]
    show if (mat 1 2 [[1, 0]] : Mat ℚ).cols = dID.m then (_ : Prop) else (_ : Prop)
    rw [if_pos (by decide +kernel)]
    decide +kernel

theorem freshID {g : Ghost} (f : g.fresh 0) : CostsFresh dID id6 g := by
  intro i hi hps
  rw [(by decide +kernel : id6.ctl.spCost = [1, 0])] at hi ⊢
  simp only [List.mem_cons, List.not_mem_nil, or_false] at hi
  rcases hi with rfl | rfl
  · exact hps.elim
  · exact ⟨f, rfl⟩

theorem optID : IsOptimal rID.2.2 ((envTP yID).answer rID.2.2).2.e := by
  obtain ⟨g, h, f, c⟩ := hid6
  have S := solveID h c
  have P := psd_of_pd (c29_hessian S.hist (fun _ _ h => h.2) S.allowed (by decide +kernel) sID)
  rw [(by decide +kernel : rID.2.2.nrVar = rID.2.2.c.rows)] at P
  exact optimal_of_stationary P (by decide +kernel) (by decide +kernel)

/-- C116 applies; the first actuator does not rest. -/
example : rID.1.ctl.control.e 1 = 0 ∧ rID.1.ctl.control.e 3 = 0 ∧ rID.1.ctl.control.e 0 ≠ 0 := by
  obtain ⟨g, h, f, c⟩ := hid6
  have r := c116_rests (solveID h c) (freshID f) idleActuatorID optID
  exact ⟨r 0 (by decide), r 1 (by decide), by decide +kernel⟩

/-! ## `InitialStateLMPC` -/

def dIJ : Dims := ⟨1, 2, 1⟩

def ij0 : World ℚ :=
  { w0 with
    cons := fun _ => Constr.mkCtrlBound (evec [.fin (-1), .fin (-1)]) (evec [.fin 1, .fin 1])
    costs := fun _ => Cost.mkTrajectory (mat 1 1 [[1]]) (vec [0]) }

theorem ij0_init : World.Init ij0 := by
  obtain ⟨a, _, _, e⟩ := w0_init
  exact ⟨a, fun i => .inr (.inr (.inr (.inr ⟨_, _, rfl⟩))), fun i => .inl ⟨_, _, rfl⟩, e⟩

def opSysIJ : Op ℚ := .system 0 (mat 1 1 [[1]]) (mat 1 2 [[1, 0]]) (vec [0]) (vec [1]) 1

def ij1 := after 1000 ij0 opSysIJ
def ij2 := after 1000 ij1 (.constructPs true solver 0 jk)
def ij3 := after 1000 ij2 (.addConstraint 2 jk)
def ij4 := after 1000 ij3 (.addCost 0 jk)
def ij5 := after 1000 ij4 (.resetInitialStateBounds (evec [.fin (-5)]) (evec [.fin 5]))
def ij6 := after 1000 ij5 (.resetInitialStateCost (mat 1 1 [[1]]) (vec [0]))

theorem hij6 : ∃ g : Ghost, Hist dIJ 1000 Careful ij6 g ∧ g.fresh 0 ∧ g.clean := by
  have a1 := hist_after (d := dIJ) (dmax := 1000) (E := Careful) (op := opSysIJ) (.start ij0_init) ⟨rfl, rfl, rfl⟩
    ⟨trivial, trivial, trivial⟩ (by decide +kernel)
  have a2 := hist_after (op := .constructPs true solver 0 jk) a1 (show HasSystem ij1 0 by unfold HasSystem; decide +kernel)
    ⟨trivial, trivial, trivial⟩ (by decide +kernel)
  have a3 := hist_after (op := .addConstraint 2 jk) a2 (fun _ => (by decide +kernel : ij2.ctl.spBoundConstr = []))
    ⟨trivial, trivial, trivial⟩ (by decide +kernel : okB 1000 ij2 _ = true)
  have a4 := hist_after (op := .addCost 0 jk) a3 trivial ⟨trivial, trivial, trivial⟩ (by decide +kernel : okB 1000 ij3 _ = true)
  have a5 := hist_after (op := .resetInitialStateBounds (evec [.fin (-5)]) (evec [.fin 5])) a4 trivial ⟨trivial, trivial, trivial⟩
    (by decide +kernel : okB 1000 ij4 _ = true)
  have a6 := hist_after (op := .resetInitialStateCost (mat 1 1 [[1]]) (vec [0])) a5 trivial ⟨trivial, trivial, trivial⟩
    (by decide +kernel : okB 1000 ij5 _ = true)
  exact ⟨_, a6, Or.inr ⟨trivial, rfl⟩, trivial⟩

def rIJ : World ℚ × Bool × QP ℚ := (ij6.solve envMj).getD (ij6, false, q13)

theorem sIJ : ij6.solve envMj = some (rIJ.1, true, rIJ.2.2) := by
  obtain ⟨r, hr⟩ := Option.isSome_iff_exists.1 (by decide +kernel : (ij6.solve envMj).isSome = true)
  have h1 : rIJ = r := by unfold rIJ; rw [hr]; rfl
  have h2 : rIJ.2.1 = true := by decide +kernel
  rw [hr, ← h2, h1]

theorem solveIJ {g : Ghost} (h : Hist dIJ 1000 Careful ij6 g) (f : g.fresh 0) (c : g.clean) :
    InitSolve dIJ 1000 ij6 g 0 envMj rIJ.1 true rIJ.2.2 where
  hist := h.mono fun _ _ h => ⟨h.1, h.2.1⟩
  allowed := ⟨by decide +kernel, (fun h => absurd (congrArg Option.isSome h) (by decide +kernel : ij6.ctl.sol.isSome ≠ false)),
    fun q _ _ => rfl, fun _ => by
      refine ⟨by decide +kernel, by decide +kernel, by decide +kernel, by decide +kernel, by decide +kernel, fun M h1 h2 => ⟨h1, h2⟩⟩⟩
  ps := by decide +kernel
  init := by decide +kernel
  clean := fun _ => c
  honest := honestOf (by decide +kernel)
  fresh := by
    intro i hi _
    rw [(by decide +kernel : ij6.ctl.spCost = [0])] at hi ⊢
    rw [List.mem_singleton.1 hi]
    exact ⟨f, rfl⟩
  inverse := trueInverse (vec [0, 0, 0]) true
  solve := sIJ

theorem idleActuatorIJ : IdleActuator dIJ ij6 0 1 where
  lt := by decide
  B := by decide +kernel
  cons := by
    rw [(by decide +kernel : ij6.ctl.spConstr = [2])]
    simp only [List.forall_mem_cons, List.not_mem_nil, false_imp_iff, implies_true, and_true]
    rw [(by rfl : (ij6.cons 2).userData = .ctrlBound (evec [.fin (-1), .fin (-1)]) (evec [.fin 1, .fin 1]))]
    simp only [ConstrData.LeavesIdle]
    rw [if_pos (by decide +kernel)]
    decide +kernel
  costs := by
    rw [(by decide +kernel : ij6.ctl.spCost = [0])]
    simp only [List.forall_mem_cons, List.not_mem_nil, false_imp_iff, implies_true, and_true]
    exact trivial

/-- C116 applies to an `InitialStateLMPC`. -/
example : rIJ.1.ctl.control.e 1 = 0 := by
  obtain ⟨g, h, f, c⟩ := hij6
  have S := solveIJ h f c
  have P := psd_of_pd ((c45_hessian_partial S.hist (fun _ _ h => h.2) S.allowed S.init S.inverse sIJ).2 (by
    refine ⟨by unfold Spec.Symmetric; decide +kernel, fun x hx => ?_⟩
    obtain ⟨i, hi, hne⟩ := hx
    have hi : i < 1 := hi
    obtain rfl : i = 0 := by omega
    show 0 < ∑ i ∈ Finset.range 1, ∑ j ∈ Finset.range 1, _
    rw [Finset.sum_range_one, Finset.sum_range_one, (by decide +kernel : ij6.ctl.R.e 0 0 = 1)]
    have := sq_nonneg (x 0)
    have : 0 < x 0 ^ 2 := by positivity
    linarith [sq (x 0)]))
  rw [(by decide +kernel : rIJ.2.2.nrVar = rIJ.2.2.c.rows)] at P
  exact c116_rests_init S idleActuatorIJ (optimal_of_stationary P (by decide +kernel) (by decide +kernel)) 0 (by decide)

end Ex
end Copra
