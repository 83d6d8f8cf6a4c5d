import Verif.Props.Plants
import Verif.Props.ScaleExamples

/-! # C105 on a concrete program

`m7` and `sd6` run on one controller with four states and two controls. -/

namespace Copra
open Spec

set_option linter.unusedSectionVars false
set_option maxRecDepth 100000

namespace Ex
open World

def dTP : Dims := ⟨4, 2, 2⟩

def consTP (i : Nat) : Constr ℚ :=
  if i = 0 then Constr.mkTrajectory (mat 1 4 [[1, 0, 0, 0]]) (evec [.fin 5]) true
  else if i = 1 then Constr.mkTrajectory (mat 1 4 [[0, 0, 1, 0]]) (evec [.fin 10]) true
  else Constr.mkCtrlBound (evec [.fin (-1), .fin (-2)]) (evec [.fin 1, .fin 2])

def costsTP (i : Nat) : Cost ℚ :=
  if i = 0 then Cost.mkTrajectory (mat 2 4 [[1, 0, 0, 0], [0, 1, 0, 0]]) (vec [0, 0])
  else if i = 1 then Cost.mkControl (mat 1 2 [[1, 0]]) (vec [1])
  else if i = 2 then Cost.mkTrajectory (mat 2 4 [[0, 0, 1, 0], [0, 0, 0, 1]]) (vec [0, 0])
  else Cost.mkControl (mat 1 2 [[0, 1]]) (vec [2])

def tp0 : World ℚ := { w0 with cons := consTP, costs := costsTP }

theorem tp0_init : World.Init tp0 := by
  obtain ⟨a, _, _, e⟩ := w0_init
  refine ⟨a, fun i => ?_, fun i => ?_, e⟩
  · show World.FreshConstr (consTP i)
    unfold consTP
    split
    · exact .inl ⟨_, _, _, rfl⟩
    · split
      · exact .inl ⟨_, _, _, rfl⟩
      · exact .inr (.inr (.inr (.inr ⟨_, _, rfl⟩)))
  · show World.FreshCost (costsTP i)
    unfold costsTP
    split
    · exact .inl ⟨_, _, rfl⟩
    · split
      · exact .inr (.inr (.inl ⟨_, _, rfl⟩))
      · split
        · exact .inl ⟨_, _, rfl⟩
        · exact .inr (.inr (.inl ⟨_, _, rfl⟩))

def opSysTP : Op ℚ := .system 0 (mat 4 4 [[1, 1, 0, 0], [0, 1, 0, 0], [0, 0, 1, 1], [0, 0, 0, 1]])
  (mat 4 2 [[0, 0], [1, 0], [0, 0], [0, 1]]) (vec [0, 0, 0, 0]) (vec [1, 0, 2, 0]) 2

def tp1 := after 1000 tp0 opSysTP
def tp2 := after 1000 tp1 opCtl
def tp3 := after 1000 tp2 (.addConstraint 0 jk)
def tp4 := after 1000 tp3 (.addConstraint 1 jk)
def tp5 := after 1000 tp4 (.addConstraint 2 jk)
def tp6 := after 1000 tp5 (.addCost 1 jk)
def tp7 := after 1000 tp6 (.addCost 3 jk)
def tp8 := after 1000 tp7 (.addCost 0 jk)
def tp9 := after 1000 tp8 (.addCost 2 jk)

theorem htp9 : ∃ g : Ghost, Hist dTP 1000 Careful tp9 g ∧ g.fresh 0 ∧ g.fresh 2 ∧ g.clean := by
  have a1 := hist_after (d := dTP) (dmax := 1000) (E := Careful) (op := opSysTP) (.start tp0_init) ⟨rfl, rfl, rfl⟩
    ⟨trivial, trivial, trivial⟩ (by decide +kernel)
  have a2 := hist_after (op := opCtl) a1 (show HasSystem tp1 0 by unfold HasSystem; decide +kernel)
    ⟨trivial, trivial, trivial⟩ (by decide +kernel : okB 1000 tp1 _ = true)
  have a3 := hist_after (op := .addConstraint 0 jk) a2 (fun h => absurd h (by decide +kernel : (tp2.cons 0).kind ≠ .ctrlBound))
    ⟨trivial, trivial, trivial⟩ (by decide +kernel : okB 1000 tp2 _ = true)
  have a4 := hist_after (op := .addConstraint 1 jk) a3 (fun h => absurd h (by decide +kernel : (tp3.cons 1).kind ≠ .ctrlBound))
    ⟨trivial, trivial, trivial⟩ (by decide +kernel : okB 1000 tp3 _ = true)
  have a5 := hist_after (op := .addConstraint 2 jk) a4 (fun _ => (by decide +kernel : tp4.ctl.spBoundConstr = []))
    ⟨trivial, trivial, trivial⟩ (by decide +kernel : okB 1000 tp4 _ = true)
  have a6 := hist_after (op := .addCost 1 jk) a5 trivial ⟨trivial, trivial, trivial⟩ (by decide +kernel : okB 1000 tp5 _ = true)
  have a7 := hist_after (op := .addCost 3 jk) a6 trivial ⟨trivial, trivial, trivial⟩ (by decide +kernel : okB 1000 tp6 _ = true)
  have a8 := hist_after (op := .addCost 0 jk) a7 trivial ⟨trivial, trivial, trivial⟩ (by decide +kernel : okB 1000 tp7 _ = true)
  have a9 := hist_after (op := .addCost 2 jk) a8 trivial ⟨trivial, trivial, trivial⟩ (by decide +kernel : okB 1000 tp8 _ = true)
  exact ⟨_, a9, Or.inl (Or.inr ⟨trivial, rfl⟩), Or.inr ⟨trivial, rfl⟩, trivial⟩

/-- A solver that answers `x` on problems with four variables. -/
def envTP (x : Vec ℚ) : SolveEnv ℚ where
  junk := jk
  inverse := fun M => ⟨M.rows, M.cols, fun i j => if i = j then 1 / M.e i i else 0⟩
  answer := fun q => (true, if q.nrVar = 4 then x else Vec.zero q.nrVar)
  t0 := 10
  t1 := 20
  t2 := 25
  t3 := 31

theorem contractTP {x : Vec ℚ} {l : LMPC ℚ} (hx : x.rows = 4) (hs : l.sol ≠ none) (hi : l.isInit = false) :
    SolveContract dTP (envTP x) l := by
  refine ⟨hs, fun q _ _ => ?_, fun h => by rw [hi] at h; cases h⟩
  show (if q.nrVar = 4 then x else Vec.zero q.nrVar).rows = q.nrVar
  split
  · next h => rw [hx, h]
  · rfl

/-- The answers of `m7` and `sd6`, step by step. -/
def yTP : Vec ℚ := vec [-1000000000000 / 7000006000001, -2000000000000 / 7000006000001,
  4000001000000 / 7000006000001, 8000002000000 / 7000006000001]

def rTP : World ℚ × Bool × QP ℚ := (tp9.solve (envTP yTP)).getD (tp9, false, q13)

theorem sTP : tp9.solve (envTP yTP) = some (rTP.1, true, rTP.2.2) := by
  obtain ⟨r, hr⟩ := Option.isSome_iff_exists.1 (by decide +kernel : (tp9.solve (envTP yTP)).isSome = true)
  have h1 : rTP = r := by unfold rTP; rw [hr]; rfl
  have h2 : rTP.2.1 = true := by decide +kernel
  rw [hr, ← h2, h1]

theorem solveTP {g : Ghost} (h : Hist dTP 1000 Careful tp9 g) (c : g.clean) :
    PlainSolve dTP 1000 tp9 g 0 (envTP yTP) rTP.1 true rTP.2.2 where
  hist := h.mono fun _ _ h => ⟨h.1, h.2.1⟩
  allowed := ⟨by decide +kernel, contractTP rfl
    (fun h => absurd (congrArg Option.isSome h) (by decide +kernel : tp9.ctl.sol.isSome ≠ false)) (by decide +kernel)⟩
  ps := by decide +kernel
  plain := by decide +kernel
  clean := fun _ => c
  honest := honestOf (by decide +kernel)
  solve := sTP

theorem onPlant1 : (tp9.cons 0).userData.OnPlant dTP d 0 0 (m7.cons 0).userData := by
  refine ⟨rfl, ?_, rfl⟩
  unfold OnPart; decide +kernel

theorem onPlant2 : (tp9.cons 1).userData.OnPlant dTP d 2 1 (sd6.cons 0).userData := by
  refine ⟨rfl, ?_, rfl⟩
  unfold OnPart; decide +kernel

theorem stateOf1 : (tp9.costs 0).userData.OnPlant dTP d 0 0 (m7.costs 0).userData := by
  refine ⟨?_, rfl, rfl⟩
  unfold OnPart; decide +kernel

theorem stateOf2 : (tp9.costs 2).userData.OnPlant dTP d 2 1 (sd6.costs 0).userData := by
  refine ⟨?_, rfl, rfl⟩
  unfold OnPart; decide +kernel

theorem controlOf1 : (tp9.costs 1).userData.OnPlant dTP d 0 0 (m7.costs 1).userData := by
  refine ⟨?_, rfl, rfl⟩
  unfold OnPart; decide +kernel

theorem controlOf2 : (tp9.costs 3).userData.OnPlant dTP d 2 1 (sd6.costs 1).userData := by
  refine ⟨?_, rfl, rfl⟩
  unfold OnPart; decide +kernel

theorem boundsOfBoth (X : Nat → Nat → ℚ) (U : Nat → ℚ) : (tp9.cons 2).userData.Holds dTP X U ↔
    (m7.cons 2).userData.Holds d (partX 0 X) (partU 2 0 1 U) ∧ (sd6.cons 2).userData.Holds d (partX 2 X) (partU 2 1 1 U) :=
  c105_bounds_of_both (n1 := 2) (n2 := 2) (m1 := 1) (m2 := 1) (N := 2) (l := evec [.fin (-1), .fin (-2)]) (u := evec [.fin 1, .fin 2])
    (l1 := evec [.fin (-1)]) (u1 := evec [.fin 1]) (l2 := evec [.fin (-2)]) (u2 := evec [.fin 2])
    (by unfold Stacked2; decide +kernel) (by unfold Stacked2; decide +kernel) rfl rfl rfl X U

theorem twoPlants : TwoPlants 2 2 1 1 2 m7 0 sd6 0 tp9 0 where
  A := by unfold Diagonal; decide +kernel
  B := by unfold Diagonal; decide +kernel
  bias := by unfold Stacked2; decide +kernel
  x0 := by unfold Stacked2; decide +kernel
  cons := by
    intro X U
    rw [(by decide +kernel : tp9.ctl.spConstr = [0, 1, 2]), (by decide +kernel : m7.ctl.spConstr = [0, 2]),
      (by decide +kernel : sd6.ctl.spConstr = [2, 0])]
    simp only [List.forall_mem_cons, List.not_mem_nil, false_imp_iff, implies_true, and_true]
    have a := c105_constraint_on_plant (d := dTP) (p := d) (by decide) (by decide) rfl onPlant1 X U
    have b := c105_constraint_on_plant (d := dTP) (p := d) (by decide) (by decide) rfl onPlant2 X U
    have c := boundsOfBoth X U
    exact ⟨fun h => ⟨⟨a.1 h.1, (c.1 h.2.2).1⟩, (c.1 h.2.2).2, b.1 h.2.1⟩, fun h => ⟨a.2 h.1.1, b.2 h.2.2, c.2 ⟨h.1.2, h.2.1⟩⟩⟩
  costs := by
    intro X U
    rw [(by decide +kernel : tp9.ctl.spCost = [1, 3, 0, 2]), (by decide +kernel : m7.ctl.spCost = [0, 1]),
      (by decide +kernel : sd6.ctl.spCost = [1, 0])]
    simp only [List.map_cons, List.map_nil, List.sum_cons, List.sum_nil]
    have a : CostData.value (bothDims 2 2 1 1 2) X U _ = _ :=
      c105_cost_on_plant (d := dTP) (p := d) (by decide) (by decide) rfl stateOf1 X U
    have b : CostData.value (bothDims 2 2 1 1 2) X U _ = _ :=
      c105_cost_on_plant (d := dTP) (p := d) (by decide) (by decide) rfl stateOf2 X U
    have c : CostData.value (bothDims 2 2 1 1 2) X U _ = _ :=
      c105_cost_on_plant (d := dTP) (p := d) (by decide) (by decide) rfl controlOf1 X U
    have e : CostData.value (bothDims 2 2 1 1 2) X U _ = _ :=
      c105_cost_on_plant (d := dTP) (p := d) (by decide) (by decide) rfl controlOf2 X U
    rw [a, b, c, e]
    show _ = (CostData.value d (partX 0 X) (partU 2 0 1 U) _ + (CostData.value d (partX 0 X) (partU 2 0 1 U) _ + 0)) +
      (CostData.value d (partX 2 X) (partU 2 1 1 U) _ + (CostData.value d (partX 2 X) (partU 2 1 1 U) _ + 0))
    show CostData.value d (partX 0 X) (partU 2 0 1 U) _ + (CostData.value d (partX 2 X) (partU 2 1 1 U) _ +
      (CostData.value d (partX 0 X) (partU 2 0 1 U) _ + (CostData.value d (partX 2 X) (partU 2 1 1 U) _ + 0))) = _
    ring

theorem freshTP {g : Ghost} (f0 : g.fresh 0) (f2 : g.fresh 2) : CostsFresh dTP tp9 g := by
  intro i hi hps
  rw [(by decide +kernel : tp9.ctl.spCost = [1, 3, 0, 2])] at hi ⊢
  simp only [List.mem_cons, List.not_mem_nil, or_false] at hi
  rcases hi with rfl | rfl | rfl | rfl
  · exact hps.elim
  · exact hps.elim
  · exact ⟨f0, rfl⟩
  · exact ⟨f2, rfl⟩

/-- C105 applies. -/
example : (∀ k < 2, rTP.1.ctl.control.e (k * 2) = rA.1.ctl.control.e k ∧ rTP.1.ctl.control.e (k * 2 + 1) = rSD.1.ctl.control.e k) ∧
    ∀ k ≤ 2, ∀ i < 2, rTP.1.ctl.trajectory.e (k * 4 + i) = rA.1.ctl.trajectory.e (k * 2 + i) := by
  obtain ⟨g1, h1, f1, c1⟩ := hm7
  obtain ⟨g2, h2, f2, c2⟩ := hsd6
  obtain ⟨g, h, k0, k2, c⟩ := htp9
  have S1 := solveM7 h1 c1
  have S2 := solveSD h2 c2
  have S := solveTP h c
  have PA := psd_of_pd (c29_hessian S1.hist (fun _ _ h => h.2) S1.allowed (by decide +kernel) sA)
  have PB := psd_of_pd (c29_hessian S2.hist (fun _ _ h => h.2) S2.allowed (by decide +kernel) sSD)
  have PC := psd_of_pd (c29_hessian S.hist (fun _ _ h => h.2) S.allowed (by decide +kernel) sTP)
  rw [(by decide +kernel : rA.2.2.nrVar = rA.2.2.c.rows)] at PA
  rw [(by decide +kernel : rSD.2.2.nrVar = rSD.2.2.c.rows)] at PB
  rw [(by decide +kernel : rTP.2.2.nrVar = rTP.2.2.c.rows)] at PC
  have fr1 : CostsFresh d m7 g1 := by
    intro i hi hps
    rw [(by decide +kernel : m7.ctl.spCost = [0, 1])] at hi ⊢
    simp only [List.mem_cons, List.not_mem_nil, or_false] at hi
    rcases hi with rfl | rfl
    · exact ⟨f1, rfl⟩
    · exact hps.elim
  have fr2 : CostsFresh d sd6 g2 := by
    intro i hi hps
    rw [(by decide +kernel : sd6.ctl.spCost = [1, 0])] at hi ⊢
    simp only [List.mem_cons, List.not_mem_nil, or_false] at hi
    rcases hi with rfl | rfl
    · exact hps.elim
    · exact ⟨f2, rfl⟩
  obtain ⟨a, b⟩ := c105_same_results S1 S2 S twoPlants fr1 fr2 (freshTP k0 k2)
    (optimal_of_stationary PA (by decide +kernel) (by decide +kernel))
    (optimal_of_stationary PB (by decide +kernel) (by decide +kernel))
    (optimal_of_stationary PC (by decide +kernel) (by decide +kernel))
    (by decide +kernel) (by decide +kernel) (by decide +kernel)
  refine ⟨fun k hk => ⟨?_, ?_⟩, fun k hk i hi => (b k hk).1 i hi⟩
  · have := (a k hk).1 0 Nat.one_pos
    simpa using this
  · have := (a k hk).2 0 Nat.one_pos
    simpa using this

end Ex
end Copra
