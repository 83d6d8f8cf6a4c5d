import Verif.Props.Results
import Verif.Props.Same

/-! # A concrete program over ℚ: the hypotheses of the system-level theorems are met

A double integrator (two states, one control, two steps) with five constraints and four costs.  The worlds
below are computed by the model and every claim about them is checked by evaluation in the kernel. -/

namespace Copra
open Spec

set_option linter.unusedSectionVars false
set_option maxRecDepth 100000

namespace World

variable {K : Type} [Zero K] [One K] [Add K] [Sub K] [Neg K] [Mul K] [Arith K]

/-- The state after a call (also after an exception). -/
def after (dmax : K) (w : World K) (op : Op K) : World K :=
  match w.step dmax op with
  | .ok w' => w'
  | .thrown _ w' => w'
  | .ub => w

/-- The call returns normally. -/
def okB (dmax : K) (w : World K) (op : Op K) : Bool :=
  match w.step dmax op with
  | .ok _ => true
  | _ => false

theorem okB_step {dmax : K} {w : World K} {op : Op K} (h : okB dmax w op = true) : w.step dmax op = .ok (after dmax w op) := by
  unfold okB at h
  unfold after
  cases hs : w.step dmax op <;> rw [hs] at h <;> first | rfl | cases h

theorem hist_after {d : Dims} {dmax : K} {E : World K → Op K → Prop} {w : World K} {g : Ghost} {op : Op K}
    (h : Hist d dmax E w g) (ho : OpOk d w g op) (he : E w op) (hk : okB dmax w op = true) :
    Hist d dmax E (after dmax w op) (g.next w True op) := .ok h ho he (okB_step hk)

end World

namespace Ex
open World

/-- Matrix from rows. -/
def mat (r c : Nat) (l : List (List ℚ)) : Mat ℚ := ⟨r, c, fun i j => (l.getD i []).getD j 0⟩
/-- Vector from entries. -/
def vec (l : List ℚ) : Vec ℚ := ⟨l.length, fun i => l.getD i 0⟩
/-- Vector of finite bounds. -/
def evec (l : List (Ext ℚ)) : Vec (Ext ℚ) := ⟨l.length, fun i => l.getD i (.fin 0)⟩

def d : Dims := ⟨2, 1, 2⟩

/-- Uninitialised memory full of sevens. -/
def jk : Junk ℚ := ⟨fun _ _ _ => 7, fun _ _ => 7, fun _ _ => .fin 7⟩

/-- The constraint objects of the program. -/
def theCons (i : Nat) : Constr ℚ :=
  match i with
  | 0 => Constr.mkTrajectory (mat 1 2 [[1, 0]]) (evec [.fin 5]) true
  | 1 => Constr.mkControl (mat 1 2 [[1, 1]]) (evec [.fin 3]) true
  | 2 => Constr.mkCtrlBound (evec [.fin (-1)]) (evec [.fin 1])
  | 3 => Constr.mkTrajBound (evec [.ninf, .ninf]) (evec [.fin 10, .pinf])
  | 4 => Constr.mkMixed (mat 1 2 [[0, 1]]) (mat 1 1 [[1]]) (evec [.fin 4]) true
  | 5 => Constr.mkCtrlBound (evec [.fin 0]) (evec [.fin 0])
  | 6 => Constr.mkTrajectory (mat 2 3 [[1, 0, 0], [0, 1, 0]]) (evec [.fin 0, .fin 0]) true
  | _ => Constr.mkTrajectory (mat 1 6 [[0, 0, 0, 0, 0, 1]]) (evec [.fin 0]) false

/-- The cost objects of the program. -/
def theCosts (i : Nat) : Cost ℚ :=
  match i with
  | 0 => Cost.mkTrajectory (mat 2 2 [[1, 0], [0, 1]]) (vec [0, 0])
  | 1 => Cost.mkControl (mat 1 1 [[1]]) (vec [1])
  | 2 => Cost.mkTarget (mat 1 2 [[1, 1]]) (vec [2])
  | 3 => Cost.mkMixed (mat 1 2 [[0, 1]]) (mat 1 1 [[1]]) (vec [0])
  | _ => Cost.mkControl (mat 1 2 [[1, -1]]) (vec [0])

def solver : Solver ℚ := ⟨.quadProgDense, Vec.zero 0⟩

def w0 : World ℚ where
  pss := fun _ => PreviewSystem.default
  cons := theCons
  costs := theCosts
  extCons := fun _ => 1
  extCosts := fun _ => 1
  ctl := LMPC.construct false solver

theorem w0_init : World.Init w0 := by
  refine ⟨fun _ => rfl, ?_, ?_, false, solver, rfl⟩
  · intro i
    show World.FreshConstr (theCons i)
    unfold World.FreshConstr theCons
    split
    · exact .inl ⟨_, _, _, rfl⟩
    · exact .inr (.inl ⟨_, _, _, rfl⟩)
    · exact .inr (.inr (.inr (.inr ⟨_, _, rfl⟩)))
    · exact .inr (.inr (.inr (.inl ⟨_, _, rfl⟩)))
    · exact .inr (.inr (.inl ⟨_, _, _, _, rfl⟩))
    · exact .inr (.inr (.inr (.inr ⟨_, _, rfl⟩)))
    · exact .inl ⟨_, _, _, rfl⟩
    · exact .inl ⟨_, _, _, rfl⟩
  · intro i
    show World.FreshCost (theCosts i)
    unfold World.FreshCost theCosts
    split
    · exact .inl ⟨_, _, rfl⟩
    · exact .inr (.inr (.inl ⟨_, _, rfl⟩))
    · exact .inr (.inl ⟨_, _, rfl⟩)
    · exact .inr (.inr (.inr ⟨_, _, _, rfl⟩))
    · exact .inr (.inr (.inl ⟨_, _, rfl⟩))

/-- An environment whose solver always succeeds with zeros, except that it answers `x` on problems with two
variables. -/
def env (x : Vec ℚ) (ok : Bool) : SolveEnv ℚ where
  junk := jk
  inverse := fun M => ⟨M.rows, M.cols, fun i j => if i = j then 1 / M.e i i else 0⟩
  answer := fun q => (ok, if q.nrVar = 2 then x else Vec.zero q.nrVar)
  t0 := 10
  t1 := 20
  t2 := 25
  t3 := 31

theorem env_answer {x : Vec ℚ} {ok : Bool} (hx : x.rows = 2) (q : QP ℚ) : ((env x ok).answer q).2.rows = q.nrVar := by
  show (if q.nrVar = 2 then x else Vec.zero q.nrVar).rows = q.nrVar
  split
  · next h => rw [hx, h]
  · rfl

theorem contract {x : Vec ℚ} {ok : Bool} {l : LMPC ℚ} (hx : x.rows = 2) (hs : l.sol ≠ none) (hi : l.isInit = false) :
    SolveContract d (env x ok) l :=
  ⟨hs, fun q _ _ => env_answer hx q, fun h => by rw [hi] at h; cases h⟩

/-- The system: `x+ = [[1,1],[0,1]] x + [0;1] u`, `x0 = (1, 0)`, two steps. -/
def opSys : Op ℚ := .system 0 (mat 2 2 [[1, 1], [0, 1]]) (mat 2 1 [[0], [1]]) (vec [0, 0]) (vec [1, 0]) 2
def opCtl : Op ℚ := .constructPs false solver 0 jk

def w1 := after 1000 w0 opSys
def w2 := after 1000 w1 opCtl
def w3 := after 1000 w2 (.addConstraint 0 jk)
def w4 := after 1000 w3 (.addConstraint 1 jk)
def w5 := after 1000 w4 (.addConstraint 2 jk)
def w6 := after 1000 w5 (.addConstraint 3 jk)
def w7 := after 1000 w6 (.addConstraint 4 jk)
def w8 := after 1000 w7 (.addCost 0 jk)
def w9 := after 1000 w8 (.addCost 1 jk)
def w10 := after 1000 w9 (.addCost 2 jk)
def w11 := after 1000 w10 (.addCost 3 jk)
def w12 := after 1000 w11 (.weight 1 3)

def g3 := Ghost.start.next w2 True (.addConstraint 0 jk)

/-- The extra conditions used by the theorems, all at once. -/
def Careful (w : World ℚ) (op : Op ℚ) : Prop := NoBoundSpan w op ∧ NonnegWeights w op ∧ NoRemoval w op

/-- What the client knows after these calls. -/
def g12 : Ghost :=
  ⟨fun j => ((((False ∨ (True ∧ j = 0)) ∨ (True ∧ j = 1)) ∨ (True ∧ j = 2)) ∨ (True ∧ j = 3)) ∨ (True ∧ j = 4),
   fun j => (((False ∨ (True ∧ j = 0)) ∨ (True ∧ j = 1)) ∨ (True ∧ j = 2)) ∨ (True ∧ j = 3),
   fun j => (((False ∨ (True ∧ j = 0)) ∨ (True ∧ j = 1)) ∨ (True ∧ j = 2)) ∨ (True ∧ j = 3), True⟩

theorem h2 : Hist d 1000 Careful w2 ⟨fun _ => False, fun _ => False, fun _ => False, True⟩ := by
  have a1 := hist_after (d := d) (dmax := 1000) (E := Careful) (op := opSys) (.start w0_init) ⟨rfl, rfl, rfl⟩
    ⟨trivial, trivial, trivial⟩ (by decide +kernel)
  exact hist_after (op := opCtl) a1 (show HasSystem w1 0 by unfold HasSystem; decide +kernel)
    ⟨trivial, trivial, trivial⟩ (by decide +kernel)

theorem h7 : Hist d 1000 Careful w7 ⟨fun j => ((((False ∨ (True ∧ j = 0)) ∨ (True ∧ j = 1)) ∨ (True ∧ j = 2)) ∨ (True ∧ j = 3)) ∨ (True ∧ j = 4),
    fun _ => False, fun _ => False, True⟩ := by
  have a3 := hist_after (op := .addConstraint 0 jk) h2 (fun _ => (by decide +kernel)) ⟨trivial, trivial, trivial⟩ (by decide +kernel)
  have a4 := hist_after (op := .addConstraint 1 jk) a3 (fun _ => (by decide +kernel : w3.ctl.spBoundConstr = [])) ⟨trivial, trivial, trivial⟩
    (by decide +kernel : okB 1000 w3 _ = true)
  have a5 := hist_after (op := .addConstraint 2 jk) a4 (fun _ => (by decide +kernel : w4.ctl.spBoundConstr = [])) ⟨trivial, trivial, trivial⟩
    (by decide +kernel : okB 1000 w4 _ = true)
  have a6 := hist_after (op := .addConstraint 3 jk) a5 (fun h => absurd h (by decide +kernel : (w5.cons 3).kind ≠ .ctrlBound))
    ⟨trivial, trivial, trivial⟩ (by decide +kernel : okB 1000 w5 _ = true)
  exact hist_after (op := .addConstraint 4 jk) a6 (fun h => absurd h (by decide +kernel : (w6.cons 4).kind ≠ .ctrlBound))
    ⟨trivial, trivial, trivial⟩ (by decide +kernel : okB 1000 w6 _ = true)

/-- The program up to here is a history with all the good properties. -/
theorem h12 : Hist d 1000 Careful w12 g12 := by
  have a8 := hist_after (op := .addCost 0 jk) h7 trivial ⟨trivial, trivial, trivial⟩ (by decide +kernel : okB 1000 w7 _ = true)
  have a9 := hist_after (op := .addCost 1 jk) a8 trivial ⟨trivial, trivial, trivial⟩ (by decide +kernel : okB 1000 w8 _ = true)
  have a10 := hist_after (op := .addCost 2 jk) a9 trivial ⟨trivial, trivial, trivial⟩ (by decide +kernel : okB 1000 w9 _ = true)
  have a11 := hist_after (op := .addCost 3 jk) a10 trivial ⟨trivial, trivial, trivial⟩ (by decide +kernel : okB 1000 w10 _ = true)
  exact hist_after (op := .weight 1 3) a11 trivial ⟨trivial, by show (0 : ℚ) ≤ 3; norm_num, trivial⟩ (by decide +kernel : okB 1000 w11 _ = true)

end Ex
end Copra
