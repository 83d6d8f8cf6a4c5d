import Verif.Props.AnyArith
import Verif.Props.ExWorld

/-! # C97: a program on Lean's IEEE doubles

The double integrator of `ExWorld` on `Float`, with NaN entries among the data: the hypotheses of C97 are met. -/

namespace Copra.FloatEx
open Spec World

set_option maxRecDepth 100000

/-- Left-to-right summation in double precision. -/
instance : Arith Float where
  dot _ n f g := (List.range n).foldl (fun s k => s + f k * g k) 0
  dot_congr _ n f g f' g' hf hg := by
    have : ∀ (l : List Nat) (s : Float), (∀ k ∈ l, k < n) →
        l.foldl (fun s k => s + f k * g k) s = l.foldl (fun s k => s + f' k * g' k) s := by
      intro l
      induction l with
      | nil => intros; rfl
      | cons a l ih =>
        intro s h
        rw [List.foldl_cons, List.foldl_cons, hf a (h a List.mem_cons_self), hg a (h a List.mem_cons_self)]
        exact ih _ fun k hk => h k (List.mem_cons_of_mem _ hk)
    exact this _ _ fun k hk => List.mem_range.1 hk
  micro := 1e-6

/-- Not a number. -/
def nan : Float := 0.0 / 0.0

def mat (r c : Nat) (l : List (List Float)) : Mat Float := ⟨r, c, fun i j => (l.getD i []).getD j nan⟩
def vec (l : List Float) : Vec Float := ⟨l.length, fun i => l.getD i nan⟩
def evec (l : List (Ext Float)) : Vec (Ext Float) := ⟨l.length, fun i => l.getD i (.fin nan)⟩
/-- Uninitialised memory full of NaNs. -/
def jk : Junk Float := ⟨fun _ _ _ => nan, fun _ _ => nan, fun _ _ => .fin nan⟩

def theCons (i : Nat) : Constr Float :=
  match i with
  | 0 => Constr.mkTrajectory (mat 1 2 [[1, 0.1]]) (evec [.fin nan]) true
  | 1 => Constr.mkCtrlBound (evec [.fin (-1)]) (evec [.fin 1e300])
  | 2 => Constr.mkTrajBound (evec [.ninf, .ninf]) (evec [.fin 10, .pinf])
  | _ => Constr.mkTrajectory (mat 2 3 [[1, 0, 0], [0, 1, 0]]) (evec [.fin 0, .fin 0]) true

def theCosts (i : Nat) : Cost Float :=
  match i with
  | 0 => Cost.mkTrajectory (mat 2 2 [[1, 0], [0, 1]]) (vec [0, 0])
  | _ => Cost.mkControl (mat 1 1 [[1e300]]) (vec [1])

def solver : Solver Float := ⟨.quadProgDense, Vec.zero 0⟩

def w0 : World Float where
  pss := fun _ => PreviewSystem.default
  cons := theCons
  costs := theCosts
  extCons := fun _ => 1
  extCosts := fun _ => 1
  ctl := LMPC.construct false solver

theorem w0_init : World.Init w0 := by
  refine ⟨fun _ => rfl, ?_, ?_, false, solver, rfl⟩
  · intro i
    show World.FreshConstr (theCons i)
    unfold World.FreshConstr theCons
    split
    · exact .inl ⟨_, _, _, rfl⟩
    · exact .inr (.inr (.inr (.inr ⟨_, _, rfl⟩)))
    · exact .inr (.inr (.inr (.inl ⟨_, _, rfl⟩)))
    · exact .inl ⟨_, _, _, rfl⟩
  · intro i
    show World.FreshCost (theCosts i)
    unfold World.FreshCost theCosts
    split
    · exact .inl ⟨_, _, rfl⟩
    · exact .inr (.inr (.inl ⟨_, _, rfl⟩))

def env (x : Vec Float) (ok : Bool) : SolveEnv Float where
  junk := jk
  inverse := fun M => M
  answer := fun q => (ok, if q.nrVar = 2 then x else Vec.zero q.nrVar)
  t0 := 10
  t1 := 20
  t2 := 25
  t3 := 31

theorem contract {x : Vec Float} {ok : Bool} {l : LMPC Float} (hx : x.rows = 2) (hs : l.sol ≠ none) (hi : l.isInit = false) :
    SolveContract ⟨2, 1, 2⟩ (env x ok) l := by
  refine ⟨hs, fun q _ _ => ?_, fun h => by rw [hi] at h; cases h⟩
  show (if q.nrVar = 2 then x else Vec.zero q.nrVar).rows = q.nrVar
  split
  · next h => rw [hx, h]
  · rfl

/-- The entry of `A` in the lower left corner is a NaN. -/
def opSys : Op Float := .system 0 (mat 2 2 [[1, 0.1], [nan, 1]]) (mat 2 1 [[0.005], [0.1]]) (vec [0, 0]) (vec [1, 0]) 2
def opCtl : Op Float := .constructPs false solver 0 jk

def w1 := after nan w0 opSys
def w2 := after nan w1 opCtl
def w3 := after nan w2 (.addConstraint 0 jk)
def w4 := after nan w3 (.addConstraint 1 jk)
def w5 := after nan w4 (.addConstraint 2 jk)
def w6 := after nan w5 (.addCost 0 jk)
def w7 := after nan w6 (.addCost 1 jk)

def d : Dims := ⟨2, 1, 2⟩

theorem h7 : ∃ g, Hist d nan AnyOp w7 g := by
  have a1 := hist_after (d := d) (dmax := nan) (E := AnyOp) (op := opSys) (.start w0_init) ⟨rfl, rfl, rfl⟩ trivial (by decide +kernel)
  have a2 := hist_after (op := opCtl) a1 (show HasSystem w1 0 by unfold HasSystem; decide +kernel) trivial (by decide +kernel)
  have a3 := hist_after (op := .addConstraint 0 jk) a2 (fun _ => (by decide +kernel)) trivial (by decide +kernel)
  have a4 := hist_after (op := .addConstraint 1 jk) a3 (fun _ => (by decide +kernel : w3.ctl.spBoundConstr = [])) trivial
    (by decide +kernel : okB nan w3 _ = true)
  have a5 := hist_after (op := .addConstraint 2 jk) a4 (fun h => absurd h (by decide +kernel : (w4.cons 2).kind ≠ .ctrlBound)) trivial
    (by decide +kernel : okB nan w4 _ = true)
  have a6 := hist_after (op := .addCost 0 jk) a5 trivial trivial (by decide +kernel : okB nan w5 _ = true)
  exact ⟨_, hist_after (op := .addCost 1 jk) a6 trivial trivial (by decide +kernel : okB nan w6 _ = true)⟩

def rF := (w7.solve (env (vec [0.25, nan]) true)).getD (w7, false, w7.ctl.qp)

theorem sF : w7.solve (env (vec [0.25, nan]) true) = some (rF.1, true, rF.2.2) := by
  have e : (w7.solve (env (vec [0.25, nan]) true)).isSome = true := by decide +kernel
  have f : rF.2.1 = true := by decide +kernel
  obtain ⟨r, hr⟩ := Option.isSome_iff_exists.1 e
  have : rF = r := by unfold rF; rw [hr]; rfl
  rw [hr, ← f, this]

/-- A double-precision program with NaNs among the data: its solve returns, with a well-sized problem of three
inequalities, and hands back the solver's answer. -/
example : ∃ w' q, w7.solve (env (vec [0.25, nan]) true) = some (w', true, q) ∧ WellSized q ∧ q.Aineq.rows = 6 ∧
    w'.ctl.control = vec [0.25, nan] ∧ w'.ctl.trajectory.rows = 6 := by
  obtain ⟨g, h⟩ := h7
  have ok : OpOk d w7 g (.solve (env (vec [0.25, nan]) true)) :=
    ⟨by decide +kernel, contract (x := vec [0.25, nan]) (ok := true) (l := w7.ctl) rfl (by decide +kernel) (by decide +kernel)⟩
  obtain ⟨w', b, q, h1, -, h3, -⟩ := c97_solve h ok
  rw [sF] at h1
  injection h1 with h1
  obtain rfl := congrArg (fun t => t.2.2) h1
  refine ⟨_, _, sF, h3, by decide +kernel, (c97_control_is_answer (by decide +kernel) sF).trans ?_, (c97_results h ok sF).2⟩
  show (if rF.2.2.nrVar = 2 then vec [0.25, nan] else Vec.zero rF.2.2.nrVar) = vec [0.25, nan]
  rw [if_pos (by decide +kernel)]

/-- A constraint of the wrong size is refused, on doubles as on exact numbers: the hypotheses of `c97_defined` are met
and the call throws. -/
example : ∃ g w', Hist d nan AnyOp w7 g ∧ OpOk d w7 g (.addConstraint 3 jk) ∧ OpSafe d w7 (.addConstraint 3 jk) ∧
    w7.step nan (.addConstraint 3 jk) ≠ .ub ∧ w7.step nan (.addConstraint 3 jk) = .thrown .domainError w' := by
  obtain ⟨g, h⟩ := h7
  have o : OpOk d w7 g (.addConstraint 3 jk) := fun h => absurd h (by decide +kernel : (w7.cons 3).kind ≠ .ctrlBound)
  have s : OpSafe d w7 (.addConstraint 3 jk) := by dsimp only [OpSafe]; decide +kernel
  refine ⟨g, after nan w7 (.addConstraint 3 jk), h, o, s, c97_defined h o s, ?_⟩
  have t : (match w7.step nan (.addConstraint 3 jk) with | .thrown e _ => decide (e = .domainError) | _ => false) = true := by
    decide +kernel
  unfold after
  revert t
  cases w7.step nan (.addConstraint 3 jk) <;> intro t
  · cases t
  · rw [of_decide_eq_true t]
  · cases t

end Copra.FloatEx
