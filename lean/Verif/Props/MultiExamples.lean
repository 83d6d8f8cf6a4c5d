import Verif.Props.Multi
import Verif.Props.EndToEndExamples

/-! # C62, C63 on a concrete program with two controllers that share a system, a constraint and costs -/

namespace Copra
open Spec

set_option linter.unusedSectionVars false
set_option maxRecDepth 100000

section
variable {K : Type} [Field K] {n : Nat}

namespace MWorld

/-- The state after a call (also after an exception). -/
def after (dmax : K) (w : MWorld K n) (k : Fin n) (op : Op K) : MWorld K n :=
  match w.step dmax k op with
  | .ok w' => w'
  | .thrown _ w' => w'
  | .ub => w

/-- The call returns normally. -/
def okB (dmax : K) (w : MWorld K n) (k : Fin n) (op : Op K) : Bool :=
  match w.step dmax k op with
  | .ok _ => true
  | _ => false

theorem okB_step {dmax : K} {w : MWorld K n} {k : Fin n} {op : Op K} (h : okB dmax w k op = true) :
    w.step dmax k op = .ok (after dmax w k op) := by
  unfold okB at h
  unfold after
  cases hs : w.step dmax k op <;> rw [hs] at h <;> first | rfl | cases h

theorem hist_after {d : Dims} {dmax : K} {E : World K → Op K → Prop} {w : MWorld K n} {g : MGhost n} {k : Fin n}
    {op : Op K} (h : MHist d dmax E w g) (ho : OpOk d (w.view k) (g.view k) op) (he : E (w.view k) op)
    (hk : okB dmax w k op = true) : MHist d dmax E (after dmax w k op) (g.next w k True op) := .ok h ho he (okB_step hk)

end MWorld
end

namespace Ex.Multi
open MWorld

/-- The conditions on the calls. -/
def Nice (w : World ℚ) (op : Op ℚ) : Prop := NoBoundSpan w op ∧ NonnegWeights w op

theorem nice_about : AboutObjects Nice := aboutObjects_noBoundSpan.and aboutObjects_nonnegWeights

def m0 : MWorld ℚ 2 where
  pss := fun _ => PreviewSystem.default
  cons := theCons
  costs := theCosts
  extCons := fun _ => 0
  extCosts := fun _ => 0
  ctls := fun _ => LMPC.construct false solver

theorem m0_init : MWorld.Init m0 :=
  ⟨fun _ => rfl, w0_init.2.1, w0_init.2.2.1, fun _ => ⟨false, solver, rfl⟩⟩

def x0 : Vec ℚ := vec [1000000 / 1000001, 1000000 / 1000001]
def best : SolveEnv ℚ := env x0 true

/-- Both controllers are given system 0, constraint 0 and cost 1; then the first one solves.  The client keeps no
`shared_ptr` of its own. -/
def m1 := after 1000 m0 0 opSys
def m2 := after 1000 m1 0 opCtl
def m3 := after 1000 m2 1 opCtl
def m4 := after 1000 m3 0 (.addConstraint 0 jk)
def m5 := after 1000 m4 1 (.addConstraint 0 jk)
def m6 := after 1000 m5 0 (.addCost 1 jk)
def m7 := after 1000 m6 1 (.addCost 1 jk)
def m8 := after 1000 m7 0 (.solve best)

def g1 : MGhost 2 := MGhost.start.next m0 0 True opSys
def g2 : MGhost 2 := g1.next m1 0 True opCtl
def g3 : MGhost 2 := g2.next m2 1 True opCtl
def g4 : MGhost 2 := g3.next m3 0 True (.addConstraint 0 jk)
def g5 : MGhost 2 := g4.next m4 1 True (.addConstraint 0 jk)
def g6 : MGhost 2 := g5.next m5 0 True (.addCost 1 jk)
def g7 : MGhost 2 := g6.next m6 1 True (.addCost 1 jk)
def g8 : MGhost 2 := g7.next m7 0 True (.solve best)

theorem h3 : MHist d 1000 Nice m3 g3 := by
  have a1 := hist_after (d := d) (dmax := 1000) (E := Nice) (op := opSys) (k := (0 : Fin 2)) (.start m0_init) ⟨rfl, rfl, rfl⟩
    ⟨trivial, trivial⟩ (by decide +kernel)
  have a2 := hist_after (op := opCtl) (k := 0) a1 (show HasSystem (m1.view 0) 0 by unfold HasSystem; decide +kernel)
    ⟨trivial, trivial⟩ (by decide +kernel : okB 1000 m1 0 _ = true)
  exact hist_after (op := opCtl) (k := 1) a2 (show HasSystem (m2.view 1) 0 by unfold HasSystem; decide +kernel)
    ⟨trivial, trivial⟩ (by decide +kernel : okB 1000 m2 1 _ = true)

theorem h5 : MHist d 1000 Nice m5 g5 := by
  have a4 := hist_after (op := .addConstraint 0 jk) (k := 0) h3
    (fun _ => (by decide +kernel : (m3.ctls 0).spBoundConstr = [])) ⟨trivial, trivial⟩ (by decide +kernel)
  exact hist_after (op := .addConstraint 0 jk) (k := 1) a4
    (fun _ => (by decide +kernel : (m4.ctls 1).spBoundConstr = [])) ⟨trivial, trivial⟩ (by decide +kernel : okB 1000 m4 1 _ = true)

theorem h7 : MHist d 1000 Nice m7 g7 := by
  have a6 := hist_after (op := .addCost 1 jk) (k := 0) h5 trivial ⟨trivial, trivial⟩ (by decide +kernel)
  exact hist_after (op := .addCost 1 jk) (k := 1) a6 trivial ⟨trivial, trivial⟩ (by decide +kernel : okB 1000 m6 1 _ = true)

theorem o_of {w : MWorld ℚ 2} {k : Fin 2} (x : Vec ℚ) (hx : x.rows = 2) (ok : Bool) (hs : (w.ctls k).sol.isSome = true)
    (hp : (w.ctls k).ps ≠ none) (hi : (w.ctls k).isInit = false) (g : Ghost) : OpOk d (w.view k) g (.solve (env x ok)) :=
  ⟨hp, contract hx (fun e => by have e : (w.ctls k).sol = none := e; rw [e] at hs; cases hs) hi⟩

theorem o7 : OpOk d (m7.view 0) (g7.view 0) (.solve best) := o_of _ rfl _ (by decide +kernel) (by decide +kernel) (by decide +kernel) _

theorem h8 : MHist d 1000 Nice m8 g8 :=
  hist_after (op := .solve best) (k := 0) h7 o7 ⟨trivial, trivial⟩ (by decide +kernel)

theorem o8 : OpOk d (m8.view 1) (g8.view 1) (.solve best) := o_of _ rfl _ (by decide +kernel) (by decide +kernel) (by decide +kernel) _

/-- Nothing was dropped: each controller keeps the shared objects alive for the other one. -/
theorem lists8 : (m8.ctls 0).spConstr = [0] ∧ (m8.ctls 1).spConstr = [0] ∧ (m8.ctls 0).spCost = [1] ∧ (m8.ctls 1).spCost = [1] := by
  decide +kernel

def r9 : MWorld ℚ 2 × Bool × QP ℚ := (m8.solve best 1).getD (m8, false, q13)
def m9 := r9.1
def q9 := r9.2.2

theorem s9 : m8.solve best 1 = some (m9, true, q9) := by
  have e : (m8.solve best 1).isSome = true := by decide +kernel
  obtain ⟨r, hr⟩ := Option.isSome_iff_exists.1 e
  have h1 : r9 = r := by unfold r9; rw [hr]; rfl
  have h2 : r9.2.1 = true := by decide +kernel
  unfold m9 q9
  rw [hr, ← h2, h1]

theorem honest8 : ∀ i ∈ (m8.ctls 1).spConstr, (m8.cons i).userData.Honest := by
  intro i hi
  rw [lists8.2.1] at hi
  rw [List.mem_singleton.1 hi]
  have : (m8.cons 0).kind = .trajectory := by decide +kernel
  unfold Constr.userData
  rw [this]
  trivial

theorem plainCost {w : MWorld ℚ 2} {l : List Nat} (hl : l = [1]) (hk : (w.costs 1).kind = .control) :
    ∀ i ∈ l, ¬ (w.costs i).userData.PerStepState d := by
  intro i hi
  rw [hl] at hi
  rw [List.mem_singleton.1 hi]
  unfold Cost.userData
  rw [hk]
  exact id

theorem opt9 : IsOptimal q9 (best.answer q9).2.e := by
  have P := c62_hessian nice_about (fun _ _ h => h.2) h8 o8 (by decide +kernel) s9
  rw [(by decide +kernel : q9.nrVar = q9.c.rows)] at P
  exact optimal_of_stationary (psd_of_pd P) (by decide +kernel) (by decide +kernel)

/-- C62 applies to the second controller, after the first one has solved, with every back end. -/
example (s : SolverKind) (junk : Junk ℚ) :=
  c62_end_to_end (s := s) (junk := junk) nice_about (fun _ _ h => h.1) h8 o8 (by decide +kernel) (fun _ => trivial) honest8
    (fun i hi hp => absurd hp (plainCost lists8.2.2.2 (by decide +kernel) i hi)) s9 (by decide +kernel : (m8.ctls 1).ps = some 0)
    (by decide +kernel) (backEndOptimal_of (by decide +kernel) (by decide +kernel) (by decide +kernel) opt9)

/-- The control it finds is that minimiser. -/
example : (m9.ctls 1).control.e 0 = 1000000 / 1000001 := by decide +kernel

example := c62_solve_defined nice_about h8 o8
example := c62_feasible_set nice_about (fun _ _ h => h.1) h8 o8 (by decide +kernel) (fun _ => trivial) honest8 s9
  (by decide +kernel : (m8.ctls 1).ps = some 0)

theorem reach : ∀ {w : MWorld ℚ 2} {g : MGhost 2}, MHist d 1000 Nice w g → MWorld.Reachable 1000 w := by
  intro w g h
  induction h with
  | start h => exact .start h
  | ok _ _ _ hs ih => exact .ok ih hs
  | thrown _ _ _ hs ih => exact .thrown ih hs

example := c62_registries (reach h8) 1

/-- C62 (dropping): with the objects still in the first controller nothing is dropped; had the first controller cleared
its lists, the second one's solve would have dropped them. -/
example := c62_drops (reach h8) s9
def m9' := after 1000 (after 1000 m8 0 .clearConstraints) 0 .clearCosts
example : ((m9'.solve best 1).map fun r => ((r.1.ctls 1).spConstr, (r.1.ctls 1).spCost)) = some ([], []) := by decide +kernel
example : ((m8.solve best 1).map fun r => ((r.1.ctls 1).spConstr, (r.1.ctls 1).spCost)) = some ([0], [1]) := by decide +kernel

/-! ## C63 -/

/-- What happens between: the first controller solves. -/
theorem l78 : MLater d 1000 Nice (fun j op => j ≠ (1 : Fin 2) ∧ ¬ OnObject op) m7 g7 m8 g8 :=
  .ok .refl o7 ⟨trivial, trivial⟩ ⟨by decide, id⟩ (okB_step (op := .solve best) (k := 0) (by decide +kernel))

theorem o71 : OpOk d (m7.view 1) (g7.view 1) (.solve best) := o_of _ rfl _ (by decide +kernel) (by decide +kernel) (by decide +kernel) _

/-- C63 (partial) applies: the second controller's problem does not depend on whether the first one has solved. -/
example : ∃ v q v' q', m7.solve best 1 = some (v, true, q) ∧ m8.solve best 1 = some (v', true, q') ∧ QPEq q q' := by
  have e : (m7.solve best 1).isSome = true := by decide +kernel
  obtain ⟨⟨v, b, q⟩, hr⟩ := Option.isSome_iff_exists.1 e
  have hb : b = true := by
    have : (m7.solve best 1).map (fun r => r.2.1) = some true := by decide +kernel
    rw [hr] at this
    exact Option.some.inj this
  subst hb
  have np := plainCost (w := m7) (l := (m7.ctls 1).spCost) (by decide +kernel) (by decide +kernel)
  refine ⟨v, q, _, _, hr, s9, ?_⟩
  exact c63_isolation_partial nice_about (fun _ _ h => h.1) h7 l78 (fun h => absurd h (by decide +kernel)) (fun _ => trivial)
    (fun i hi hp => absurd hp (np i hi)) (fun i hi hp => absurd hp (np i hi)) o71
    (contract rfl (fun e => absurd (congrArg Option.isSome e) (by decide +kernel : (m7.ctls 1).sol.isSome ≠ false)) (by decide +kernel))
    hr s9

example := c63_isolated nice_about h7 l78

/-! The same with the per-step trajectory cost 0 instead of the control cost. -/

def t6 := after 1000 m5 0 (.addCost 0 jk)
def t7 := after 1000 t6 1 (.addCost 0 jk)
def t8 := after 1000 t7 0 (.solve best)

theorem ht7 : ∃ g, MHist d 1000 Nice t7 g ∧ g.fresh 0 ∧ g.clean 1 := by
  have a6 := hist_after (op := .addCost 0 jk) (k := 0) h5 trivial ⟨trivial, trivial⟩ (by decide +kernel)
  exact ⟨_, hist_after (op := .addCost 0 jk) (k := 1) a6 trivial ⟨trivial, trivial⟩ (by decide +kernel : okB 1000 t6 1 _ = true),
    Or.inr ⟨trivial, rfl⟩, trivial⟩

/-- **C63 is false of the code**: with a shared cost given per step on the trajectory, a `solve` of one controller changes
the problem of another one. -/
theorem c63_false : ¬ ∀ (w w' : MWorld ℚ 2) (g g' : MGhost 2) (v v' : MWorld ℚ 2) (b b' : Bool) (q q' : QP ℚ),
    MHist d 1000 Nice w g → MLater d 1000 Nice (fun j op => j ≠ (1 : Fin 2) ∧ ¬ OnObject op) w g w' g' →
    (w.ctls 1).isInit = false → g.clean 1 → (∀ i ∈ (w.ctls 1).spCost, g.fresh i ∧ (w.ctls 1).spCost.count i = 1) →
    w.solve best 1 = some (v, b, q) → w'.solve best 1 = some (v', b', q') → QPEq q q' := by
  intro H
  obtain ⟨g, h, f, c⟩ := ht7
  have l : MLater d 1000 Nice (fun j op => j ≠ (1 : Fin 2) ∧ ¬ OnObject op) t7 g t8 _ :=
    .ok .refl (o_of (k := 0) x0 rfl true (by decide +kernel) (by decide +kernel) (by decide +kernel) _) ⟨trivial, trivial⟩
      ⟨by decide, id⟩ (okB_step (op := .solve best) (k := 0) (by decide +kernel))
  have e1 : (t7.solve best 1).isSome = true := by decide +kernel
  obtain ⟨⟨v, b, q⟩, hr⟩ := Option.isSome_iff_exists.1 e1
  have e2 : (t8.solve best 1).isSome = true := by decide +kernel
  obtain ⟨⟨v', b', q'⟩, hr'⟩ := Option.isSome_iff_exists.1 e2
  have hc : (t7.ctls 1).spCost = [0] := by decide +kernel
  have hq := H t7 t8 g _ v v' b b' q q' h l (by decide +kernel) c (by
    intro i hi
    rw [hc] at hi ⊢
    rw [List.mem_singleton.1 hi]
    exact ⟨f, rfl⟩) hr hr'
  have k1 : (t7.solve best 1).map (fun r => (r.2.2.Q.rows, r.2.2.Q.cols, r.2.2.Q.e 0 0)) = some (2, 2, (3000001 : ℚ) / 1000000) := by decide +kernel
  have k2 : (t8.solve best 1).map (fun r => decide (r.2.2.Q.e 0 0 = (3000001 : ℚ) / 1000000)) = some false := by decide +kernel
  rw [hr] at k1
  rw [hr'] at k2
  simp only [Option.map_some, Option.some.injEq, Prod.mk.injEq, decide_eq_false_iff_not] at k1 k2
  exact k2 ((hq.2.2.2.1.2.2 0 (by omega) 0 (by omega)).symm.trans k1.2.2)

end Ex.Multi
end Copra
