import Verif.Props.MultiAbort
import Verif.Props.MultiExamples

/-! # C106 on a concrete program: the first of two controllers that share everything has a solver that throws -/

namespace Copra
open Spec

set_option linter.unusedSectionVars false
set_option maxRecDepth 100000

namespace Ex.Multi
open MWorld

theorem nice_ignores : IgnoresSolve Nice := by
  refine ⟨fun _ _ => ⟨trivial, trivial⟩, fun _ _ _ => ⟨trivial, trivial⟩, fun _ _ _ => ⟨trivial, trivial⟩, ?_⟩
  rintro w w' op ⟨a, b, rfl⟩ h
  cases op <;> exact h

theorem mahist_of {w : MWorld ℚ 2} {g : MGhost 2} (h : MHist d 1000 Nice w g) : MAHist d 1000 Nice w g := by
  induction h with
  | start h => exact .start h
  | ok _ ho he hs ih => exact .ok ih ho he hs
  | thrown _ ho he hs ih => exact .thrown ih ho he hs

/-- The state after the solver of controller `k` threw, and the problem it was given. -/
def mab (w : MWorld ℚ 2) (e : SolveEnv ℚ) (k : Fin 2) : MWorld ℚ 2 × QP ℚ := (w.solveThrow e k).getD (w, q13)

theorem mab_eq {w : MWorld ℚ 2} {e : SolveEnv ℚ} {k : Fin 2} (h : (w.solveThrow e k).isSome = true) :
    w.solveThrow e k = some ((mab w e k).1, (mab w e k).2) := by
  obtain ⟨r, hr⟩ := Option.isSome_iff_exists.1 h
  unfold mab
  rw [hr]
  rfl

/-- The first controller's solver throws in `m7`; then the second controller solves. -/
def ma8 := (mab m7 best 0).1
theorem ta8 : m7.solveThrow best 0 = some (ma8, (mab m7 best 0).2) := mab_eq (by decide +kernel)
def ga8 : MGhost 2 := g7.next m7 0 True (.solve best)
theorem ha8 : MAHist d 1000 Nice ma8 ga8 := .aborted (mahist_of h7) o7 ta8

theorem oa8 : OpOk d (ma8.view 1) (ga8.view 1) (.solve best) :=
  o_of _ rfl _ (by decide +kernel) (by decide +kernel) (by decide +kernel) _

def ra9 : MWorld ℚ 2 × Bool × QP ℚ := (ma8.solve best 1).getD (ma8, false, q13)
def ma9 := ra9.1

theorem sa9 : ma8.solve best 1 = some (ma9, true, ra9.2.2) := by
  have e : (ma8.solve best 1).isSome = true := by decide +kernel
  obtain ⟨r, hr⟩ := Option.isSome_iff_exists.1 e
  have h1 : ra9 = r := by unfold ra9; rw [hr]; rfl
  have h2 : ra9.2.1 = true := by decide +kernel
  unfold ma9
  rw [hr, ← h2, h1]

example := c106_no_new_states nice_about nice_ignores ha8
example := c106_defined nice_about nice_ignores ha8 oa8
example := c106_abort_keeps nice_about nice_ignores (mahist_of h7) o7 ta8

/-- The throwing solver left its mark nowhere: the lists are as before, nothing has a result yet. -/
example : (ma8.ctls 0).spConstr = [0] ∧ (ma8.ctls 0).spCost = [1] ∧ (ma8.ctls 0).solveTime = none ∧
    (ma8.ctls 1).spConstr = [0] ∧ (ma8.ctls 1).control.rows = 0 := by decide +kernel

theorem honesta8 : ∀ i ∈ (ma8.ctls 1).spConstr, (ma8.cons i).userData.Honest := by
  intro i hi
  rw [(by decide +kernel : (ma8.ctls 1).spConstr = [0])] at hi
  rw [List.mem_singleton.1 hi]
  have : (ma8.cons 0).kind = .trajectory := by decide +kernel
  unfold Constr.userData
  rw [this]
  trivial

theorem opta9 : IsOptimal ra9.2.2 (best.answer ra9.2.2).2.e :=
  ((QPEq.same (by decide +kernel : WellSized q9) (by decide +kernel : QPEq q9 ra9.2.2)).optimal _).1 opt9

/-- C106 (end to end) applies to the second controller after the first one's solver threw, with every back end. -/
example (s : SolverKind) (junk : Junk ℚ) :=
  c106_end_to_end (s := s) (junk := junk) nice_about nice_ignores (fun _ _ h => h.1) ha8 oa8 (by decide +kernel) (fun _ => trivial)
    honesta8 (fun i hi hp => absurd hp (plainCost (w := ma8) (l := (ma8.ctls 1).spCost) (by decide +kernel) (by decide +kernel) i hi))
    sa9 (by decide +kernel : (ma8.ctls 1).ps = some 0) (by decide +kernel)
    (backEndOptimal_of (by decide +kernel) (by decide +kernel) (by decide +kernel) opta9)

/-- The control it finds is that minimiser. -/
example : (ma9.ctls 1).control.e 0 = 1000000 / 1000001 := by decide +kernel

example := c106_feasible_set nice_about nice_ignores (fun _ _ h => h.1) ha8 oa8 (by decide +kernel) (fun _ => trivial) honesta8
  sa9 (by decide +kernel : (ma8.ctls 1).ps = some 0)

/-- The second controller, looking back: between `m7` and `ma8` the first one's solver threw. -/
theorem la78 : MALater d 1000 Nice (OnOthers (1 : Fin 2)) m7 g7 ma8 ga8 := .aborted .refl o7 ⟨by decide, id⟩ ta8

example := c106_isolated nice_about nice_ignores (mahist_of h7) la78

example : ∃ v q, m7.solve best 1 = some (v, true, q) ∧ QPEq q ra9.2.2 := by
  have e : (m7.solve best 1).isSome = true := by decide +kernel
  obtain ⟨⟨v, b, q⟩, hr⟩ := Option.isSome_iff_exists.1 e
  have hb : b = true := by
    have : (m7.solve best 1).map (fun r => r.2.1) = some true := by decide +kernel
    rw [hr] at this
    exact Option.some.inj this
  subst hb
  have np := plainCost (w := m7) (l := (m7.ctls 1).spCost) (by decide +kernel) (by decide +kernel)
  exact ⟨v, q, hr, c106_isolation nice_about nice_ignores (fun _ _ h => h.1) (mahist_of h7) la78
    (fun h => absurd h (by decide +kernel)) (fun _ => trivial)
    (fun i hi hp => absurd hp (np i hi)) (fun i hi hp => absurd hp (np i hi)) o71
    (contract rfl (fun e => absurd (congrArg Option.isSome e) (by decide +kernel : (m7.ctls 1).sol.isSome ≠ false)) (by decide +kernel))
    hr sa9⟩

/-- The first controller, after its solver threw: the second one solves, then the first one tries again, and its solver
throws again or not. -/
theorem la89 : MALater d 1000 Nice (OnOthers (0 : Fin 2)) ma8 ga8 ma9 (ga8.next ma8 1 True (.solve best)) := by
  refine .ok (op := .solve best) (k := (1 : Fin 2)) .refl oa8 ⟨trivial, trivial⟩ ⟨by decide, id⟩ ?_
  have := sa9
  unfold MWorld.solve at this
  simp only [Option.map_eq_some_iff, Prod.mk.injEq] at this
  obtain ⟨r, hr, e, -⟩ := this
  show ((ma8.view 1).step 1000 (.solve best)).map (ma8.put 1) = _
  simp only [World.step, hr]
  exact congrArg Res.ok e

theorem oa9 {g : Ghost} : OpOk d (ma9.view 0) g (.solve best) :=
  o_of _ rfl _ (by decide +kernel) (by decide +kernel) (by decide +kernel) _

example : ∃ v q, ma9.solve best 0 = some (v, true, q) ∧ QPEq (mab m7 best 0).2 q := by
  have e : (ma9.solve best 0).isSome = true := by decide +kernel
  obtain ⟨⟨v, b, q⟩, hr⟩ := Option.isSome_iff_exists.1 e
  have hb : b = true := by
    have : (ma9.solve best 0).map (fun r => r.2.1) = some true := by decide +kernel
    rw [hr] at this
    exact Option.some.inj this
  subst hb
  exact ⟨v, q, hr, c106_retry nice_about nice_ignores (fun _ _ h => h.1) (mahist_of h7) o7 ta8 la89 (fun _ => trivial)
    (plainCost (w := m7) (l := (m7.ctls 0).spCost) (by decide +kernel) (by decide +kernel))
    (fun h => absurd h (by decide +kernel : (m7.ctls 0).isInit ≠ true)) oa9 (Or.inl hr)⟩

example : QPEq (mab m7 best 0).2 (mab ma9 best 0).2 :=
  c106_retry (b2 := true) nice_about nice_ignores (fun _ _ h => h.1) (mahist_of h7) o7 ta8 la89 (fun _ => trivial)
    (plainCost (w := m7) (l := (m7.ctls 0).spCost) (by decide +kernel) (by decide +kernel))
    (fun h => absurd h (by decide +kernel : (m7.ctls 0).isInit ≠ true)) oa9 (Or.inr (mab_eq (by decide +kernel)))

/-! An `LMPC` whose solver throws next to an `InitialStateLMPC` with which it shares the system and a constraint. -/

def opR : Op ℚ := .resetInitialStateCost (mat 2 2 [[1, 0], [0, 1]]) (vec [1/10, 1/5])
def opB : Op ℚ := .resetInitialStateBounds (evec [.fin (-5), .fin (-5)]) (evec [.fin 5, .fin 5])
def n2 := after 1000 m1 0 (.constructPs true solver 0 jk)
def n3 := after 1000 n2 1 opCtl
def n4 := after 1000 n3 0 (.addConstraint 0 jk)
def n5 := after 1000 n4 0 (.addConstraint 2 jk)
def n6 := after 1000 n5 0 (.addCost 0 jk)
def n7 := after 1000 n6 0 opR
def n8 := after 1000 n7 0 opB
def n9 := after 1000 n8 1 (.addConstraint 0 jk)
def n10 := after 1000 n9 1 (.addCost 1 jk)
def n11 := (mab n10 best 1).1

theorem hn10 : ∃ g, MHist d 1000 Nice n10 g ∧ g.fresh 0 := by
  have a1 := hist_after (d := d) (dmax := 1000) (E := Nice) (op := opSys) (k := (0 : Fin 2)) (.start m0_init) ⟨rfl, rfl, rfl⟩
    ⟨trivial, trivial⟩ (by decide +kernel)
  have a2 := hist_after (op := .constructPs true solver 0 jk) (k := 0) a1
    (show HasSystem (m1.view 0) 0 by unfold HasSystem; decide +kernel) ⟨trivial, trivial⟩ (by decide +kernel : okB 1000 m1 0 _ = true)
  have a3 := hist_after (op := opCtl) (k := 1) a2
    (show HasSystem (n2.view 1) 0 by unfold HasSystem; decide +kernel) ⟨trivial, trivial⟩ (by decide +kernel : okB 1000 n2 1 _ = true)
  have a4 := hist_after (op := .addConstraint 0 jk) (k := 0) a3
    (fun _ => (by decide +kernel : (n3.ctls 0).spBoundConstr = [])) ⟨trivial, trivial⟩ (by decide +kernel : okB 1000 n3 0 _ = true)
  have a5 := hist_after (op := .addConstraint 2 jk) (k := 0) a4
    (fun _ => (by decide +kernel : (n4.ctls 0).spBoundConstr = [])) ⟨trivial, trivial⟩ (by decide +kernel : okB 1000 n4 0 _ = true)
  have a6 := hist_after (op := .addCost 0 jk) (k := 0) a5 trivial ⟨trivial, trivial⟩ (by decide +kernel : okB 1000 n5 0 _ = true)
  have a7 := hist_after (op := opR) (k := 0) a6 trivial ⟨trivial, trivial⟩ (by decide +kernel : okB 1000 n6 0 _ = true)
  have a8 := hist_after (op := opB) (k := 0) a7 trivial ⟨trivial, trivial⟩ (by decide +kernel : okB 1000 n7 0 _ = true)
  have a9 := hist_after (op := .addConstraint 0 jk) (k := 1) a8
    (fun _ => (by decide +kernel : (n8.ctls 1).spBoundConstr = [])) ⟨trivial, trivial⟩ (by decide +kernel : okB 1000 n8 1 _ = true)
  exact ⟨_, hist_after (op := .addCost 1 jk) (k := 1) a9 trivial ⟨trivial, trivial⟩ (by decide +kernel : okB 1000 n9 1 _ = true),
    Or.inl (Or.inr ⟨trivial, rfl⟩)⟩

theorem tn11 : n10.solveThrow best 1 = some (n11, (mab n10 best 1).2) := mab_eq (by decide +kernel)

theorem hn11 : ∃ g, MAHist d 1000 Nice n11 g ∧ g.fresh 0 := by
  obtain ⟨g, h, f⟩ := hn10
  have o : OpOk d (n10.view 1) (g.view 1) (.solve best) :=
    o_of _ rfl _ (by decide +kernel) (by decide +kernel) (by decide +kernel) _
  exact ⟨_, .aborted (mahist_of h) o tn11, ⟨f, by
    show (0 : Nat) ∉ (n10.ctls 1).spCost
    decide +kernel⟩⟩

def rn12 : MWorld ℚ 2 × Bool × QP ℚ := (n11.solve (envI yJ true) 0).getD (n11, false, q13)

theorem sn12 : n11.solve (envI yJ true) 0 = some (rn12.1, true, rn12.2.2) := by
  have e : (n11.solve (envI yJ true) 0).isSome = true := by decide +kernel
  obtain ⟨r, hr⟩ := Option.isSome_iff_exists.1 e
  have h1 : rn12 = r := by unfold rn12; rw [hr]; rfl
  have h2 : rn12.2.1 = true := by decide +kernel
  rw [hr, ← h2, h1]

/-- C106 (end to end, initial-state controller) applies after the other controller's solver threw. -/
example (s : SolverKind) (junk : Junk ℚ) :
    ∃ x : Vec ℚ, (rn12.1.ctls 0).initialState (rn12.1.pss 0) = some x ∧ InitBounds d (n11.ctls 0) x.e := by
  obtain ⟨g, h, f0⟩ := hn11
  obtain ⟨x, h1, h2, _⟩ := c106_end_to_end_init (k := 0) (s := s) (junk := junk) nice_about nice_ignores (fun _ _ h => h.1) h
    ⟨(by decide +kernel : (n11.ctls 0).ps ≠ none), contractI rfl (by decide +kernel : (n11.ctls 0).sol.isSome = true)
      (by decide +kernel)⟩ (by decide +kernel)
    (fun h => absurd h (by decide +kernel : (n11.ctls 0).spBoundConstr ≠ []))
    (by
      intro i hi
      rw [(by decide +kernel : (n11.ctls 0).spConstr = [0, 2])] at hi
      simp only [List.mem_cons, List.not_mem_nil, or_false] at hi
      have : (n11.cons i).kind ≠ .trajBound := by rcases hi with rfl | rfl <;> decide +kernel
      unfold Constr.userData
      cases h : (n11.cons i).kind <;> simp only <;> first | trivial | exact absurd h this | (split <;> trivial))
    (by
      intro i hi _
      rw [(by decide +kernel : (n11.ctls 0).spCost = [0])] at hi ⊢
      rw [List.mem_singleton.1 hi]
      exact ⟨f0, rfl⟩)
    sn12 (by decide +kernel : (n11.ctls 0).ps = some 0) (by decide +kernel)
    (backEndOptimal_of (by decide +kernel) (by decide +kernel) (by decide +kernel)
      (((QPEq.same (by decide +kernel : WellSized rJ.2.2) (by decide +kernel : QPEq rJ.2.2 rn12.2.2)).optimal _).1 optJ))
  exact ⟨x, h1, h2⟩

end Ex.Multi
end Copra
