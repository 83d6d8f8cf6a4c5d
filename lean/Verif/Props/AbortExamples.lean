import Verif.Props.Abort
import Verif.Props.EndToEndExamples

/-! # A program whose solver throws (C86) -/

namespace Copra
open Spec

set_option linter.unusedSectionVars false
set_option maxRecDepth 100000

namespace Ex
open World

theorem ahist_of {w : World ℚ} {g : Ghost} (h : Hist d 1000 Careful w g) : AHist d 1000 NoBoundSpan w g := by
  induction h with
  | start h => exact .start h
  | ok _ ho he hs ih => exact .ok ih ho he.1 hs
  | thrown _ ho he hs ih => exact .thrown ih ho he.1 hs

theorem ahist_after {w : World ℚ} {g : Ghost} {op : Op ℚ} (h : AHist d 1000 NoBoundSpan w g) (ho : OpOk d w g op)
    (he : NoBoundSpan w op) (hk : okB 1000 w op = true) : AHist d 1000 NoBoundSpan (after 1000 w op) (g.next w True op) :=
  .ok h ho he (okB_step hk)

/-- The state after the solver threw. -/
def ab (w : World ℚ) (e : SolveEnv ℚ) : World ℚ × QP ℚ := (w.solveThrow e).getD (w, q13)

theorem ab_eq {w : World ℚ} {e : SolveEnv ℚ} (h : (w.solveThrow e).isSome = true) :
    w.solveThrow e = some ((ab w e).1, (ab w e).2) := by
  obtain ⟨r, hr⟩ := Option.isSome_iff_exists.1 h
  unfold ab
  rw [hr]
  rfl

/-- The program of `ExWorld`; its first solve is aborted, and the two per-step costs are registered anew. -/
def ab13 := (ab w12 opt).1
def ab14 := after 1000 ab13 (.removeCost 0)
def ab15 := after 1000 ab14 (.addCost 0 jk)
def ab16 := after 1000 ab15 (.removeCost 3)
def ab17 := after 1000 ab16 (.addCost 3 jk)

theorem t13 : w12.solveThrow opt = some (ab13, (ab w12 opt).2) := ab_eq (by decide +kernel)

theorem ah13 : AHist d 1000 NoBoundSpan ab13 (g12.next w12 True (.solve opt)) := .aborted (ahist_of h12) o13 t13

theorem ah17 : ∃ g : Ghost, AHist d 1000 NoBoundSpan ab17 g ∧ g.fresh 0 ∧ g.fresh 3 := by
  have a14 := ahist_after (op := .removeCost 0) ah13 trivial trivial (by decide +kernel : okB 1000 ab13 _ = true)
  have a15 := ahist_after (op := .addCost 0 jk) a14 trivial trivial (by decide +kernel : okB 1000 ab14 _ = true)
  have a16 := ahist_after (op := .removeCost 3) a15 trivial trivial (by decide +kernel : okB 1000 ab15 _ = true)
  exact ⟨_, ahist_after (op := .addCost 3 jk) a16 trivial trivial (by decide +kernel : okB 1000 ab16 _ = true),
    Or.inl (Or.inr ⟨trivial, rfl⟩), Or.inr ⟨trivial, rfl⟩⟩

/-- Nothing was lost. -/
example := c86_abort_keeps .noBoundSpan (ahist_of h12) o13 t13
example : ab13.ctl.spConstr = [0, 1, 2, 3, 4] ∧ ab13.ctl.spCost = [0, 1, 2, 3] ∧ ab13.ctl.solveTime = none := by decide +kernel
example := c86_no_new_states .noBoundSpan ah13

theorem o17 {g : Ghost} : OpOk d ab17 g (.solve opt) :=
  ⟨(by decide +kernel : ab17.ctl.ps ≠ none), contract rfl
    (fun h => absurd (congrArg Option.isSome h) (by decide +kernel : ab17.ctl.sol.isSome ≠ false)) (by decide +kernel)⟩

example : ∃ w' b q, ab17.solve opt = some (w', b, q) ∧ WellSized q ∧ q.nrVar = numVars d ab17.ctl := by
  obtain ⟨g, h, _⟩ := ah17
  exact (c86_defined .noBoundSpan h o17).1

def r17 : World ℚ × Bool × QP ℚ := (ab17.solve opt).getD (ab17, false, q13)

theorem s17 : ab17.solve opt = some (r17.1, true, r17.2.2) := by
  have e : (ab17.solve opt).isSome = true := by decide +kernel
  obtain ⟨r, hr⟩ := Option.isSome_iff_exists.1 e
  have h1 : r17 = r := by unfold r17; rw [hr]; rfl
  have h2 : r17.2.1 = true := by decide +kernel
  rw [hr, ← h2, h1]

/-- C86 (end to end) applies after the abort, with every back end. -/
example (k : SolverKind) (junk : Junk ℚ) :
    ∀ i ∈ ab17.ctl.spConstr, (ab17.cons i).userData.Holds d (Spec.traj d ab17 0 r17.1.ctl.control.e) r17.1.ctl.control.e := by
  obtain ⟨g, h, f0, f3⟩ := ah17
  have hc : ab17.ctl.spConstr = w12.ctl.spConstr := by decide +kernel
  have hu : ∀ i ∈ w12.ctl.spConstr, (ab17.cons i).userData = (w12.cons i).userData := by
    intro i _
    have k := (c86_abort_keeps .noBoundSpan (ahist_of h12) o13 t13).2.2.2.1 i
    exact k
  refine (c86_end_to_end (k := k) (junk := junk) .noBoundSpan h (fun _ _ h => h) o17 (by decide +kernel)
    (fun h => absurd h (by decide +kernel)) ?_ ?_ s17 (by decide +kernel) (by decide +kernel)
    (backEndOptimal_of (by decide +kernel) (by decide +kernel) (by decide +kernel) ?_)).1
  · intro i hi
    rw [hc] at hi
    rw [hu i hi]
    exact honest12 i hi
  · intro i hi hp
    rw [(by decide +kernel : ab17.ctl.spCost = [1, 2, 0, 3])] at hi ⊢
    simp only [List.mem_cons, List.not_mem_nil, or_false] at hi
    unfold Cost.userData at hp
    rcases hi with rfl | rfl | rfl | rfl
    · rw [(by decide +kernel : (ab17.costs 1).kind = .control)] at hp; exact hp.elim
    · rw [(by decide +kernel : (ab17.costs 2).kind = .target)] at hp; exact hp.elim
    · exact ⟨f0, rfl⟩
    · exact ⟨f3, rfl⟩
  · exact ((QPEq.same (by decide +kernel : WellSized q13) (by decide +kernel : QPEq q13 r17.2.2)).optimal _).1 opt13

/-! A retried solve -/

/-- The controller with a control and a target cost: the retry gets the problem that was aborted. -/
example : ∃ w2 q2, (ab u9 opt).1.solve opt = some (w2, true, q2) ∧ QPEq (ab u9 opt).2 q2 := by
  have e : ((ab u9 opt).1.solve opt).isSome = true := by decide +kernel
  obtain ⟨⟨w2, b, q2⟩, hr⟩ := Option.isSome_iff_exists.1 e
  have hb : b = true := by
    have : ((ab u9 opt).1.solve opt).map (fun r => r.2.1) = some true := by decide +kernel
    rw [hr] at this
    exact Option.some.inj this
  subst hb
  have a8 := ahist_after (op := .addCost 1 jk) (ahist_of h7) trivial trivial (by decide +kernel : okB 1000 w7 _ = true)
  have a9 := ahist_after (op := .addCost 2 jk) a8 trivial trivial (by decide +kernel : okB 1000 u8 _ = true)
  have hs : u9.ctl.sol ≠ none := fun h => absurd (congrArg Option.isSome h) (by decide +kernel : u9.ctl.sol.isSome ≠ false)
  have hs2 : (ab u9 opt).1.ctl.sol ≠ none :=
    fun h => absurd (congrArg Option.isSome h) (by decide +kernel : (ab u9 opt).1.ctl.sol.isSome ≠ false)
  refine ⟨w2, q2, hr, c86_retry .noBoundSpan a9 ⟨(by decide +kernel : u9.ctl.ps ≠ none), contract rfl hs (by decide +kernel)⟩
    (ab_eq (w := u9) (e := opt) (by decide +kernel)) ?_ ⟨(by decide +kernel : (ab u9 opt).1.ctl.ps ≠ none), contract rfl hs2 (by decide +kernel)⟩ ?_ (Or.inl hr)⟩
  · intro i hi
    change i ∈ u9.ctl.spCost at hi
    change ¬ (u9.costs i).userData.PerStepState d
    rw [(by decide +kernel : u9.ctl.spCost = [1, 2])] at hi
    simp only [List.mem_cons, List.not_mem_nil, or_false] at hi
    unfold Cost.userData
    rcases hi with rfl | rfl
    · rw [(by decide +kernel : (u9.costs 1).kind = .control)]; exact id
    · rw [(by decide +kernel : (u9.costs 2).kind = .target)]; exact id
  · intro hi
    change u9.ctl.isInit = true at hi
    rw [(by decide +kernel : u9.ctl.isInit = false)] at hi
    cases hi

/-- With a per-step trajectory cost the retry gets another Hessian than the aborted call: the aborted call already
added the cost to itself. -/
theorem c86_retry_false : ∃ (w w' w'' : World ℚ) (g : Ghost) (q q' : QP ℚ), AHist d 1000 NoBoundSpan w g ∧ Held w ∧
    OpOk d w g (.solve opt) ∧ w.solveThrow opt = some (w', q) ∧ w'.solve opt = some (w'', true, q') ∧ ¬ MatEq q.Q q'.Q := by
  have h : (ab13.solve opt).isSome = true := by decide +kernel
  obtain ⟨⟨w', b, q⟩, hr⟩ := Option.isSome_iff_exists.1 h
  have hb : b = true := by
    have : (ab13.solve opt).map (fun r => r.2.1) = some true := by decide +kernel
    rw [hr] at this
    exact Option.some.inj this
  subst hb
  refine ⟨w12, ab13, w', g12, (ab w12 opt).2, q, ahist_of h12, ⟨fun _ _ => Nat.one_pos, fun _ _ => Nat.one_pos⟩, o13, t13, hr, ?_⟩
  intro hm
  have e : (ab13.solve opt).map (fun r => decide ((ab w12 opt).2.Q.e 0 0 = r.2.2.Q.e 0 0)) = some false := by decide +kernel
  rw [hr] at e
  simp only [Option.map_some, Option.some.injEq, decide_eq_false_iff_not] at e
  exact e (hm.2.2 0 (by decide +kernel) 0 (by decide +kernel))

/-! An initial-state controller -/

def abj8 := (ab j7 (envI yJ true)).1
def abj9 := after 1000 abj8 (.removeCost 0)
def abj10 := after 1000 abj9 (.addCost 0 jk)

theorem ahj10 : ∃ g : Ghost, AHist d 1000 NoBoundSpan abj10 g ∧ g.fresh 0 := by
  have a8 : AHist d 1000 NoBoundSpan abj8 (gI.next j7 True (.solve (envI yJ true))) :=
    .aborted (ahist_of hj7) oJ7 (ab_eq (w := j7) (e := envI yJ true) (by decide +kernel))
  have a9 := ahist_after (op := .removeCost 0) a8 trivial trivial (by decide +kernel : okB 1000 abj8 _ = true)
  exact ⟨_, ahist_after (op := .addCost 0 jk) a9 trivial trivial (by decide +kernel : okB 1000 abj9 _ = true),
    Or.inr ⟨trivial, rfl⟩⟩

def rj10 : World ℚ × Bool × QP ℚ := (abj10.solve (envI yJ true)).getD (abj10, false, q13)

theorem sj10 : abj10.solve (envI yJ true) = some (rj10.1, true, rj10.2.2) := by
  have e : (abj10.solve (envI yJ true)).isSome = true := by decide +kernel
  obtain ⟨r, hr⟩ := Option.isSome_iff_exists.1 e
  have h1 : rj10 = r := by unfold rj10; rw [hr]; rfl
  have h2 : rj10.2.1 = true := by decide +kernel
  rw [hr, ← h2, h1]

/-- C86 (end to end, initial-state controller) applies after the abort, with every back end. -/
example (k : SolverKind) (junk : Junk ℚ) : ∃ x : Vec ℚ, rj10.1.ctl.initialState (rj10.1.pss 0) = some x ∧ InitBounds d abj10.ctl x.e := by
  obtain ⟨g, h, f0⟩ := ahj10
  obtain ⟨x, h1, h2, _⟩ := c86_end_to_end_init (k := k) (junk := junk) .noBoundSpan h (fun _ _ h => h)
    ⟨(by decide +kernel : abj10.ctl.ps ≠ none), contractI rfl (by decide +kernel) (by decide +kernel)⟩ (by decide +kernel)
    (fun h => absurd h (by decide +kernel : abj10.ctl.spBoundConstr ≠ []))
    (by
      intro i hi
      rw [(by decide +kernel : abj10.ctl.spConstr = [0, 2])] at hi
      simp only [List.mem_cons, List.not_mem_nil, or_false] at hi
      have : (abj10.cons i).kind ≠ .trajBound := by rcases hi with rfl | rfl <;> decide +kernel
      unfold Constr.userData
      cases h : (abj10.cons i).kind <;> simp only <;> first | trivial | exact absurd h this | (split <;> trivial))
    (by
      intro i hi _
      rw [(by decide +kernel : abj10.ctl.spCost = [0])] at hi ⊢
      rw [List.mem_singleton.1 hi]
      exact ⟨f0, rfl⟩)
    sj10 (by decide +kernel : abj10.ctl.ps = some 0) (by decide +kernel)
    (backEndOptimal_of (by decide +kernel) (by decide +kernel) (by decide +kernel)
      (((QPEq.same (by decide +kernel : WellSized rJ.2.2) (by decide +kernel : QPEq rJ.2.2 rj10.2.2)).optimal _).1 optJ))
  exact ⟨x, h1, h2⟩

end Ex
end Copra
