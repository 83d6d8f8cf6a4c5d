import Verif.Props.Recursive

/-! # C83 on a concrete program: the double integrator with bounded speed and bounded control -/

namespace Copra
open Spec

set_option linter.unusedSectionVars false
set_option maxRecDepth 100000

namespace Ex
open World

/-- Constraint 0: the speed is between -2 and 2; constraint 2: the control is between -1 and 1. -/
def consRF (i : Nat) : Constr ℚ :=
  if i = 0 then Constr.mkTrajectory (mat 2 2 [[0, 1], [0, -1]]) (evec [.fin 2, .fin 2]) true else theCons i

def rf0 : World ℚ := { w0 with cons := consRF }

theorem rf0_init : World.Init rf0 := by
  obtain ⟨a, b, c, e⟩ := w0_init
  refine ⟨a, fun i => ?_, c, e⟩
  show World.FreshConstr (consRF i)
  unfold consRF
  split
  · exact .inl ⟨_, _, _, rfl⟩
  · exact b i

def rf1 := after 1000 rf0 opSys
def rf2 := after 1000 rf1 opCtl
def rf3 := after 1000 rf2 (.addConstraint 2 jk)
def rf4 := after 1000 rf3 (.addConstraint 0 jk)
def rf5 := after 1000 rf4 (.addCost 1 jk)

theorem hrf5 : ∃ g : Ghost, Hist d 1000 NoBoundSpan rf5 g := by
  have a1 := hist_after (d := d) (dmax := 1000) (E := NoBoundSpan) (op := opSys) (.start rf0_init) ⟨rfl, rfl, rfl⟩
    trivial (by decide +kernel)
  have a2 := hist_after (op := opCtl) a1 (show HasSystem rf1 0 by unfold HasSystem; decide +kernel)
    trivial (by decide +kernel : okB 1000 rf1 _ = true)
  have b3 := hist_after (op := .addConstraint 2 jk) a2 (fun _ => (by decide +kernel : rf2.ctl.spBoundConstr = [])) trivial
    (by decide +kernel : okB 1000 rf2 _ = true)
  have b4 := hist_after (op := .addConstraint 0 jk) b3 (fun h => absurd h (by decide +kernel : (rf3.cons 0).kind ≠ .ctrlBound))
    trivial (by decide +kernel : okB 1000 rf3 _ = true)
  exact ⟨_, hist_after (op := .addCost 1 jk) b4 trivial trivial (by decide +kernel : okB 1000 rf4 _ = true)⟩

theorem reg_rf5 : rf5.ctl.spConstr = [2, 0] := by decide +kernel

theorem data_rf5 : (rf5.cons 0).userData = .trajectory true (mat 2 2 [[0, 1], [0, -1]]) (evec [.fin 2, .fin 2]) ∧
    (rf5.cons 2).userData = .ctrlBound (evec [.fin (-1)]) (evec [.fin 1]) := ⟨rfl, rfl⟩

theorem all_rf5 {P : ConstrData ℚ → Prop} (h0 : P (.trajectory true (mat 2 2 [[0, 1], [0, -1]]) (evec [.fin 2, .fin 2])))
    (h2 : P (.ctrlBound (evec [.fin (-1)]) (evec [.fin 1]))) : ∀ i ∈ rf5.ctl.spConstr, P (rf5.cons i).userData := by
  intro i hi
  rw [reg_rf5] at hi
  simp only [List.mem_cons, List.not_mem_nil, or_false] at hi
  rcases hi with rfl | rfl
  · rw [data_rf5.2]; exact h2
  · rw [data_rf5.1]; exact h0

/-- With zero control the speed does not change. -/
theorem keeps_rf5 (x : Nat → ℚ) (h : ∀ i ∈ rf5.ctl.spConstr, (rf5.cons i).userData.AtState d x) :
    Keeps d 1000 rf5 0 x fun _ => 0 := by
  have h0 := h 0 (by rw [reg_rf5]; decide)
  rw [data_rf5.1] at h0
  have eA : (rf5.pss 0).A = mat 2 2 [[1, 1], [0, 1]] := rfl
  have eB : (rf5.pss 0).B = mat 2 1 [[0], [1]] := rfl
  have ed : (rf5.pss 0).d = vec [0, 0] := rfl
  have e : successor d rf5 0 x (fun _ => 0) 1 = x 1 := by
    unfold successor
    rw [eA, eB, ed]
    simp [d, Finset.sum_range_succ, mat, vec]
  refine ⟨?_, fun hb => absurd hb (by decide +kernel : rf5.ctl.spBoundConstr ≠ [])⟩
  refine all_rf5 (P := fun D => D.AtStep d x (fun _ => 0) ∧ D.AtState d (successor d rf5 0 x fun _ => 0)) ?_ ?_
  · refine ⟨trivial, fun r hr => ?_⟩
    have := h0 r hr
    unfold Rel at this ⊢
    simp only [if_true, d, Finset.sum_range_succ, Finset.sum_range_zero, zero_add] at this ⊢
    have hr2 : r < 2 := hr
    rw [show successor ⟨2, 1, 2⟩ rf5 0 x (fun _ => 0) 1 = x 1 from e]
    have z : (mat 2 2 [[0, 1], [0, -1]]).e r 0 = 0 := by
      rcases (by omega : r = 0 ∨ r = 1) with rfl | rfl <;> rfl
    rw [z, zero_mul, zero_add] at this ⊢
    exact this
  · refine ⟨fun c hc => ?_, trivial⟩
    obtain rfl : c = 0 := by have : c < 1 := hc; omega
    decide +kernel

open Classical in
/-- A reliable solver exists. -/
noncomputable def reliable : SolveEnv ℚ :=
  { env (vec [0, 0]) true with
    answer := fun q => if h : ∃ x, Feasible q x then (true, ⟨q.nrVar, h.choose⟩) else (false, ⟨0, fun _ => 0⟩) }

theorem reliable_ok : Reliable d rf5.ctl reliable ∧ SolveContract d reliable rf5.ctl := by
  have key : ∀ q, ((reliable.answer q).1 = true ↔ ∃ x, Feasible q x) ∧
      ((reliable.answer q).1 = true → Feasible q (reliable.answer q).2.e ∧ (reliable.answer q).2.rows = q.nrVar) := by
    intro q
    unfold reliable
    simp only
    split
    case isTrue h => exact ⟨⟨fun _ => h, fun _ => rfl⟩, fun _ => ⟨h.choose_spec, rfl⟩⟩
    case isFalse h => exact ⟨⟨fun e => absurd e Bool.false_ne_true, fun e => absurd e h⟩, fun e => absurd e Bool.false_ne_true⟩
  refine ⟨fun q _ _ => ⟨(key q).1, fun h => ((key q).2 h).1⟩, ?_, fun q _ h => ((key q).2 h).2, fun h => ?_⟩
  · exact fun h => absurd (congrArg Option.isSome h) (by decide +kernel)
  · exact absurd h (by decide +kernel)

/-- C83 applies: the loop runs for ever. -/
example (n : Nat) : ∃ w' log, closedLoop d 1000 0 rf5 (List.replicate n reliable) = some (w', log) ∧ log.length = n ∧
    ∀ t (ht : t < log.length), (log[t]).1 = true := by
  obtain ⟨g, h⟩ := hrf5
  have ps : ∀ i ∈ rf5.ctl.spConstr, (rf5.cons i).userData.PerStep d :=
    all_rf5 (P := fun D => D.PerStep d) rfl rfl
  obtain ⟨w', log, a, b, _, c⟩ := c83_recursive_feasibility (List.replicate n reliable) h (by decide +kernel) (by decide +kernel)
    ⟨fun _ _ => Nat.one_pos, fun _ _ => Nat.one_pos⟩
    (fun e he => by rw [List.eq_of_mem_replicate he]; exact ⟨reliable_ok.2, reliable_ok.1⟩)
    (fun hb => absurd hb (by decide +kernel : rf5.ctl.spBoundConstr ≠ []))
    (all_rf5 (P := fun D => D.Honest) trivial trivial) ps (extendable_of_viable ps fun x hx => ⟨_, keeps_rf5 x hx⟩)
    ⟨fun _ => 0, by
      refine ⟨all_rf5 (P := fun D => D.Holds d (traj d rf5 0 fun _ => 0) fun _ => 0) ?_ ?_,
        fun hb => absurd hb (by decide +kernel : rf5.ctl.spBoundConstr ≠ [])⟩
      · show TrajectoryStep _ _ _ _ _
        unfold TrajectoryStep Rel
        decide +kernel
      · show CtrlBoundStep _ _ _ _
        unfold CtrlBoundStep
        decide +kernel⟩
  exact ⟨w', log, a, by rw [b, List.length_replicate], fun t ht => (c t ht).1⟩

end Ex
end Copra
