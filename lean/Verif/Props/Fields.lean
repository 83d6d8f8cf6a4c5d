import Verif.Proofs.Fields
import Verif.Props.WorldExamples

/-! # C96: assignments to the public members of a preview system -/

namespace Copra
open Spec

set_option linter.unusedSectionVars false

section
variable {K : Type} [Field K]

namespace World

theorem inForce_off {w : World K} {v : Nat → Dynamics K} {p q : Nat} (s : PreviewSystem K) (h : q ≠ p) :
    inForce { w with pss := upd w.pss p s } v q = inForce w v q := by
  simp [inForce, upd, h]

theorem inForce_at {w : World K} {v : Nat → Dynamics K} {p : Nat} (s : PreviewSystem K) :
    inForce { w with pss := upd w.pss p s } v p = if s.isUpdated then v p else members s := by
  simp [inForce, upd]

theorem inForce_congr {w : World K} {v v' : Nat → Dynamics K} {q : Nat} (h : v q = v' q) : inForce w v q = inForce w v' q := by
  simp [inForce, h]

/-- **C96** (rule, `A`): assigning `A` takes effect at once on a stale system and not at all on one that is up to date;
no other system is affected. -/
theorem c96_rule_A {dmax : K} {w w' : World K} {v : Nat → Dynamics K} {p : Nat} {A : Mat K}
    (h : w.fstep dmax (.writeA p A) = .ok w') :
    (∀ q ≠ p, inForce w' (remember w (.writeA p A) v) q = inForce w v q) ∧
    inForce w' (remember w (.writeA p A) v) p = if (w.pss p).isUpdated then inForce w v p else { inForce w v p with A := A } := by
  cases h
  have hr : remember w (.writeA p A) v = v := rfl
  rw [hr]
  refine ⟨fun q hq => ?_, ?_⟩
  · exact inForce_off _ hq
  · rw [inForce_at]
    unfold inForce
    cases h : (w.pss p).isUpdated <;> simp [h, members]

/-- **C96** (rule, `B`). -/
theorem c96_rule_B {dmax : K} {w w' : World K} {v : Nat → Dynamics K} {p : Nat} {B : Mat K}
    (h : w.fstep dmax (.writeB p B) = .ok w') :
    (∀ q ≠ p, inForce w' (remember w (.writeB p B) v) q = inForce w v q) ∧
    inForce w' (remember w (.writeB p B) v) p = if (w.pss p).isUpdated then inForce w v p else { inForce w v p with B := B } := by
  cases h
  have hr : remember w (.writeB p B) v = v := rfl
  rw [hr]
  refine ⟨fun q hq => ?_, ?_⟩
  · exact inForce_off _ hq
  · rw [inForce_at]
    unfold inForce
    cases h : (w.pss p).isUpdated <;> simp [h, members]

/-- **C96** (rule, `d`). -/
theorem c96_rule_d {dmax : K} {w w' : World K} {v : Nat → Dynamics K} {p : Nat} {x : Vec K}
    (h : w.fstep dmax (.writeD p x) = .ok w') :
    (∀ q ≠ p, inForce w' (remember w (.writeD p x) v) q = inForce w v q) ∧
    inForce w' (remember w (.writeD p x) v) p = if (w.pss p).isUpdated then inForce w v p else { inForce w v p with d := x } := by
  cases h
  have hr : remember w (.writeD p x) v = v := rfl
  rw [hr]
  refine ⟨fun q hq => ?_, ?_⟩
  · exact inForce_off _ hq
  · rw [inForce_at]
    unfold inForce
    cases h : (w.pss p).isUpdated <;> simp [h, members]

/-- **C96** (rule, `isUpdated = false`): everything assigned so far takes effect. -/
theorem c96_rule_stale {dmax : K} {w w' : World K} {v : Nat → Dynamics K} {p : Nat}
    (h : w.fstep dmax (.markStale p) = .ok w') :
    (∀ q ≠ p, inForce w' (remember w (.markStale p) v) q = inForce w v q) ∧
    inForce w' (remember w (.markStale p) v) p = members (w.pss p) := by
  cases h
  have hr : remember w (.markStale p) v = v := rfl
  rw [hr]
  refine ⟨fun q hq => ?_, ?_⟩
  · exact inForce_off _ hq
  · rw [inForce_at]
    rfl

/-- **C96** (rule, `updateSystem()`): everything assigned so far takes effect. -/
theorem c96_rule_updateSystem {dmax : K} {w w' : World K} {v : Nat → Dynamics K} {p : Nat}
    (h : w.fstep dmax (.call (.updatePs p)) = .ok w') :
    (∀ q ≠ p, inForce w' (remember w (.call (.updatePs p)) v) q = inForce w v q) ∧
    inForce w' (remember w (.call (.updatePs p)) v) p = members (w.pss p) := by
  have h' : w.step dmax (.updatePs p) = .ok w' := h
  simp only [step, Res.map_ok, Res.ofOption_ok] at h'
  obtain ⟨s, hs, rfl⟩ := h'
  obtain ⟨_, m2, _⟩ := PreviewSystem.updateSystem_members hs
  refine ⟨fun q hq => ?_, ?_⟩
  · have hr : remember w (.call (.updatePs p)) v q = v q := by unfold remember recomputes; simp [hq]
    rw [inForce_congr hr]
    exact inForce_off _ hq
  · have hr : remember w (.call (.updatePs p)) v p = members (w.pss p) := by unfold remember recomputes; simp
    rw [inForce_at, if_pos m2, hr]

/-- **C96** (rule, `solve()`): a solve never changes the dynamics in force. -/
theorem c96_rule_solve {dmax : K} {w w' : World K} {v : Nat → Dynamics K} {env : SolveEnv K}
    (h : w.fstep dmax (.call (.solve env)) = .ok w') (q : Nat) :
    inForce w' (remember w (.call (.solve env)) v) q = inForce w v q := by
  have h1 := step_showing dmax w v (.solve env) (by simp)
  have h' : w.step dmax (.solve env) = .ok w' := h
  rw [h'] at h1
  obtain ⟨a, b, c⟩ := (Steps.pssChange (Or.inl h1) q).1 (fun h => h)
  have e : ∀ x y : Dynamics K, x.A = y.A → x.B = y.B → x.d = y.d → x = y := by
    rintro ⟨_, _, _⟩ ⟨_, _, _⟩ h1 h2 h3; cases h1; cases h2; cases h3; rfl
  exact e _ _ a b c

/-- **C96** (rule, `system()`): the dynamics in force are the arguments. -/
theorem c96_rule_system {dmax : K} {w w' : World K} {v : Nat → Dynamics K} {p : Nat} {A B : Mat K} {x x0 : Vec K} {N : Int}
    (h : w.fstep dmax (.call (.system p A B x x0 N)) = .ok w') :
    (∀ q ≠ p, inForce w' (remember w (.call (.system p A B x x0 N)) v) q = inForce w v q) ∧
    inForce w' (remember w (.call (.system p A B x x0 N)) v) p = ⟨A, B, x⟩ := by
  have h' : w.step dmax (.system p A B x x0 N) = .ok w' := h
  have hr : remember w (.call (.system p A B x x0 N)) v = v := rfl
  rw [hr]
  simp only [step, Res.map_ok] at h'
  obtain ⟨s, hs, rfl⟩ := h'
  refine ⟨fun q hq => ?_, ?_⟩
  · exact inForce_off _ hq
  · rw [inForce_at]
    unfold PreviewSystem.system at hs
    simp only [ite_not] at hs
    split at hs
    · split at hs
      · split at hs
        · split at hs
          · split at hs
            · cases hs
            · rw [Res.ofOption_ok] at hs
              unfold PreviewSystem.systemBody at hs
              simp only [Option.bind_eq_bind, Option.bind_eq_some_iff, Option.pure_def, Option.some.injEq] at hs
              obtain ⟨_, _, _, _, _, _, _, _, _, _, _, _, rfl⟩ := hs
              rfl
          · cases hs
        · cases hs
      · cases hs
    · cases hs

end World
end

section
variable {K : Type} [Field K] [LinearOrder K] [IsStrictOrderedRing K]

namespace World
variable {d : Dims} {dmax : K} {E : World K → Op K → Prop} {w w' : World K} {g : Ghost} {v : Nat → Dynamics K}
  {env : SolveEnv K} {b : Bool} {q : QP K} {p : Nat}

theorem showing_solved (hs : w.solve env = some (w', b, q)) :
    (showing w v).solve env = some (showing w' (remember w (.call (.solve env)) v), b, q) := by
  rw [solve_showing, hs]
  rfl

/-- **C96** (no undefined behaviour): a solve at any point of such a program returns. -/
theorem c96_defined (h : FHist d dmax E w g v) (hE : BlindToMembers E) (ho : OpOk d w g (.solve env)) :
    ∃ w' b q, w.solve env = some (w', b, q) := by
  obtain ⟨s', b, q, hs, _⟩ := c50_solve_defined (h.hist hE).1 (opOk_showing v ho)
  rw [solve_showing] at hs
  cases hw : w.solve env with
  | none => rw [hw] at hs; cases hs
  | some r => obtain ⟨w', b, q⟩ := r; exact ⟨w', b, q, rfl⟩

/-- **C96** (constraints): the problem of a solve admits exactly the controls under which the dynamics in force satisfy
every registered constraint. -/
theorem c96_feasible (h : FHist d dmax E w g v) (hB : BlindToMembers E) (hE : ∀ w op, E w op → NoBoundSpan w op)
    (ho : OpOk d w g (.solve env)) (hi : w.ctl.isInit = false) (hb : w.ctl.spBoundConstr = [] → g.clean)
    (hh : ∀ i ∈ w.ctl.spConstr, (w.cons i).userData.Honest)
    (hs : w.solve env = some (w', b, q)) (hp : w.ctl.ps = some p) (U : Nat → K) :
    Feasible q U ↔
      (∀ i ∈ w.ctl.spConstr, (w.cons i).userData.Holds d (trajInForce d w v p U) U) ∧
      (w.ctl.spBoundConstr = [] → ∀ j < d.m * d.N, -dmax ≤ U j ∧ U j ≤ dmax) :=
  c30_feasible_set (h.hist hB).1 hE (opOk_showing v ho) hi hb hh (showing_solved hs) hp U

/-- **C96** (costs): its objective is the total declared cost of the trajectory of the dynamics in force, up to a
constant. -/
theorem c96_objective (h : FHist d dmax E w g v) (hB : BlindToMembers E)
    (ho : OpOk d w g (.solve env)) (hi : w.ctl.isInit = false) (hf : CostsFresh d w g)
    (hs : w.solve env = some (w', b, q)) (hp : w.ctl.ps = some p) :
    ∃ k : K, ∀ U : Nat → K, objective q U = totalCostInForce d w v p U + k := by
  have S : ∀ U, totalCost d (showing w v) p U = totalCostInForce d w v p U := fun _ => rfl
  obtain ⟨k, hk⟩ := c32_objective (h.hist hB).1 (opOk_showing v ho) (by exact hi) (by exact hf) (showing_solved hs)
    (p := p) (by exact hp)
  exact ⟨k, fun U => by rw [hk U, S]⟩

/-- **C96** (results): `trajectory()` is the simulation of the dynamics in force under `control()`. -/
theorem c96_trajectory (h : FHist d dmax E w g v) (hB : BlindToMembers E)
    (ho : OpOk d w g (.solve env)) (hi : w.ctl.isInit = false)
    (hs : w.solve env = some (w', true, q)) (hp : w.ctl.ps = some p) :
    IsStacked d (trajInForce d w v p w'.ctl.control.e) w'.ctl.trajectory := by
  have T : Spec.traj d (showing w v) p = trajInForce d w v p := rfl
  have C : (showing w' (remember w (.call (.solve env)) v)).ctl = w'.ctl := rfl
  have key := (c40_success (h.hist hB).1 (opOk_showing v ho) (showing_solved hs) (p := p) (by exact hp)).2.1 (by exact hi)
  rw [T, C] at key
  exact key.2

/-- **C96** (optimum): if the solver returns a minimiser, `control()` satisfies every registered constraint under the
dynamics in force, at the least total cost under those dynamics. -/
theorem c96_optimum (h : FHist d dmax E w g v) (hB : BlindToMembers E) (hE : ∀ w op, E w op → NoBoundSpan w op)
    (ho : OpOk d w g (.solve env)) (hi : w.ctl.isInit = false) (hb : w.ctl.spBoundConstr = [] → g.clean)
    (hh : ∀ i ∈ w.ctl.spConstr, (w.cons i).userData.Honest) (hf : CostsFresh d w g)
    (hs : w.solve env = some (w', true, q)) (hp : w.ctl.ps = some p) (hopt : IsOptimal q (env.answer q).2.e) :
    (∀ i ∈ w.ctl.spConstr, (w.cons i).userData.Holds d (trajInForce d w v p w'.ctl.control.e) w'.ctl.control.e) ∧
    ∀ V : Nat → K, (∀ i ∈ w.ctl.spConstr, (w.cons i).userData.Holds d (trajInForce d w v p V) V) →
      (∀ j < d.m * d.N, -dmax ≤ V j ∧ V j ≤ dmax) →
      totalCostInForce d w v p w'.ctl.control.e ≤ totalCostInForce d w v p V := by
  have T : Spec.traj d (showing w v) p = trajInForce d w v p := rfl
  have S : ∀ U, totalCost d (showing w v) p U = totalCostInForce d w v p U := fun _ => rfl
  have C : (showing w' (remember w (.call (.solve env)) v)).ctl = w'.ctl := rfl
  have D : (showing w v).ctl = w.ctl := rfl
  have F : (showing w v).cons = w.cons := rfl
  have key := c33_optimum (h.hist hB).1 hE (opOk_showing v ho) (by exact hi) (by exact hb) (by exact hh) (by exact hf)
    (showing_solved hs) (p := p) (by exact hp) hopt
  simp only [T, S, C, D, F] at key
  exact key

/-- **C96** (every call): a program that assigns members behaves, in everything but those members, like one that only
uses the documented calls: the state with the dynamics in force as members is reached by such calls. -/
theorem c96_history (h : FHist d dmax E w g v) (hB : BlindToMembers E) : Hist d dmax E (showing w v) g := (h.hist hB).1

end World
end

/-- The condition of C30 and C33 looks at no preview system. -/
theorem blind_noBoundSpan {K : Type} [Field K] : BlindToMembers (NoBoundSpan (K := K)) where
  blind := fun w pss op h => by cases op <;> exact h
  assign := fun _ _ _ _ _ => trivial
  start := fun _ _ _ => trivial

end Copra
