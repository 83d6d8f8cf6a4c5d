import Verif.Props.Interleave
import Verif.Props.MultiExamples

/-! # C85 on a concrete program: two clients, two controllers, all four interleaved in two ways -/

namespace Copra
open Spec

set_option maxRecDepth 100000

namespace Ex.Multi

/-- Client 0 owns system 0, constraints 0, 6 and cost 1; client 1 everything else. -/
def ow : Owners 2 Nat where
  ctl := fun k => k.val
  ps := fun p => if p = 0 then 0 else 1
  cons := fun i => if i = 0 ∨ i = 6 then 0 else 1
  costs := fun i => if i = 1 then 0 else 1

def opSysB : Op ℚ := .system 1 (mat 2 2 [[1, 1], [0, 1]]) (mat 2 1 [[0], [1]]) (vec [0, 0]) (vec [2, 0]) 2

/-- Constraint 6 has the wrong number of columns: adding it throws. -/
def cA : List (Fin 2 × Op ℚ) :=
  [(0, opSys), (0, opCtl), (0, .addConstraint 6 jk), (0, .addConstraint 0 jk), (0, .addCost 1 jk), (0, .solve best)]
def cB : List (Fin 2 × Op ℚ) :=
  [(1, opSysB), (1, .constructPs true solver 1 jk), (1, .addConstraint 2 jk), (1, .refsConstr 2 1), (1, .addCost 0 jk),
    (1, .solve best), (1, .clearConstraints), (1, .solve best)]

/-- One client after the other, and call by call. -/
def sched1 : List (Fin 2 × Op ℚ) := cA ++ cB
def sched2 : List (Fin 2 × Op ℚ) :=
  [(1, opSysB), (0, opSys), (0, opCtl), (1, .constructPs true solver 1 jk), (0, .addConstraint 6 jk),
    (1, .addConstraint 2 jk), (0, .addConstraint 0 jk), (1, .refsConstr 2 1), (1, .addCost 0 jk),
    (1, .solve best), (0, .addCost 1 jk), (1, .clearConstraints), (0, .solve best), (1, .solve best)]

theorem sep_of {L : List (Fin 2 × Op ℚ)} (h : ∀ c ∈ L, c ∈ cA ∨ c ∈ cB) : ow.Separate L := by
  intro c hc
  rcases h c hc with h | h
  · simp only [cA, List.mem_cons, List.not_mem_nil, or_false] at h
    rcases h with rfl | rfl | rfl | rfl | rfl | rfl <;> exact ⟨rfl, by first | exact trivial | rfl⟩
  · simp only [cB, List.mem_cons, List.not_mem_nil, or_false] at h
    rcases h with rfl | rfl | rfl | rfl | rfl | rfl | rfl | rfl <;> exact ⟨rfl, by first | exact trivial | rfl⟩

theorem sep1 : ow.Separate sched1 := sep_of fun _ h => List.mem_append.1 h

theorem sep2 : ow.Separate sched2 := sep_of fun c h => by
  simp only [sched2, cA, cB, List.mem_cons, List.not_mem_nil, or_false] at h ⊢
  tauto

theorem parts (t : Nat) : ow.part t sched1 = ow.part t sched2 := by
  by_cases h0 : t = 0
  · subst h0; rfl
  · by_cases h1 : t = 1
    · subst h1; rfl
    · have e : ∀ L : List (Fin 2 × Op ℚ), ow.part t L = [] := by
        intro L
        refine List.filter_eq_nil_iff.2 fun c _ hc => ?_
        have hc : c.1.val = t := of_decide_eq_true hc
        have := c.1.isLt
        omega
      rw [e, e]

/-- How the log of a run looks. -/
def short (o : Outcome ℚ) : Nat × Nat × Nat :=
  match o with
  | .returned => (0, 0, 0)
  | .threw _ => (1, 0, 0)
  | .solved b q => (if b then 2 else 3, q.nrIneq, q.nrVar)

/-- Both schedules run; the third call of client 0 throws, all solves succeed. -/
theorem run1 : (runAll 1000 m0 sched1).map (fun r => r.2.map fun e => (e.1, short e.2)) =
    some [(0, 0, 0, 0), (0, 0, 0, 0), (0, 1, 0, 0), (0, 0, 0, 0), (0, 0, 0, 0), (0, 2, 3, 2),
      (1, 0, 0, 0), (1, 0, 0, 0), (1, 0, 0, 0), (1, 0, 0, 0), (1, 0, 0, 0), (1, 2, 0, 4), (1, 0, 0, 0), (1, 2, 0, 4)] := by
  decide +kernel

theorem some1 : ∃ w1 log, runAll 1000 m0 sched1 = some (w1, log) := by
  have h := run1
  cases e : runAll 1000 m0 sched1 with
  | none => rw [e] at h; cases h
  | some r => exact ⟨r.1, r.2, rfl⟩

example : ∃ w1 log log', runAll 1000 m0 sched1 = some (w1, log) ∧ runAll 1000 m0 sched2 = some (w1, log') ∧
    ∀ t, ow.part t log' = ow.part t log := by
  obtain ⟨w1, log, h⟩ := some1
  obtain ⟨log', h', e⟩ := MWorld.c85_schedules m0_init sep1 sep2 parts h
  exact ⟨w1, log, log', h, h', e⟩

example : ∃ w1 log v1, runAll 1000 m0 sched1 = some (w1, log) ∧ runAll 1000 m0 cB = some (v1, ow.part 1 log) ∧
    ow.SameFor 1 w1 v1 := by
  obtain ⟨w1, log, h⟩ := some1
  obtain ⟨v1, r, S⟩ := MWorld.c85_alone m0_init sep1 h 1
  exact ⟨w1, log, v1, h, r, S⟩

/-- The clients must be separate: had client 1 used cost 1 too and dropped nothing, client 0's solve would have kept a cost
that it drops when it is alone. -/
example : ((runAll 1000 m0 cA).map fun r => (r.1.ctls 0).spCost) = some [] ∧
    ((runAll 1000 m0 ([(1, opSysB), (1, .constructPs false solver 1 jk), (1, .addCost 1 jk)] ++ cA)).map fun r =>
      (r.1.ctls 0).spCost) = some [1] := by decide +kernel

end Ex.Multi
end Copra
