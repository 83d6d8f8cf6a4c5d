import Verif.Proofs.Calls

/-! # Property C114: the calls `solve()` makes into code of a client follow a protocol -/

namespace Copra
open Spec

set_option linter.unusedSectionVars false

section
variable {K S : Type}

namespace Calls

/-- A list of calls that only updates constraints and costs. -/
def Updates (t : List (Call K)) : Prop := ∀ c ∈ t, (∃ i ps, c = .updateConstr i ps) ∨ ∃ i ps, c = .updateCost i ps

variable [Field K]

theorem protocol_updates {t : List (Call K)} (h : Updates t) : Protocol t := by
  constructor
  · rintro pre post a r rfl
    obtain ⟨i, ps, e⟩ | ⟨i, ps, e⟩ := h (.solve a r) (by simp) <;> cases e
  · rintro pre post rfl
    obtain ⟨i, ps, e⟩ | ⟨i, ps, e⟩ := h .result (by simp) <;> cases e

/-- Where an element of a concatenation is. -/
theorem split {α : Type} {l t pre post : List α} {x : α} (h : l ++ t = pre ++ x :: post) :
    (∃ r, l = pre ++ x :: r) ∨ ∃ r, pre = l ++ r ∧ t = r ++ x :: post := by
  obtain ⟨r, h1, h2⟩ | ⟨r, h1, h2⟩ := List.append_eq_append_iff.1 h
  · exact .inr ⟨r, h1, h2⟩
  · cases r with
    | nil => exact .inr ⟨[], by simpa using h1.symm, h2.symm⟩
    | cons y r =>
      simp only [List.cons_append, List.cons.injEq] at h2
      obtain ⟨rfl, -⟩ := h2
      exact .inl ⟨r, h1⟩

theorem Protocol.append {l t : List (Call K)} (hl : Protocol l) (ht : Protocol t) : Protocol (l ++ t) := by
  constructor
  · intro pre post a r e
    obtain ⟨r', h⟩ | ⟨r', rfl, h⟩ := split e
    · exact hl.announced pre r' a r h
    · obtain ⟨pre', n, e', i, rfl, hs⟩ := ht.announced r' post a r h
      exact ⟨l ++ pre', n, e', i, by simp, hs⟩
  · intro pre post e
    obtain ⟨r', h⟩ | ⟨r', rfl, h⟩ := split e
    · exact hl.succeeded pre r' h
    · obtain ⟨pre', a, rest, rfl, hs⟩ := ht.succeeded r' post h
      exact ⟨l ++ pre', a, rest, by simp, hs⟩

theorem protocol_solver {n e i : Nat} {a : SolveArgs K} {b : Bool} {R : List (Call K)} (hs : SolveArgs.Sized a n e i)
    (hR : ∀ c ∈ R, c = .result) (hb : R ≠ [] → b = true) : Protocol ([.problem n e i, .solve a (some b)] ++ R) := by
  constructor
  · intro pre post a' r h
    match pre, h with
    | [], h => simp at h
    | [x], h =>
      simp only [List.cons_append, List.nil_append, List.cons.injEq, Call.solve.injEq] at h
      obtain ⟨rfl, ⟨rfl, rfl⟩, -⟩ := h
      exact ⟨[], n, e, i, rfl, hs⟩
    | x :: y :: pre, h =>
      simp only [List.cons_append, List.nil_append, List.cons.injEq] at h
      have := hR (.solve a' r) (by rw [h.2.2]; simp)
      cases this
  · intro pre post h
    match pre, h with
    | [], h => simp at h
    | [x], h => simp at h
    | x :: y :: pre, h =>
      simp only [List.cons_append, List.nil_append, List.cons.injEq] at h
      obtain ⟨rfl, rfl, rfl⟩ := h
      rw [hb (by simp)]
      exact ⟨[.problem n e i], a, pre, rfl, fun c hc => hR c (by simp [hc])⟩

end Calls
end

section
variable {K S : Type} [Field K] [LinearOrder K] [IsStrictOrderedRing K]

namespace UWorld

variable {d : Dims} {dmax : K} {X X' X2 : UWorld K S} {g : Ghost} {n : Nat × Nat} {env : SolveEnv K} {b : Bool} {q q2 : QP K}
  {p : Nat} {junk : Junk K} {t t2 log : List (Call K)}

/-- Recording the calls changes nothing: the model with the record, the record left out, is the model without it. -/
theorem c114_same : (X.solveCalls env).map Prod.snd = X.solve env ∧
    ∀ a, (X.solveUserThrowCalls junk a).map Prod.snd = X.solveUserThrow junk a :=
  ⟨solveCalls_erase, fun _ => solveUserThrowCalls_erase⟩

/-- **C114** (the calls of one `solve`): `update` of every registered constraint in the order they were added, then of every
registered cost, each with a preview system that describes the plant as it is now and predicts it exactly; one
`SI_problem` with the sizes of the problem; one `SI_solve` with matrices of these sizes; and, if and only if that returned
`true`, `SI_result` (which an `InitialStateLMPC` calls twice). -/
theorem c114_pattern (h : AUHist d dmax X g n) (hconf : Conforming d X) (ho : UOk d X g (.api (.solve env)))
    (hs : X.solveCalls env = some (t, X', b, q)) (hp : X.world.ctl.ps = some p) :
    ∃ ps a, PredictsNow d X.world p ps ∧
      SolveArgs.Sized a (numVars d X.world.ctl) q.nrEq q.nrIneq ∧
      q = ⟨numVars d X.world.ctl, q.nrEq, q.nrIneq, a.Q, a.c, a.Aeq, a.beq, a.Aineq, a.bineq, a.lb, a.ub⟩ ∧
      b = (env.answer q).1 ∧
      t = (X.world.ctl.spConstr.map fun i => .updateConstr i ps) ++ (X.world.ctl.spCost.map fun i => .updateCost i ps) ++
        [.problem (numVars d X.world.ctl) q.nrEq q.nrIneq, .solve a (some b)] ++
        if b then (if X.world.ctl.isInit then [.result, .result] else [.result]) else [] := by
  obtain ⟨w, ps, hb, ht⟩ := solveCalls_inv hs
  obtain ⟨p', hp', hP, -⟩ := begin_predicts h hb
  rw [hp] at hp'; cases hp'
  obtain ⟨s, -, H⟩ := auhist_uhist h
  obtain ⟨v, gv, P, -⟩ := projects H
  obtain ⟨p2, w2, q2, B⟩ := both (X := X.patch s) P hconf (patch_uok ho).1 ((patch_solve env X).trans (solveCalls_solve hs))
  obtain ⟨W, hv⟩ := B.wellSized
  have hv : q.nrVar = numVars d X.world.ctl := hv
  refine ⟨ps, ⟨q.Q, q.c, q.Aeq, q.beq, q.Aineq, q.bineq, q.lb, q.ub⟩, hP, ?_, ?_, B.answer, ?_⟩
  · rw [← hv]; obtain ⟨w1, w2, w3, w4, w5, w6, w7, w8, w9, w10, w11⟩ := W; exact ⟨w1, w2, w3, w4, w5, w6, w7, w8, w9, w10, w11⟩
  · rw [← hv]
  · rw [← hv]; exact ht

/-- **C114** (a `solve` aborted by a user-defined `update`): the calls up to the one that threw, and none of the solver. -/
theorem c114_aborted {a : AbortAt K S} (h : AUHist d dmax X g n) (ha : X.solveUserThrowCalls junk a = some (t, X'))
    (hp : X.world.ctl.ps = some p) :
    ∃ ps, PredictsNow d X.world p ps ∧
      (∀ k o, a = .constr k o → k < X.world.ctl.spConstr.length ∧
        t = (X.world.ctl.spConstr.take (k + 1)).map fun i => .updateConstr i ps) ∧
      ∀ k o, a = .cost k o → k < X.world.ctl.spCost.length ∧
        t = (X.world.ctl.spConstr.map fun i => .updateConstr i ps) ++
          (X.world.ctl.spCost.take (k + 1)).map fun i => .updateCost i ps := by
  cases a with
  | constr k o =>
    simp only [solveUserThrowCalls, Option.bind_eq_bind, Option.bind_eq_some_iff, Option.pure_def, Option.some.injEq,
      Prod.mk.injEq] at ha
    obtain ⟨⟨w, ps⟩, hb, i, hi, C, hC, c, hc, rfl, rfl⟩ := ha
    obtain ⟨p', hp', hP, e1, e2⟩ := begin_predicts h hb
    rw [hp] at hp'; cases hp'
    refine ⟨ps, hP, ?_, fun _ _ e => by cases e⟩
    rintro _ _ ⟨⟩
    rw [constrs_calls] at hc
    simp only [Option.map_eq_some_iff] at hc
    obtain ⟨r, -, rfl⟩ := hc
    rw [← e1]
    refine ⟨(List.getElem?_eq_some_iff.1 hi).1, ?_⟩
    simp [constrCalls, List.take_add_one, hi]
  | cost k o =>
    simp only [solveUserThrowCalls, Option.bind_eq_bind, Option.bind_eq_some_iff, Option.pure_def, Option.some.injEq,
      Prod.mk.injEq] at ha
    obtain ⟨⟨w, ps⟩, hb, c, hc, i, hi, C, hC, c2, hc2, rfl, rfl⟩ := ha
    obtain ⟨p', hp', hP, e1, e2⟩ := begin_predicts h hb
    rw [hp] at hp'; cases hp'
    refine ⟨ps, hP, (fun _ _ e => by cases e), ?_⟩
    rintro _ _ ⟨⟩
    rw [constrs_calls] at hc
    simp only [Option.map_eq_some_iff] at hc
    obtain ⟨r, -, rfl⟩ := hc
    rw [costs_calls] at hc2
    simp only [Option.map_eq_some_iff] at hc2
    obtain ⟨r2, -, rfl⟩ := hc2
    rw [← e1, ← e2]
    refine ⟨(List.getElem?_eq_some_iff.1 hi).1, ?_⟩
    simp [constrCalls, costCalls, List.take_add_one, hi]

/-- **C114** (a `solve` aborted by the solver): the same calls as a `solve` that is not, up to the one that threw; in
particular no `SI_result`. -/
theorem c114_thrown {inProblem : Bool} (hs : X.solveCalls env = some (t, X', b, q))
    (ha : X.solveThrowCalls env inProblem = some (t2, X2, q2)) :
    q2 = q ∧ ∃ pre a rest, t = pre ++ .problem q.nrVar q.nrEq q.nrIneq :: .solve a (some b) :: rest ∧
      (∀ c ∈ pre, (∃ i ps, c = .updateConstr i ps) ∨ ∃ i ps, c = .updateCost i ps) ∧
      t2 = pre ++ .problem q.nrVar q.nrEq q.nrIneq :: if inProblem then [] else [.solve a none] := by
  unfold solveCalls at hs
  simp only [Option.bind_eq_bind, Option.bind_eq_some_iff, Option.pure_def, Option.some.injEq, Prod.mk.injEq] at hs
  obtain ⟨⟨t1, X1⟩, h1, ⟨t3, w', b', q'⟩, h2, rfl, rfl, rfl, rfl⟩ := hs
  unfold solveThrowCalls at ha
  rw [h1] at ha
  simp only [Option.bind_eq_bind, Option.bind_some, Option.bind_eq_some_iff, Option.pure_def, Option.some.injEq,
    Prod.mk.injEq] at ha
  obtain ⟨p, hp, l, hl, s, hsol, rfl, rfl, rfl⟩ := ha
  have hq : l.qp = q' := by
    have h3 := solveTailCalls_erase (env := env) X1.world
    rw [h2] at h3
    obtain ⟨p2, l2, s2, l3, hp2, hl2, hs2, rfl, -⟩ := solveTail_inv h3.symm
    rw [hp] at hp2; cases hp2
    rw [hl] at hl2; cases hl2
    rfl
  obtain ⟨-, w, p3, ps, -, -, -, rfl⟩ := updateSystemCalls_inv h1
  refine ⟨hq, constrCalls X.world.ctl.spConstr ps ++ costCalls X.world.ctl.spCost ps, l.solveArgs,
    if b' then X1.world.ctl.resultCalls else [], ?_, ?_, ?_⟩
  · rw [solveTailCalls_inv h2, ← hq]
    simp only [List.cons_append, List.nil_append, List.append_assoc]
    rfl
  · intro c hc
    simp only [List.mem_append, constrCalls, costCalls, List.mem_map] at hc
    obtain ⟨i, -, rfl⟩ | ⟨i, -, rfl⟩ := hc
    · exact .inl ⟨i, ps, rfl⟩
    · exact .inr ⟨i, ps, rfl⟩
  · rw [← hq]
    cases inProblem <;> simp [LMPC.qp]

/-- Every recorded history is one of those of C99. -/
theorem c114_histories (h : Logged d dmax X g n log) : AUHist d dmax X g n := by
  induction h with
  | start h => exact .start h
  | ok _ ho _ hs hr ih => exact .ok ih ho hs hr
  | thrown _ ho hs ih => exact .thrown ih ho hs
  | solved _ ho hc hs ih =>
    exact .ok ih ho (by simp only [UWorld.step, solveCalls_solve hs]; rfl) trivial
  | aborted _ ha ih => exact .aborted ih (by rw [← solveUserThrowCalls_erase, ha]; rfl)

/-- **C114**: over the whole life of a program, whatever it does, solves it aborts and exceptions it catches, the calls into
its solver follow the protocol. -/
theorem c114_protocol (h : Logged d dmax X g n log) : Protocol log := by
  induction h with
  | start h => exact Calls.protocol_updates (by intro c hc; cases hc)
  | ok _ _ _ _ _ ih => exact ih
  | thrown _ _ _ ih => exact ih
  | @solved X X' g n log env t b q hl ho hc hs ih =>
    refine Calls.Protocol.append ih ?_
    obtain ⟨p, hp⟩ : ∃ p, X.world.ctl.ps = some p := by
      obtain ⟨w, ps, hb, -⟩ := solveCalls_inv hs
      obtain ⟨p, hp, -⟩ := begin_predicts (c114_histories hl) hb
      exact ⟨p, hp⟩
    obtain ⟨ps, a, -, hz, -, -, rfl⟩ := c114_pattern (c114_histories hl) hc ho hs hp
    rw [List.append_assoc]
    refine Calls.Protocol.append (Calls.protocol_updates ?_) (Calls.protocol_solver hz ?_ ?_)
    · intro c hc
      simp only [List.mem_append, List.mem_map] at hc
      obtain ⟨i, -, rfl⟩ | ⟨i, -, rfl⟩ := hc
      · exact .inl ⟨i, ps, rfl⟩
      · exact .inr ⟨i, ps, rfl⟩
    · intro c hc
      split at hc
      · split at hc <;> simpa using hc
      · cases hc
    · intro hne
      by_contra hb
      exact hne (by rw [if_neg hb])
  | @aborted X X' g n log junk a t hl ha ih =>
    refine Calls.Protocol.append ih (Calls.protocol_updates ?_)
    obtain ⟨p, hp⟩ : ∃ p, X.world.ctl.ps = some p := by
      cases hb : X.world.beginUpdate junk with
      | none => cases a <;> simp [solveUserThrowCalls, hb] at ha
      | some r =>
        obtain ⟨w, ps⟩ := r
        obtain ⟨p, hp, -⟩ := begin_predicts (c114_histories hl) hb
        exact ⟨p, hp⟩
    obtain ⟨ps, -, h1, h2⟩ := c114_aborted (c114_histories hl) ha hp
    intro c hc
    cases a with
    | constr k o =>
      rw [(h1 k o rfl).2] at hc
      simp only [List.mem_map] at hc
      obtain ⟨i, -, rfl⟩ := hc
      exact .inl ⟨i, ps, rfl⟩
    | cost k o =>
      rw [(h2 k o rfl).2] at hc
      simp only [List.mem_append, List.mem_map] at hc
      obtain ⟨i, -, rfl⟩ | ⟨i, -, rfl⟩ := hc
      · exact .inl ⟨i, ps, rfl⟩
      · exact .inr ⟨i, ps, rfl⟩

end UWorld
end
end Copra
