import Verif.Proofs.World
import Verif.Props.Costs

/-! # Properties C19, C20, C28, C35, C36, C39: registering, removing and dropping costs and constraints

All statements are about worlds reachable by arbitrary histories of API calls (`World.Reachable`). -/

namespace Copra

/-- Dimensions of a preview system: state, control, number of steps. -/
def Spec.dimsOf {K : Type} (ps : PreviewSystem K) : Spec.Dims := ⟨ps.xDim, ps.uDim, ps.nrUStep⟩

open Spec

set_option linter.unusedSectionVars false
set_option linter.unusedSimpArgs false

variable {K : Type} [Field K]

namespace World

/-! ## Preview systems in a world -/

theorem sysHist_upd {pss : Nat → PreviewSystem K} {q : Nat} {ps : PreviewSystem K} (h : PsStep (pss q) ps) (p : Nat)
    (hp : SysHist (pss p)) : SysHist (upd pss q ps p) := by
  by_cases e : p = q
  · subst e; rw [upd_same]; exact h.hist hp
  · rw [upd_ne _ _ e]; exact hp

theorem Steps.sysHist {dmax : K} {w w' : World K} {op : Op K} (h : Steps dmax w op w') (p : Nat)
    (hp : SysHist (w.pss p)) : SysHist (w'.pss p) := by
  rcases h with h | ⟨e, h⟩ <;> cases op <;> simp only [step, Res.map_ok, Res.map_thrown, Res.ofOption_ok] at h
  case inl.system =>
    obtain ⟨ps, h, rfl⟩ := h
    exact sysHist_upd (.accepted h) p hp
  case inr.system =>
    obtain ⟨ps, h, rfl⟩ := h
    exact sysHist_upd (.rejected h) p hp
  case inl.xInit q x => cases h; exact sysHist_upd (.xInit x) p hp
  case inl.setDynamics q A B v => cases h; exact sysHist_upd (.setDynamics A B v) p hp
  case inl.updatePs =>
    obtain ⟨ps, h, rfl⟩ := h
    exact sysHist_upd (.update h) p hp
  case inl.solve env =>
    obtain ⟨⟨w1, b, q⟩, hs, rfl⟩ := Option.map_eq_some_iff.1 h
    obtain ⟨w1, p1, l, s, l', h1, hp1, hl, hs, rfl, rfl, hl', rfl⟩ := solve_inv hs
    obtain ⟨p2, ps, l1, l2, cons, costs, hp2, hps, e1, e2, hc, hk, rfl, f⟩ := updateSystem_inv h1
    show SysHist (upd w.pss p2 ps p)
    split at hps
    · cases hps; rw [upd_self]; exact hp
    · exact sysHist_upd (.update hps) p hp
  case inl.addCost j junk =>
    unfold addCost at h
    split at h
    · cases h
    · split at h <;> cases h
      exact hp
  case inr.addCost j junk =>
    unfold addCost at h
    split at h
    · cases h
    · split at h <;> cases h
      exact hp
  case inl.addConstraint j junk =>
    unfold addConstraint at h
    split at h
    · cases h
    · split at h
      · split at h <;> cases h
        exact hp
      · cases h
      · cases h
  case inr.addConstraint j junk =>
    unfold addConstraint at h
    split at h
    · cases h
    · split at h
      · split at h <;> cases h
      · cases h; exact hp
      · cases h
  case inl.clearConstraints =>
    obtain ⟨_, _, _, _, rfl⟩ := clearConstraints_inv h
    exact hp
  case inr.updateConstr | inr.updatePs | inr.updateCost | inr.constructPs | inr.initializeController | inr.removeConstraint =>
    obtain ⟨_, h, _⟩ := h
    exact absurd h Res.ofOption_ne_thrown
  case inr.clearConstraints | inr.solve => exact absurd h Res.ofOption_ne_thrown
  all_goals first
    | (cases h <;> exact hp)
    | (obtain ⟨_, _, rfl⟩ := h; exact hp)

theorem Reachable.sysHist {dmax : K} {w : World K} (h : Reachable dmax w) (p : Nat) : SysHist (w.pss p) := by
  refine h.induct (P := fun w => SysHist (w.pss p)) ?_ (fun w op w' hp hs => hs.sysHist p hp)
  rintro w ⟨hp, _⟩
  rw [hp p]; exact Or.inl rfl

/-- A system accepted by `system` at any time earlier has consistent dimensions. -/
theorem Reachable.shape {dmax : K} {w : World K} (h : Reachable dmax w) {p : Nat} (hs : 0 < (w.pss p).nrUStep) :
    SysAny (dimsOf (w.pss p)) (w.pss p) := by
  rcases h.sysHist p with h0 | ⟨d, hd⟩
  · omega
  · have : dimsOf (w.pss p) = d := by
      unfold dimsOf; rw [hd.shape.xDim, hd.shape.uDim, hd.shape.nrU]
    rw [this]; exact hd

theorem run_append {dmax : K} (a b : List (Op K)) (w : World K) :
    w.run dmax (a ++ b) = (w.run dmax a).bind fun w' => w'.run dmax b := by
  induction a generalizing w with
  | nil => rfl
  | cons op a ih =>
    show (match w.step dmax op with | .ok w' => run dmax w' (a ++ b) | .thrown _ w' => run dmax w' (a ++ b) | .ub => none)
      = (match w.step dmax op with | .ok w' => run dmax w' a | .thrown _ w' => run dmax w' a | .ub => none).bind _
    cases w.step dmax op with
    | ok w1 => exact ih w1
    | thrown e w1 => exact ih w1
    | ub => rfl

theorem Reachable.run {dmax : K} {w w' : World K} {ops : List (Op K)} (h : Reachable dmax w)
    (hr : w.run dmax ops = some w') : Reachable dmax w' := by
  obtain ⟨w0, ops0, h0, h1⟩ := h
  refine ⟨w0, ops0 ++ ops, h0, ?_⟩
  rw [run_append, h1]; exact hr

theorem Reachable.step {dmax : K} {w w' : World K} {op : Op K} (h : Reachable dmax w)
    (hs : Steps dmax w op w') : Reachable dmax w' := by
  refine h.run (ops := [op]) ?_
  rcases hs with hs | ⟨e, hs⟩ <;> simp only [World.run, hs]

/-! ## C20: single use -/

/-- The history `ops` contains a call that made a controller accept constraint `i`. -/
def AcceptedBefore (dmax : K) (w0 : World K) (ops : List (Op K)) (i : Nat) : Prop :=
  ∃ pre post op w w', ops = pre ++ op :: post ∧ w0.run dmax pre = some w ∧ w.step dmax op = .ok w' ∧
    ((∃ junk, op = .addConstraint i junk) ∨ ∃ p junk, op = .initConstr i p junk)

/-- One call sets the used flag only by accepting the constraint. -/
theorem Steps.flag {dmax : K} {w w' : World K} {op : Op K} (h : Steps dmax w op w') {i : Nat}
    (h0 : (w.cons i).hasBeenInitialized = false) (h1 : (w'.cons i).hasBeenInitialized = true) :
    w.step dmax op = .ok w' ∧ ((∃ junk, op = .addConstraint i junk) ∨ ∃ p junk, op = .initConstr i p junk) := by
  have same : ∀ {c' : Constr K} {j : Nat}, (j = i → c'.hasBeenInitialized = false) →
      (upd w.cons j c' i).hasBeenInitialized = true → False := by
    intro c' j hc hu
    by_cases e : i = j
    · subst e; rw [upd_same, hc rfl] at hu; cases hu
    · rw [upd_ne _ _ e, h0] at hu; cases hu
  rcases h with h | ⟨e, h⟩ <;> cases op
  case inl.initConstr j p junk =>
    refine ⟨h, Or.inr ?_⟩
    simp only [World.step, Res.map_ok] at h
    obtain ⟨c, h, rfl⟩ := h
    by_cases e : i = j
    · subst e; exact ⟨_, _, rfl⟩
    · have h1 : (upd w.cons j c i).hasBeenInitialized = true := h1
      rw [upd_ne _ _ e, h0] at h1; cases h1
  case inl.addConstraint j junk =>
    refine ⟨h, Or.inl ?_⟩
    simp only [World.step] at h
    unfold addConstraint at h
    split at h
    · cases h
    · split at h
      · split at h <;> cases h
        rename_i c hc _ l hl
        by_cases e : i = j
        · subst e; exact ⟨_, rfl⟩
        · have h1 : (upd w.cons j c i).hasBeenInitialized = true := h1
          rw [upd_ne _ _ e, h0] at h1; cases h1
      · cases h
      · cases h
  all_goals
    exfalso
    simp only [World.step, Res.map_ok, Res.map_thrown, Res.ofOption_ok] at h
  case inl.spanConstr j junk =>
    obtain ⟨c, h, rfl⟩ := h
    exact same (fun e => by rw [(Constr.autoSpan_ok h).2.hbi, e]; exact h0) h1
  case inl.updateConstr j p =>
    obtain ⟨c, h, rfl⟩ := h
    exact same (fun e => by rw [(Constr.update_keeps h).hbi, e]; exact h0) h1
  case inl.addCost j junk =>
    unfold addCost at h
    split at h
    · cases h
    · split at h <;> cases h
      rw [h0] at h1; cases h1
  case inl.clearConstraints =>
    obtain ⟨_, _, _, _, rfl⟩ := clearConstraints_inv h
    rw [h0] at h1; cases h1
  case inl.solve env =>
    obtain ⟨⟨w1, b, q⟩, hs, rfl⟩ := Option.map_eq_some_iff.1 h
    rw [((solve_frame hs).1.cons i).hbi, h0] at h1; cases h1
  case inr.spanConstr j junk =>
    obtain ⟨c, h, rfl⟩ := h
    exact same (fun e => by rw [(Constr.autoSpan_thrown h).2.hbi, e]; exact h0) h1
  case inr.initConstr j p junk =>
    obtain ⟨c, h, rfl⟩ := h
    exact same (fun e => by rw [Constr.init_thrown h, e]; exact h0) h1
  case inr.addCost j junk =>
    unfold addCost at h
    split at h
    · cases h
    · split at h <;> cases h
      rw [h0] at h1; cases h1
  case inr.addConstraint j junk =>
    unfold addConstraint at h
    split at h
    · cases h
    · split at h
      · split at h <;> cases h
      · rename_i x c hc
        cases h
        exact same (fun e => by rw [Constr.init_thrown hc, e]; exact h0) h1
      · cases h
  case inr.updateConstr | inr.updatePs | inr.updateCost | inr.constructPs | inr.initializeController | inr.removeConstraint =>
    obtain ⟨_, h, _⟩ := h
    exact absurd h Res.ofOption_ne_thrown
  case inr.clearConstraints | inr.solve => exact absurd h Res.ofOption_ne_thrown
  all_goals first
    | (cases h <;> (rw [h0] at h1; cases h1))
    | (obtain ⟨_, _, rfl⟩ := h; rw [h0] at h1; cases h1)

theorem run_ident {dmax : K} : ∀ (ops : List (Op K)) {w w' : World K}, w.run dmax ops = some w' →
    ∀ i, Constr.Ident (w.cons i) (w'.cons i) := by
  intro ops w w' h i
  refine run_induct (P := fun w' => Constr.Ident (w.cons i) (w'.cons i))
    (fun a op b hp hs => hp.trans (hs.ident i)) ops (Constr.Ident.refl _) h

/-- An accepted single-use constraint carries the used flag from then on. -/
theorem accepted_flag {dmax : K} {w w' : World K} {op : Op K} {i : Nat} (h : w.step dmax op = .ok w')
    (ho : Constr.Once (w.cons i))
    (hop : (∃ junk, op = .addConstraint i junk) ∨ ∃ p junk, op = .initConstr i p junk) :
    (w'.cons i).hasBeenInitialized = true := by
  rcases hop with ⟨junk, rfl⟩ | ⟨p, junk, rfl⟩
  · simp only [World.step] at h
    unfold addConstraint at h
    split at h
    · cases h
    · split at h
      · split at h <;> cases h
        rename_i c hc _ l hl
        show (upd w.cons i c i).hasBeenInitialized = true
        rw [upd_same]
        exact ((Constr.init_any hc).2.2.2 ho).2
      · cases h
      · cases h
  · simp only [World.step, Res.map_ok] at h
    obtain ⟨c, h, rfl⟩ := h
    show (upd w.cons i c i).hasBeenInitialized = true
    rw [upd_same]
    exact ((Constr.init_any h).2.2.2 ho).2

theorem fresh_flag {c : Constr K} (h : FreshConstr c) : c.hasBeenInitialized = false := by
  rcases h with ⟨E, f, b, rfl⟩ | ⟨G, f, b, rfl⟩ | ⟨E, G, f, b, rfl⟩ | ⟨l, u, rfl⟩ | ⟨l, u, rfl⟩ <;> rfl

/-- The used flag of a constraint tells whether it has been accepted before. -/
theorem flag_iff {dmax : K} {w0 w : World K} {ops : List (Op K)} (h0 : Init w0) (hr : w0.run dmax ops = some w) {i : Nat}
    (ho : Constr.Once (w.cons i)) : (w.cons i).hasBeenInitialized = true ↔ AcceptedBefore dmax w0 ops i := by
  constructor
  · have key : ∀ (ops pre : List (Op K)) (w1 : World K), w0.run dmax pre = some w1 → w1.run dmax ops = some w →
        (w1.cons i).hasBeenInitialized = false → (w.cons i).hasBeenInitialized = true →
        AcceptedBefore dmax w0 (pre ++ ops) i := by
      intro ops
      induction ops with
      | nil =>
        intro pre w1 _ h2 h3 h4
        simp only [World.run, Option.some.injEq] at h2
        subst h2; rw [h3] at h4; cases h4
      | cons op ops ih =>
        intro pre w1 h1 h2 h3 h4
        have hs : ∃ w2, Steps dmax w1 op w2 ∧ w2.run dmax ops = some w := by
          unfold World.run at h2
          split at h2
          · exact ⟨_, Or.inl (by assumption), h2⟩
          · exact ⟨_, Or.inr ⟨_, by assumption⟩, h2⟩
          · cases h2
        obtain ⟨w2, hs, h5⟩ := hs
        cases hf : (w2.cons i).hasBeenInitialized with
        | true =>
          obtain ⟨a, b⟩ := hs.flag h3 hf
          exact ⟨pre, ops, op, w1, w2, rfl, h1, a, b⟩
        | false =>
          have := ih (pre ++ [op]) w2 (by
            rw [run_append, h1]
            show w1.run dmax [op] = some w2
            rcases hs with hs | ⟨e, hs⟩ <;> simp only [World.run, hs]) h5 hf h4
          simpa using this
    intro h
    have := key ops [] w0 rfl hr (fresh_flag (h0.2.1 i)) h
    simpa using this
  · rintro ⟨pre, post, op, w1, w2, rfl, h1, h2, h3⟩
    rw [run_append, h1] at hr
    simp only [Option.bind_some, World.run, h2] at hr
    have id := run_ident post hr i
    have id1 : Constr.Ident (w1.cons i) (w2.cons i) := Steps.ident (Or.inl h2) i
    refine id.used (accepted_flag h2 ?_ h3)
    unfold Constr.Once at *
    rw [id.kind, id1.kind] at ho
    exact ho

/-- C20: once accepted, a control or control-bound constraint is refused with `runtime_error` by every
later `addConstraint` / `initializeConstraint`, whatever happened in between (other systems, other
controllers, removal, failed calls), and the refusal changes nothing at all. -/
theorem c20_single_use {dmax : K} {w0 w : World K} {ops : List (Op K)} {i : Nat} (h0 : Init w0)
    (hr : w0.run dmax ops = some w) (ho : Constr.Once (w.cons i)) (ha : AcceptedBefore dmax w0 ops i) :
    (∀ junk p, w.ctl.ps = some p → w.step dmax (.addConstraint i junk) = .thrown .runtimeError w) ∧
    (∀ junk p, w.step dmax (.initConstr i p junk) = .thrown .runtimeError w) := by
  have hf := (flag_iff h0 hr ho).2 ha
  constructor
  · intro junk p hp
    simp only [World.step]
    unfold addConstraint
    rw [hp]
    simp only [Constr.init_used ho hf, upd_self]
  · intro junk p
    simp only [World.step, Constr.init_used ho hf, Res.map, upd_self]

/-! ## C19: acceptance -/

/-- All `int` counters stay representable when `i` is added. -/
def CountersFit (d : Dims) (w : World K) (i : Nat) : Prop :=
  Constr.rowsNeeded d (w.cons i) ≤ intMax ∧
  ((w.cons i).constraintType = .equality → w.ctl.nrEqConstr + Constr.rowsNeeded d (w.cons i) ≤ intMax) ∧
  ((w.cons i).constraintType = .inequality → w.ctl.nrIneqConstr + Constr.rowsNeeded d (w.cons i) ≤ intMax)

/-- C19: `addConstraint` on any reachable controller, for a constraint not covered by C20.  Data that
does not fit is rejected with `domain_error` and nothing changes; fitting data is accepted, the
constraint is appended to the list of all constraints and to the list of its kind, its rows are counted,
and no other list changes; the only undefined case is `int` overflow of a counter. -/
theorem c19_addConstraint_accepts_iff {dmax : K} {w0 w : World K} {ops : List (Op K)} (h0 : Init w0)
    (hr : w0.run dmax ops = some w) {p : Nat} (hp : w.ctl.ps = some p) (hs : 0 < (w.pss p).nrUStep) {i : Nat}
    (hu : Constr.Once (w.cons i) → ¬ AcceptedBefore dmax w0 ops i) (junk : Junk K) :
    let d := dimsOf (w.pss p)
    (¬ Constr.Fits d (w.cons i) → w.step dmax (.addConstraint i junk) = .thrown .domainError w) ∧
    (Constr.Fits d (w.cons i) → CountersFit d w i →
      ∃ w', w.step dmax (.addConstraint i junk) = .ok w' ∧
        w'.ctl.spConstr = w.ctl.spConstr ++ [i] ∧
        w'.ctl.spEqConstr = w.ctl.spEqConstr ++ (if (w.cons i).constraintType = .equality then [i] else []) ∧
        w'.ctl.spIneqConstr = w.ctl.spIneqConstr ++ (if (w.cons i).constraintType = .inequality then [i] else []) ∧
        w'.ctl.spBoundConstr = w.ctl.spBoundConstr ++ (if (w.cons i).constraintType = .bound then [i] else []) ∧
        w'.ctl.nrEqConstr = w.ctl.nrEqConstr +
          (if (w.cons i).constraintType = .equality then Constr.rowsNeeded d (w.cons i) else 0) ∧
        w'.ctl.nrIneqConstr = w.ctl.nrIneqConstr +
          (if (w.cons i).constraintType = .inequality then Constr.rowsNeeded d (w.cons i) else 0) ∧
        w'.ctl.spCost = w.ctl.spCost ∧ w'.costs = w.costs ∧ w'.pss = w.pss ∧ (∀ j ≠ i, w'.cons j = w.cons j)) ∧
    (Constr.Fits d (w.cons i) → ¬ CountersFit d w i → w.step dmax (.addConstraint i junk) = .ub) := by
  have hreach : Reachable dmax w := ⟨w0, ops, h0, hr⟩
  have S := (hreach.shape hs).shape
  have hno : ¬ (Constr.Once (w.cons i) ∧ (w.cons i).hasBeenInitialized = true) := by
    rintro ⟨a, b⟩
    exact hu a ((flag_iff h0 hr a).1 b)
  have H := Constr.initializeConstraint_spec (c := w.cons i) junk S
  intro d
  refine ⟨?_, ?_, ?_⟩
  · intro hf
    simp only [World.step]
    unfold addConstraint
    rw [hp]
    simp only [H.reject hno hf, upd_self]
  · rintro hf ⟨hn, he, hi⟩
    obtain ⟨c', e, h2, h3, h4, h5, _⟩ := H.accept hno hf hn
    have ht : c'.constraintType = (w.cons i).constraintType := by unfold Constr.constraintType; rw [h2, h3]
    simp only [World.step]
    unfold addConstraint
    rw [hp]
    simp only [e]
    unfold LMPC.addConstraintByType
    rw [ht]
    cases hty : (w.cons i).constraintType <;> simp only [h4]
    · rw [show chkInt (w.ctl.nrEqConstr + Constr.rowsNeeded (dimsOf (w.pss p)) (w.cons i)) = some _ from
        Constr.chkInt_some (he hty)]
      refine ⟨_, rfl, rfl, rfl, ?_, ?_, rfl, ?_, rfl, rfl, rfl, fun j hj => upd_ne _ _ hj⟩ <;> simp
    · rw [show chkInt (w.ctl.nrIneqConstr + Constr.rowsNeeded (dimsOf (w.pss p)) (w.cons i)) = some _ from
        Constr.chkInt_some (hi hty)]
      refine ⟨_, rfl, rfl, ?_, rfl, ?_, ?_, rfl, rfl, rfl, rfl, fun j hj => upd_ne _ _ hj⟩ <;> simp
    · refine ⟨_, rfl, rfl, ?_, ?_, rfl, ?_, ?_, rfl, rfl, rfl, fun j hj => upd_ne _ _ hj⟩ <;> simp
  · intro hf hc
    simp only [World.step]
    unfold addConstraint
    rw [hp]
    by_cases hn : Constr.rowsNeeded (dimsOf (w.pss p)) (w.cons i) ≤ intMax
    · obtain ⟨c', e, h2, h3, h4, h5, _⟩ := H.accept hno hf hn
      have ht : c'.constraintType = (w.cons i).constraintType := by unfold Constr.constraintType; rw [h2, h3]
      simp only [e]
      unfold LMPC.addConstraintByType
      rw [ht]
      unfold CountersFit at hc
      cases hty : (w.cons i).constraintType <;> simp only [h4]
      · have : chkInt (w.ctl.nrEqConstr + Constr.rowsNeeded (dimsOf (w.pss p)) (w.cons i)) = none := by
          apply Constr.chkInt_none
          intro h; exact hc ⟨hn, fun _ => h, fun e => by rw [hty] at e; cases e⟩
        rw [this]; rfl
      · have : chkInt (w.ctl.nrIneqConstr + Constr.rowsNeeded (dimsOf (w.pss p)) (w.cons i)) = none := by
          apply Constr.chkInt_none
          intro h; exact hc ⟨hn, fun e => (by rw [hty] at e; cases e), fun _ => h⟩
        rw [this]; rfl
      · exact absurd ⟨hn, fun e => (by rw [hty] at e; cases e), fun e => by rw [hty] at e; cases e⟩ hc
    · simp only [H.overflow hno hf hn]

/-! ## C28: number of weights -/

/-- C28, second part: in every reachable world every cost has as many weights as target entries. -/
theorem c28_weights_count {dmax : K} {w : World K} (h : Reachable dmax w) (i : Nat) :
    (w.costs i).weights.rows = (w.costs i).p.rows := h.wok i

/-! ## C35: consistent registries -/

/-- C35: in every reachable world the list of all constraints is partitioned by `constraintType()` into
the three typed lists (in order and with multiplicity), and `removeConstraint` is always defined. -/
theorem c35_registries_consistent {dmax : K} {w : World K} (h : Reachable dmax w) :
    (w.ctl.spEqConstr = w.ctl.spConstr.filter fun i => (w.cons i).constraintType = .equality) ∧
    (w.ctl.spIneqConstr = w.ctl.spConstr.filter fun i => (w.cons i).constraintType = .inequality) ∧
    (w.ctl.spBoundConstr = w.ctl.spConstr.filter fun i => (w.cons i).constraintType = .bound) ∧
    (∀ i, w.ctl.spEqConstr.count i + w.ctl.spIneqConstr.count i + w.ctl.spBoundConstr.count i =
      w.ctl.spConstr.count i) ∧
    ∀ i, ∃ w', w.step dmax (.removeConstraint i) = .ok w' := by
  have hp := h.partition
  refine ⟨hp.eq, hp.ineq, hp.bound, hp.counts, ?_⟩
  intro i
  simp only [World.step, hp.remove i, Res.ofOption, Res.map]
  exact ⟨_, rfl⟩

/-! ## C36: removal -/

/-- Everything about the registered elements. -/
def SameRegistry (l l' : LMPC K) : Prop :=
  l'.spConstr = l.spConstr ∧ l'.spEqConstr = l.spEqConstr ∧ l'.spIneqConstr = l.spIneqConstr ∧
  l'.spBoundConstr = l.spBoundConstr ∧ l'.spCost = l.spCost

/-- What `removeConstraint i` does in a reachable world: erase the first occurrence everywhere. -/
theorem remove_step {dmax : K} {w : World K} (h : Reachable dmax w) (i : Nat) :
    w.step dmax (.removeConstraint i) = .ok { w with ctl := { w.ctl with
      spConstr := w.ctl.spConstr.erase i
      spEqConstr := w.ctl.spEqConstr.erase i
      spIneqConstr := w.ctl.spIneqConstr.erase i
      spBoundConstr := w.ctl.spBoundConstr.erase i } } := by
  simp only [World.step, h.partition.remove i, Res.ofOption, Res.map]

theorem add_step {dmax : K} {w w1 : World K} {i : Nat} {junk : Junk K}
    (ha : w.step dmax (.addConstraint i junk) = .ok w1) :
    w1.ctl.spConstr = w.ctl.spConstr ++ [i] ∧ w1.ctl.spCost = w.ctl.spCost := by
  simp only [World.step] at ha
  unfold addConstraint at ha
  split at ha
  · cases ha
  · split at ha
    · split at ha <;> cases ha
      rename_i c hc _ l hl
      unfold LMPC.addConstraintByType at hl
      split at hl
      · simp only [Option.bind_eq_bind, Option.bind_eq_some_iff, Option.pure_def, Option.some.injEq] at hl
        obtain ⟨_, _, rfl⟩ := hl
        exact ⟨rfl, rfl⟩
      · simp only [Option.bind_eq_bind, Option.bind_eq_some_iff, Option.pure_def, Option.some.injEq] at hl
        obtain ⟨_, _, rfl⟩ := hl
        exact ⟨rfl, rfl⟩
      · cases hl
        exact ⟨rfl, rfl⟩
    · cases ha
    · cases ha

theorem erase_append_self (l : List Nat) (i : Nat) : ((l ++ [i]).erase i).Perm l := by
  have : (l ++ [i]).Perm (i :: l) := List.perm_append_singleton i l
  simpa using this.erase i

theorem erase_filter_ne (l : List Nat) (i : Nat) : (l.erase i).filter (· ≠ i) = l.filter (· ≠ i) := by
  rw [LMPC.erase_filter]; simp

/-- C36 for constraints: removal right after an accepted `addConstraint` restores the registered
constraints (exactly, if it was not registered before; up to the position of the duplicates of that same
constraint otherwise), costs untouched; every other element keeps its place. -/
theorem c36_remove_undoes_add_constraint {dmax : K} {w w1 : World K} (h : Reachable dmax w) {i : Nat} {junk : Junk K}
    (ha : w.step dmax (.addConstraint i junk) = .ok w1) :
    ∃ w2, w1.step dmax (.removeConstraint i) = .ok w2 ∧
      w2.ctl.spConstr.Perm w.ctl.spConstr ∧
      w2.ctl.spConstr.filter (· ≠ i) = w.ctl.spConstr.filter (· ≠ i) ∧
      w2.ctl.spCost = w.ctl.spCost ∧
      (i ∉ w.ctl.spConstr → SameRegistry w.ctl w2.ctl) := by
  have h1 : Reachable dmax w1 := h.step (Or.inl ha)
  obtain ⟨a1, a2⟩ := add_step ha
  refine ⟨_, remove_step h1 i, ?_, ?_, a2, ?_⟩
  · show (w1.ctl.spConstr.erase i).Perm _
    rw [a1]; exact erase_append_self _ _
  · show (w1.ctl.spConstr.erase i).filter _ = _
    rw [erase_filter_ne, a1, List.filter_append]; simp
  · intro hi
    have e : w1.ctl.spConstr.erase i = w.ctl.spConstr := by
      rw [a1, List.erase_append_right _ hi]; simp
    have h2 : Reachable dmax _ := h1.step (Or.inl (remove_step h1 i))
    have p2 := h2.partition
    have p0 := h.partition
    have hty : ∀ j, (w1.cons j).constraintType = (w.cons j).constraintType := fun j =>
      (Steps.ident (Or.inl ha) j).type
    have b1 := p2.eq
    have b2 := p2.ineq
    have b3 := p2.bound
    refine ⟨e, b1.trans ?_, b2.trans ?_, b3.trans ?_, a2⟩
    · show (w1.ctl.spConstr.erase i).filter (fun j => decide ((w1.cons j).constraintType = _)) = _
      simp only [e, hty]; exact p0.eq.symm
    · show (w1.ctl.spConstr.erase i).filter (fun j => decide ((w1.cons j).constraintType = _)) = _
      simp only [e, hty]; exact p0.ineq.symm
    · show (w1.ctl.spConstr.erase i).filter (fun j => decide ((w1.cons j).constraintType = _)) = _
      simp only [e, hty]; exact p0.bound.symm

/-- C36 for costs. -/
theorem c36_remove_undoes_add_cost {dmax : K} {w w1 : World K} {i : Nat} {junk : Junk K}
    (ha : w.step dmax (.addCost i junk) = .ok w1) :
    ∃ w2, w1.step dmax (.removeCost i) = .ok w2 ∧
      w2.ctl.spCost.Perm w.ctl.spCost ∧ w2.ctl.spCost.filter (· ≠ i) = w.ctl.spCost.filter (· ≠ i) ∧
      (i ∉ w.ctl.spCost → w2.ctl = w.ctl) := by
  simp only [World.step] at ha
  unfold addCost at ha
  split at ha
  · cases ha
  · split at ha <;> cases ha
    refine ⟨_, rfl, erase_append_self _ _, ?_, ?_⟩
    · show ((w.ctl.spCost ++ [i]).erase i).filter _ = _
      rw [erase_filter_ne, List.filter_append]; simp
    · intro hi
      show { w.ctl with spCost := (w.ctl.spCost ++ [i]).erase i } = w.ctl
      rw [List.erase_append_right _ hi]; simp

/-- C36: removing an element that is not registered changes nothing; removing a registered one removes
its first occurrence and keeps all others in order. -/
theorem c36_remove_any {dmax : K} {w : World K} (h : Reachable dmax w) (i : Nat) :
    (i ∉ w.ctl.spConstr → w.step dmax (.removeConstraint i) = .ok w) ∧
    (i ∉ w.ctl.spCost → w.step dmax (.removeCost i) = .ok w) ∧
    (∃ w', w.step dmax (.removeConstraint i) = .ok w' ∧ w'.ctl.spConstr = w.ctl.spConstr.erase i ∧
      w'.ctl.spCost = w.ctl.spCost) ∧
    (∃ w', w.step dmax (.removeCost i) = .ok w' ∧ w'.ctl.spCost = w.ctl.spCost.erase i ∧
      w'.ctl.spConstr = w.ctl.spConstr) := by
  have hp := h.partition
  refine ⟨?_, ?_, ⟨_, remove_step h i, rfl, rfl⟩, _, rfl, rfl, rfl⟩
  · intro hi
    rw [remove_step h i]
    have a : i ∉ w.ctl.spEqConstr := by rw [hp.eq]; simp [hi]
    have b : i ∉ w.ctl.spIneqConstr := by rw [hp.ineq]; simp [hi]
    have c : i ∉ w.ctl.spBoundConstr := by rw [hp.bound]; simp [hi]
    rw [List.erase_of_not_mem hi, List.erase_of_not_mem a, List.erase_of_not_mem b, List.erase_of_not_mem c]
  · intro hi
    simp only [World.step, LMPC.removeCost, List.erase_of_not_mem hi]

/-! ## C39: dropping abandoned elements -/

/-- What a solve keeps, in general: an element is dropped exactly when nobody outside the controller
references it and it is registered only once. -/
theorem c39_as_built {dmax : K} {w w' : World K} (h : Reachable dmax w) {env : SolveEnv K} {b : Bool} {q : QP K}
    (hs : w.solve env = some (w', b, q)) :
    (w'.ctl.spConstr = w.ctl.spConstr.filter fun i => 0 < w.extCons i ∨ 1 < w.ctl.spConstr.count i) ∧
    (w'.ctl.spEqConstr = w.ctl.spEqConstr.filter fun i => 0 < w.extCons i ∨ 1 < w.ctl.spConstr.count i) ∧
    (w'.ctl.spIneqConstr = w.ctl.spIneqConstr.filter fun i => 0 < w.extCons i ∨ 1 < w.ctl.spConstr.count i) ∧
    (w'.ctl.spBoundConstr = w.ctl.spBoundConstr.filter fun i => 0 < w.extCons i ∨ 1 < w.ctl.spConstr.count i) ∧
    (w'.ctl.spCost = w.ctl.spCost.filter fun i => 0 < w.extCosts i ∨ 1 < w.ctl.spCost.count i) := by
  obtain ⟨_, h1, h2, h3, h4, h5⟩ := solve_frame hs
  have hp := h.partition
  obtain ⟨e1, e2, e3, e4, e5, _⟩ := LMPC.checkDelete_lists hp w.extCons w.extCosts
  have sub : ∀ {L : List Nat}, (∀ i ∈ L, 0 < w.ctl.spConstr.count i) →
      L.filter (fun i => decide (2 < w.extCons i + 2 * w.ctl.spConstr.count i)) =
      L.filter (fun i => decide (0 < w.extCons i ∨ 1 < w.ctl.spConstr.count i)) := by
    intro L hL
    apply List.filter_congr
    intro i hi
    have := hL i hi
    rw [decide_eq_decide]; omega
  refine ⟨?_, ?_, ?_, ?_, ?_⟩
  · rw [h1, e1]; exact sub fun i hi => List.count_pos_iff.2 hi
  · rw [h2, e2]; exact sub fun i hi => by rw [hp.eq] at hi; exact List.count_pos_iff.2 (List.mem_of_mem_filter hi)
  · rw [h3, e3]; exact sub fun i hi => by rw [hp.ineq] at hi; exact List.count_pos_iff.2 (List.mem_of_mem_filter hi)
  · rw [h4, e4]; exact sub fun i hi => by rw [hp.bound] at hi; exact List.count_pos_iff.2 (List.mem_of_mem_filter hi)
  · rw [h5, e5]
    apply List.filter_congr
    intro i hi
    have := List.count_pos_iff.2 hi
    rw [decide_eq_decide]; omega

/-- C39 for controllers on which no element is registered twice: a solve keeps exactly the elements that
somebody outside still references, in order. -/
theorem c39_drops_abandoned_partial {dmax : K} {w w' : World K} (h : Reachable dmax w) {env : SolveEnv K} {b : Bool}
    {q : QP K} (hs : w.solve env = some (w', b, q)) (hc : w.ctl.spConstr.Nodup) (hk : w.ctl.spCost.Nodup) :
    (w'.ctl.spConstr = w.ctl.spConstr.filter fun i => 0 < w.extCons i) ∧
    (w'.ctl.spEqConstr = w.ctl.spEqConstr.filter fun i => 0 < w.extCons i) ∧
    (w'.ctl.spIneqConstr = w.ctl.spIneqConstr.filter fun i => 0 < w.extCons i) ∧
    (w'.ctl.spBoundConstr = w.ctl.spBoundConstr.filter fun i => 0 < w.extCons i) ∧
    (w'.ctl.spCost = w.ctl.spCost.filter fun i => 0 < w.extCosts i) := by
  obtain ⟨e1, e2, e3, e4, e5⟩ := c39_as_built h hs
  have hc' : ∀ i, w.ctl.spConstr.count i ≤ 1 := List.nodup_iff_count_le_one.1 hc
  have hk' : ∀ i, w.ctl.spCost.count i ≤ 1 := List.nodup_iff_count_le_one.1 hk
  have a : ∀ i, (decide (0 < w.extCons i ∨ 1 < w.ctl.spConstr.count i)) = decide (0 < w.extCons i) := by
    intro i; have := hc' i; rw [decide_eq_decide]; omega
  have b : ∀ i, (decide (0 < w.extCosts i ∨ 1 < w.ctl.spCost.count i)) = decide (0 < w.extCosts i) := by
    intro i; have := hk' i; rw [decide_eq_decide]; omega
  simp only [a, b] at e1 e2 e3 e4 e5
  exact ⟨e1, e2, e3, e4, e5⟩

end World
end Copra
