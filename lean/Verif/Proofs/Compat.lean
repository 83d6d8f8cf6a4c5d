import Verif.Proofs.Solve
import Verif.Props.Costs
import Verif.Props.Constraints

/-! # The invariant of histories with fixed dimensions -/

namespace Copra
open Spec

set_option linter.unusedSectionVars false
set_option linter.unusedSimpArgs false

variable {K : Type} [Field K] [LinearOrder K] [IsStrictOrderedRing K]

namespace World

/-- First row of the control part of the controller's decision variables. -/
def off (d : Dims) (l : LMPC K) : Nat := if l.isInit then d.n else 0

/-- The invariant. -/
structure GoodRaw (d : Dims) (dmax : K) (w : World K) (g : Ghost) : Prop where
  raw : ∀ p, HasSystem w p → SysRaw d (w.pss p) ∧ (w.pss p).x0.rows = d.n
  consReg : ∀ i, g.constr i → Constr.Reg d (w.cons i)
  consUn : ∀ i, ¬ g.constr i → Constr.Unreg (w.cons i)
  costReg : ∀ i, g.cost i → Cost.Pre d (w.costs i)
  costUn : ∀ i, ¬ g.cost i → Cost.Unreg (w.costs i)
  fresh : ∀ i, g.fresh i → g.cost i ∧ Cost.Clean d (w.costs i)
  subC : ∀ i ∈ w.ctl.spConstr, g.constr i
  subK : ∀ i ∈ w.ctl.spCost, g.cost i
  part : LMPC.Partition w.cons w.ctl
  one : w.ctl.spBoundConstr.length ≤ 1
  eqLe : total (fun i => (w.cons i).nrConstr) w.ctl.spEqConstr ≤ w.ctl.nrEqConstr
  ineqLe : total (fun i => (w.cons i).nrConstr) w.ctl.spIneqConstr ≤ w.ctl.nrIneqConstr
  eqMax : w.ctl.nrEqConstr ≤ intMax
  ineqMax : w.ctl.nrIneqConstr ≤ intMax
  ctl : ∀ p, w.ctl.ps = some p → HasSystem w p ∧ (w.ctl.isInit = true → d.n + d.m * d.N ≤ intMax) ∧
    w.ctl.Q.rows = numVars d w.ctl ∧ w.ctl.Q.cols = numVars d w.ctl ∧ w.ctl.c.rows = numVars d w.ctl ∧
    w.ctl.lb.rows = numVars d w.ctl ∧ w.ctl.ub.rows = numVars d w.ctl
  clean : g.clean → w.ctl.ps ≠ none → ∀ j < d.m * d.N,
    w.ctl.lb.e (off d w.ctl + j) = .fin (-dmax) ∧ w.ctl.ub.e (off d w.ctl + j) = .fin dmax

theorem GoodRaw.canRaw {d : Dims} {dmax : K} {w : World K} {g : Ghost} (h : GoodRaw d dmax w g) {p : Nat}
    (hp : w.ctl.ps = some p) : CanRaw d p w := by
  obtain ⟨a1, a2, a3, a4, a5, a6, a7⟩ := h.ctl p hp
  exact ⟨hp, (h.raw p a1).1, (h.raw p a1).2, fun i hi => h.consReg i (h.subC i hi),
    fun i hi => h.costReg i (h.subK i hi), h.part, h.one, h.eqLe.trans h.eqMax, h.ineqLe.trans h.ineqMax,
    a2, a3, a4, a5, a6, a7⟩

theorem GoodRaw.start {d : Dims} {dmax : K} {w : World K} (h : Init w) : GoodRaw d dmax w Ghost.start := by
  obtain ⟨h1, h2, h3, b, s, h4⟩ := h
  refine ⟨?_, fun _ h => h.elim, fun i _ => Constr.fresh_unreg (h2 i), fun _ h => h.elim,
    fun i _ => Cost.fresh_unreg (h3 i), fun _ h => h.elim, ?_, ?_, ?_, ?_, ?_, ?_, ?_, ?_, ?_, ?_⟩
  · intro p hp
    unfold HasSystem at hp
    rw [h1 p] at hp
    exact absurd hp (Nat.lt_irrefl 0)
  all_goals rw [h4]
  · exact fun i hi => absurd hi List.not_mem_nil
  · exact fun i hi => absurd hi List.not_mem_nil
  · exact LMPC.Partition.nil rfl rfl rfl rfl
  · exact Nat.zero_le _
  · exact Nat.zero_le _
  · exact Nat.zero_le _
  · exact Nat.zero_le _
  · exact Nat.zero_le _
  · intro p hp; cases hp
  · intro _ hp; exact absurd rfl hp

/-- What is known of a solve in a history. -/
theorem GoodRaw.solvedRaw {d : Dims} {dmax : K} {w w' : World K} {g : Ghost} {env : SolveEnv K} {b : Bool} {q : QP K}
    (h : GoodRaw d dmax w g) (hc : SolveContract d env w.ctl) (hs : w.solve env = some (w', b, q)) :
    ∃ p, w.ctl.ps = some p ∧ SolvedRaw d p env w w' b q := by
  obtain ⟨_, _, _, _, _, h1, _⟩ := solve_inv hs
  obtain ⟨p, _, _, _, _, _, hp, _⟩ := updateSystem_inv h1
  obtain ⟨w2, b2, q2, e, S⟩ := solve_raw (h.canRaw hp) hc
  rw [hs] at e
  cases e
  exact ⟨p, hp, S⟩

/-! ## Preview systems -/

theorem GoodRaw.sysUpd {d : Dims} {dmax : K} {w : World K} {g : Ghost} (h : GoodRaw d dmax w g) {p : Nat}
    {ps : PreviewSystem K} (hn : ps.nrUStep = (w.pss p).nrUStep ∨ 0 < ps.nrUStep)
    (ho : 0 < ps.nrUStep → SysRaw d ps ∧ ps.x0.rows = d.n) :
    (∀ j, HasSystem w j → 0 < (upd w.pss p ps j).nrUStep) ∧
    (∀ j, 0 < (upd w.pss p ps j).nrUStep → SysRaw d (upd w.pss p ps j) ∧ (upd w.pss p ps j).x0.rows = d.n) := by
  constructor
  · intro j hj
    by_cases e : j = p
    · subst e; rw [upd_same]
      rcases hn with hn | hn
      · rw [hn]; exact hj
      · exact hn
    · rw [upd_ne _ _ e]; exact hj
  · intro j hj
    by_cases e : j = p
    · subst e; rw [upd_same] at hj ⊢; exact ho hj
    · rw [upd_ne _ _ e] at hj ⊢; exact h.raw j hj

theorem GoodRaw.stepSys {d : Dims} {dmax : K} {w w' : World K} {g : Ghost} {op : Op K} (hg : GoodRaw d dmax w g)
    (ho : OpOk d w g op) (h : Steps dmax w op w') :
    (∀ j, HasSystem w j → HasSystem w' j) ∧ (∀ j, HasSystem w' j → SysRaw d (w'.pss j) ∧ (w'.pss j).x0.rows = d.n) := by
  have triv : (∀ j, HasSystem w j → HasSystem w j) ∧
      (∀ j, HasSystem w j → SysRaw d (w.pss j) ∧ (w.pss j).x0.rows = d.n) := ⟨fun _ h => h, hg.raw⟩
  rcases h with h | ⟨e, h⟩ <;> cases op <;> simp only [step, Res.map_ok, Res.map_thrown, Res.ofOption_ok] at h
  case inl.system p A B v x0 N =>
    obtain ⟨s, h, rfl⟩ := h
    obtain ⟨a1, a2, a3, a4, a5, a6, a7⟩ := system_ok h
    obtain ⟨o1, o2, o3⟩ := ho
    have e : (⟨A.cols, B.cols, N.toNat⟩ : Dims) = d := by
      rw [o1, o2, o3]; rfl
    rw [e] at a1
    refine hg.sysUpd (Or.inr (by rw [a1.dims.nrU]; exact a1.dims.Npos)) fun _ => ⟨a1.raw, ?_⟩
    rw [a5, a7, o1]
  case inr.system p A B v x0 N =>
    obtain ⟨s, h, rfl⟩ := h
    have : s = w.pss p := by
      unfold PreviewSystem.system at h
      split_ifs at h
      all_goals first | (cases h; rfl) | exact absurd h Res.ofOption_ne_thrown
    subst this
    exact hg.sysUpd (Or.inl rfl) fun hp => hg.raw p hp
  case inl.xInit p x =>
    cases h
    exact hg.sysUpd (Or.inl rfl) fun hp => ⟨(hg.raw p hp).1.setXInit x, ho⟩
  case inl.setDynamics p A B v =>
    cases h
    exact hg.sysUpd (Or.inl rfl) fun hp => ⟨(hg.raw p hp).1.setDynamics ho.1 ho.2.1 ho.2.2, (hg.raw p hp).2⟩
  case inl.updatePs p =>
    obtain ⟨s, h, rfl⟩ := h
    obtain ⟨s', e, a1, a2, a3, a4, a5, a6, a7⟩ := Copra.updateSystem_raw (hg.raw p ho).1
    rw [h] at e
    cases e
    refine hg.sysUpd (Or.inl ?_) fun _ => ⟨a1.raw, by rw [a7]; exact (hg.raw p ho).2⟩
    rw [a1.dims.nrU, (hg.raw p ho).1.dims.nrU]
  case inl.addCost j junk =>
    unfold addCost at h
    split at h
    · cases h
    · split at h <;> cases h
      exact triv
  case inr.addCost j junk =>
    unfold addCost at h
    split at h
    · cases h
    · split at h <;> cases h
      exact triv
  case inl.addConstraint j junk =>
    unfold addConstraint at h
    split at h
    · cases h
    · split at h
      · split at h <;> cases h
        exact triv
      · cases h
      · cases h
  case inr.addConstraint j junk =>
    unfold addConstraint at h
    split at h
    · cases h
    · split at h
      · split at h <;> cases h
      · cases h; exact triv
      · cases h
  case inl.clearConstraints =>
    obtain ⟨_, _, _, _, rfl⟩ := clearConstraints_inv h
    exact triv
  case inl.solve env =>
    obtain ⟨⟨w1, b, q⟩, hs, rfl⟩ := Option.map_eq_some_iff.1 h
    obtain ⟨p, hp, S⟩ := hg.solvedRaw ho.2 hs
    have H := S.heap
    obtain ⟨c1, _⟩ := hg.ctl p hp
    have P := hg.raw p c1
    constructor
    · intro j hj
      by_cases e : j = p
      · subst e; unfold HasSystem; rw [H.sys.dims.nrU]; exact H.sys.dims.Npos
      · unfold HasSystem; rw [H.others j e]; exact hj
    · intro j hj
      by_cases e : j = p
      · subst e; exact ⟨H.sys, by rw [H.x0]; exact P.2⟩
      · unfold HasSystem at hj; rw [H.others j e] at hj ⊢; exact hg.raw j hj
  case inr.updateConstr | inr.updatePs | inr.updateCost | inr.constructPs | inr.initializeController | inr.removeConstraint =>
    obtain ⟨_, h, _⟩ := h
    exact absurd h Res.ofOption_ne_thrown
  case inr.clearConstraints | inr.solve => exact absurd h Res.ofOption_ne_thrown
  all_goals first
    | (cases h <;> exact triv)
    | (obtain ⟨_, _, rfl⟩ := h; exact triv)

/-! ## Constraints -/

/-- State of a constraint object that was (`P`) or was not accepted. -/
def CState (d : Dims) (P : Prop) (c : Constr K) : Prop := (P → Constr.Reg d c) ∧ (¬ P → Constr.Unreg c)

theorem CState.upd {d : Dims} {P P' : Nat → Prop} {cons : Nat → Constr K} (h : ∀ i, CState d (P i) (cons i)) {i : Nat}
    {c : Constr K} (hc : CState d (P' i) c) (hP : ∀ j, j ≠ i → (P' j ↔ P j)) (j : Nat) :
    CState d (P' j) (World.upd cons i c j) := by
  by_cases e : j = i
  · subst e; rw [upd_same]; exact hc
  · rw [upd_ne _ _ e]
    have := h j
    unfold CState at this ⊢
    rw [hP j e]; exact this

theorem CState.span {d : Dims} {P : Prop} {c c' : Constr K} {junk : Junk K} (h : CState d P c)
    (hs : c.autoSpan junk = .ok c' ∨ ∃ e, c.autoSpan junk = .thrown e c') : CState d P c' := by
  constructor
  · intro hp
    have e := Constr.autoSpan_rowsAgree junk (h.1 hp).rowsAgree
    rw [e] at hs
    rcases hs with hs | ⟨_, hs⟩
    · cases hs; exact h.1 hp
    · cases hs
  · intro hp
    rcases hs with hs | ⟨_, hs⟩
    · exact (Constr.autoSpan_ok hs).2.unreg (h.2 hp)
    · exact (Constr.autoSpan_thrown hs).2.unreg (h.2 hp)

/-- An accepted constraint: its state, and its size if it was accepted before. -/
theorem CState.init {d : Dims} {P : Prop} {c c' : Constr K} {junk : Junk K} {ps : PreviewSystem K} (S : SysShape d ps)
    (h : CState d P c) (hi : c.initializeConstraint junk ps = .ok c') :
    Constr.Reg d c' ∧ (P → c'.nrConstr = c.nrConstr) := by
  have H := Constr.initializeConstraint_spec (c := c) junk S
  obtain ⟨ho, hf, hn⟩ := Constr.init_ok S hi
  obtain ⟨c2, e, h2, h3, h4, h5, h6, h7, h8⟩ := H.accept ho hf hn
  rw [hi] at e
  cases e
  refine ⟨?_, ?_⟩
  · by_cases hp : P
    · exact (h8 (Or.inr (h.1 hp))).1
    · exact (h8 (Or.inl (h.2 hp))).1
  · intro hp
    exact (Constr.init_reg S (h.1 hp) hi).1.nr

theorem GoodRaw.cstate {d : Dims} {dmax : K} {w : World K} {g : Ghost} (h : GoodRaw d dmax w g) (i : Nat) :
    CState d (g.constr i) (w.cons i) := ⟨h.consReg i, h.consUn i⟩

/-- Every call keeps the constraints in order; an accepted constraint keeps its number of rows. -/
theorem GoodRaw.stepCons {d : Dims} {dmax : K} {w w' : World K} {g : Ghost} {op : Op K} {ok : Prop}
    (hg : GoodRaw d dmax w g) (ho : OpOk d w g op)
    (h : (ok ∧ w.step dmax op = .ok w') ∨ (¬ ok ∧ ∃ e, w.step dmax op = .thrown e w')) :
    (∀ i, CState d ((g.next w ok op).constr i) (w'.cons i)) ∧
    (∀ i, g.constr i → (w'.cons i).nrConstr = (w.cons i).nrConstr ∧ (g.next w ok op).constr i) := by
  have triv : (∀ i, CState d (g.constr i) (w.cons i)) ∧
    (∀ i, g.constr i → (w.cons i).nrConstr = (w.cons i).nrConstr ∧ g.constr i) :=
    ⟨hg.cstate, fun _ h => ⟨rfl, h⟩⟩
  have hsys := fun p hp => (hg.raw p hp).1.dims.toSysShape
  have initOk : ∀ {i p : Nat} {junk : Junk K} {c : Constr K}, HasSystem w p → ok →
      (w.cons i).initializeConstraint junk (w.pss p) = .ok c →
      (∀ j, CState d (g.constr j ∨ (ok ∧ j = i)) (upd w.cons i c j)) ∧
      (∀ j, g.constr j → (upd w.cons i c j).nrConstr = (w.cons j).nrConstr ∧ (g.constr j ∨ (ok ∧ j = i))) := by
    intro i p junk c hp hok hc
    obtain ⟨c1, c2⟩ := (hg.cstate i).init (hsys p hp) hc
    constructor
    · exact CState.upd hg.cstate (P' := fun j => g.constr j ∨ (ok ∧ j = i)) ⟨fun _ => c1, fun h => absurd (Or.inr ⟨hok, rfl⟩) h⟩
        (fun j hj => by simp [hj])
    · intro j hj
      refine ⟨?_, Or.inl hj⟩
      by_cases e : j = i
      · subst e; rw [upd_same]; exact c2 hj
      · rw [upd_ne _ _ e]
  have initThrown : ∀ {i p : Nat} {junk : Junk K} {c : Constr K} {e : Exn}, ¬ ok →
      (w.cons i).initializeConstraint junk (w.pss p) = .thrown e c →
      (∀ j, CState d (g.constr j ∨ (ok ∧ j = i)) (upd w.cons i c j)) ∧
      (∀ j, g.constr j → (upd w.cons i c j).nrConstr = (w.cons j).nrConstr ∧ (g.constr j ∨ (ok ∧ j = i))) := by
    intro i p junk c e hok hc
    rw [Constr.init_thrown hc, upd_self]
    refine ⟨fun j => ?_, fun j hj => ⟨rfl, Or.inl hj⟩⟩
    have := hg.cstate j
    unfold CState at this ⊢
    simp only [hok, false_and, or_false]
    exact this
  have spanCase : ∀ {i : Nat} {junk : Junk K} {c : Constr K}, ((w.cons i).autoSpan junk = .ok c ∨
      ∃ e, (w.cons i).autoSpan junk = .thrown e c) →
      (∀ j, CState d (g.constr j) (upd w.cons i c j)) ∧
      (∀ j, g.constr j → (upd w.cons i c j).nrConstr = (w.cons j).nrConstr ∧ g.constr j) := by
    intro i junk c hc
    refine ⟨CState.upd hg.cstate (P' := g.constr) ((hg.cstate i).span hc) (fun j _ => Iff.rfl), ?_⟩
    intro j hj
    refine ⟨?_, hj⟩
    by_cases e : j = i
    · subst e; rw [upd_same]
      rcases hc with hc | ⟨_, hc⟩
      · exact (Constr.autoSpan_ok hc).2.nr
      · exact (Constr.autoSpan_thrown hc).2.nr
    · rw [upd_ne _ _ e]
  rcases h with ⟨hok, h⟩ | ⟨hok, e, h⟩ <;> cases op <;>
    simp only [step, Res.map_ok, Res.map_thrown, Res.ofOption_ok] at h
  case inl.spanConstr j junk =>
    obtain ⟨c, h, rfl⟩ := h
    exact spanCase (Or.inl h)
  case inr.spanConstr j junk =>
    obtain ⟨c, h, rfl⟩ := h
    exact spanCase (Or.inr ⟨_, h⟩)
  case inl.initConstr j p junk =>
    obtain ⟨c, h, rfl⟩ := h
    exact initOk ho hok h
  case inr.initConstr j p junk =>
    obtain ⟨c, h, rfl⟩ := h
    exact initThrown hok h
  case inl.updateConstr j p =>
    obtain ⟨c, h, rfl⟩ := h
    obtain ⟨o1, o2, o3⟩ := ho
    obtain ⟨s1, s2⟩ := hg.raw p o2
    obtain ⟨c', e, r, f, _⟩ := Constr.update_upToDate (hg.consReg j o1) s1.dims.toSysShape s2
    rw [h] at e
    cases e
    refine ⟨CState.upd hg.cstate (P' := g.constr) ⟨fun _ => r, fun h => absurd o1 h⟩ (fun j _ => Iff.rfl), ?_⟩
    intro k hk
    refine ⟨?_, hk⟩
    by_cases e : k = j
    · subst e; show (upd w.cons k c k).nrConstr = _; rw [upd_same]; exact f.nr
    · show (upd w.cons j c k).nrConstr = _; rw [upd_ne _ _ e]
  case inl.addCost j junk =>
    unfold addCost at h
    split at h
    · cases h
    · split at h <;> cases h
      exact triv
  case inr.addCost j junk =>
    unfold addCost at h
    split at h
    · cases h
    · split at h <;> cases h
      exact triv
  case inl.addConstraint j junk =>
    unfold addConstraint at h
    split at h
    · cases h
    · rename_i p hp
      split at h
      · rename_i c hc
        split at h <;> cases h
        exact initOk (hg.ctl p hp).1 hok hc
      · cases h
      · cases h
  case inr.addConstraint j junk =>
    unfold addConstraint at h
    split at h
    · cases h
    · split at h
      · split at h <;> cases h
      · rename_i x c hc
        cases h; exact initThrown hok hc
      · cases h
  case inl.clearConstraints =>
    obtain ⟨_, _, _, _, rfl⟩ := clearConstraints_inv h
    exact triv
  case inl.solve env =>
    obtain ⟨⟨w1, b, q⟩, hs, rfl⟩ := Option.map_eq_some_iff.1 h
    obtain ⟨p, hp, S⟩ := hg.solvedRaw ho.2 hs
    have H := S.heap
    constructor
    · intro i
      by_cases hi : i ∈ w.ctl.spConstr
      · exact ⟨fun _ => ((H.cons i).1 hi).1, fun h => absurd (hg.subC i hi) h⟩
      · show CState d _ (w1.cons i)
        rw [(H.cons i).2 hi]; exact hg.cstate i
    · exact fun i hi => ⟨(H.frame i).nr, hi⟩
  case inr.updateConstr | inr.updatePs | inr.updateCost | inr.constructPs | inr.initializeController | inr.removeConstraint =>
    obtain ⟨_, h, _⟩ := h
    exact absurd h Res.ofOption_ne_thrown
  case inr.clearConstraints | inr.solve => exact absurd h Res.ofOption_ne_thrown
  all_goals first
    | (cases h <;> exact triv)
    | (obtain ⟨_, _, rfl⟩ := h; exact triv)

/-! ## Costs -/

/-- State of a cost object that was (`P`) or was not accepted, and is fresh (`F`) or not. -/
def KState (d : Dims) (P F : Prop) (c : Cost K) : Prop :=
  (P → Cost.Pre d c) ∧ (¬ P → Cost.Unreg c) ∧ (F → P ∧ Cost.Clean d c)

theorem KState.upd {d : Dims} {P F P' F' : Nat → Prop} {costs : Nat → Cost K}
    (h : ∀ i, KState d (P i) (F i) (costs i)) {i : Nat} {c : Cost K} (hc : KState d (P' i) (F' i) c)
    (hP : ∀ j, j ≠ i → (P' j ↔ P j) ∧ (F' j ↔ F j)) (j : Nat) : KState d (P' j) (F' j) (World.upd costs i c j) := by
  by_cases e : j = i
  · subst e; rw [upd_same]; exact hc
  · rw [upd_ne _ _ e]
    have := h j
    unfold KState at this ⊢
    rw [(hP j e).1, (hP j e).2]; exact this

theorem KState.span {d : Dims} {P F : Prop} {c c' : Cost K} {junk : Junk K} (h : KState d P F c)
    (hs : c.autoSpan junk = .ok c' ∨ ∃ e, c.autoSpan junk = .thrown e c') : KState d P F c' := by
  by_cases hp : P
  · have e := Cost.autoSpan_rowsAgree junk (h.1 hp).rowsAgree
    rw [e] at hs
    rcases hs with hs | ⟨_, hs⟩
    · cases hs; exact h
    · cases hs
  · refine ⟨fun h => absurd h hp, fun _ => ?_, fun hf => absurd (h.2.2 hf).1 hp⟩
    obtain ⟨u1, u2⟩ := h.2.1 hp
    rcases hs with hs | ⟨_, hs⟩
    · obtain ⟨_, f, k⟩ := Cost.autoSpan_ok hs
      exact ⟨by rw [f.full, f.kind]; exact u1, k u2⟩
    · obtain ⟨_, f, k⟩ := Cost.autoSpan_thrown hs
      exact ⟨by rw [f.full, f.kind]; exact u1, k u2⟩

theorem KState.weights {d : Dims} {P F : Prop} {c : Cost K} {v : Vec K} (h : KState d P F c)
    (hv : v.rows = c.weights.rows) : KState d P F { c with weights := v } :=
  ⟨fun hp => (h.1 hp).weights hv, fun hp => ⟨(h.2.1 hp).1, hv.trans (h.2.1 hp).2⟩, fun hf => h.2.2 hf⟩

theorem KState.init {d : Dims} {P F : Prop} {c c' : Cost K} {junk : Junk K} {ps : PreviewSystem K} (S : SysShape d ps)
    (h : KState d P F c) (hi : c.initializeCost junk ps = .ok c') : Cost.Reg d c' ∧ Cost.Clean d c' := by
  by_cases hp : P
  · obtain ⟨a, b, _⟩ := Cost.reinit_reg S (h.1 hp) hi
    exact ⟨a, b⟩
  · have H := Cost.init_spec junk S (h.2.1 hp).2 (Or.inl (h.2.1 hp).1)
    by_cases hf : Cost.Fits d c
    · obtain ⟨c2, e, a, b, _⟩ := H.1 hf
      rw [hi] at e; cases e; exact ⟨a, b⟩
    · obtain ⟨c2, e, _⟩ := H.2 hf
      rw [hi] at e; cases e

theorem KState.initThrown {d : Dims} {P F : Prop} {c c' : Cost K} {junk : Junk K} {ps : PreviewSystem K} {e : Exn}
    (S : SysShape d ps) (h : KState d P F c) (hi : c.initializeCost junk ps = .thrown e c') : KState d P F c' := by
  by_cases hp : P
  · obtain ⟨c2, e2, _⟩ := (Cost.init_spec junk S (h.1 hp).wr (Or.inr (h.1 hp).data)).1 (h.1 hp).data.fits
    rw [hi] at e2; cases e2
  · refine ⟨fun h => absurd h hp, fun _ => ?_, fun hf => absurd (h.2.2 hf).1 hp⟩
    obtain ⟨u1, u2⟩ := h.2.1 hp
    have H := Cost.init_spec junk S u2 (Or.inl u1)
    by_cases hf : Cost.Fits d c
    · obtain ⟨c2, e2, _⟩ := H.1 hf
      rw [hi] at e2; cases e2
    · obtain ⟨c2, e2, a, b⟩ := H.2 hf
      rw [hi] at e2; cases e2
      exact ⟨by rw [b, a.kind]; exact u1, a.wok.2 u2⟩

theorem GoodRaw.kstate {d : Dims} {dmax : K} {w : World K} {g : Ghost} (h : GoodRaw d dmax w g) (i : Nat) :
    KState d (g.cost i) (g.fresh i) (w.costs i) := ⟨h.costReg i, h.costUn i, h.fresh i⟩

theorem GoodRaw.stepCosts {d : Dims} {dmax : K} {w w' : World K} {g : Ghost} {op : Op K} {ok : Prop}
    (hg : GoodRaw d dmax w g) (ho : OpOk d w g op)
    (h : (ok ∧ w.step dmax op = .ok w') ∨ (¬ ok ∧ ∃ e, w.step dmax op = .thrown e w')) :
    (∀ i, KState d ((g.next w ok op).cost i) ((g.next w ok op).fresh i) (w'.costs i)) ∧
    (∀ i, g.cost i → (g.next w ok op).cost i) := by
  have triv : (∀ i, KState d (g.cost i) (g.fresh i) (w.costs i)) ∧ (∀ i, g.cost i → g.cost i) :=
    ⟨hg.kstate, fun _ h => h⟩
  have hsys := fun p hp => (hg.raw p hp).1.dims.toSysShape
  have initOk : ∀ {i p : Nat} {junk : Junk K} {c : Cost K}, HasSystem w p → ok →
      (w.costs i).initializeCost junk (w.pss p) = .ok c →
      (∀ j, KState d (g.cost j ∨ (ok ∧ j = i)) (g.fresh j ∨ (ok ∧ j = i)) (upd w.costs i c j)) ∧
      (∀ j, g.cost j → (g.cost j ∨ (ok ∧ j = i))) := by
    intro i p junk c hp hok hc
    obtain ⟨c1, c2⟩ := (hg.kstate i).init (hsys p hp) hc
    refine ⟨?_, fun _ h => Or.inl h⟩
    exact KState.upd hg.kstate (P' := fun j => g.cost j ∨ (ok ∧ j = i)) (F' := fun j => g.fresh j ∨ (ok ∧ j = i))
      ⟨fun _ => c1.pre, fun h => absurd (Or.inr ⟨hok, rfl⟩) h, fun _ => ⟨Or.inr ⟨hok, rfl⟩, c2⟩⟩
      (fun j hj => by simp [hj])
  have initThrown : ∀ {i p : Nat} {junk : Junk K} {c : Cost K} {e : Exn}, HasSystem w p → ¬ ok →
      (w.costs i).initializeCost junk (w.pss p) = .thrown e c →
      (∀ j, KState d (g.cost j ∨ (ok ∧ j = i)) (g.fresh j ∨ (ok ∧ j = i)) (upd w.costs i c j)) ∧
      (∀ j, g.cost j → (g.cost j ∨ (ok ∧ j = i))) := by
    intro i p junk c e hp hok hc
    have := KState.upd hg.kstate (P' := g.cost) (F' := g.fresh) ((hg.kstate i).initThrown (hsys p hp) hc)
      (fun j _ => ⟨Iff.rfl, Iff.rfl⟩)
    refine ⟨fun j => ?_, fun _ h => Or.inl h⟩
    have := this j
    unfold KState at this ⊢
    simp only [hok, false_and, or_false]
    exact this
  have one : ∀ {i : Nat} {c : Cost K}, KState d (g.cost i) (g.fresh i) c →
      (∀ j, KState d (g.cost j) (g.fresh j) (upd w.costs i c j)) ∧ (∀ j, g.cost j → g.cost j) := by
    intro i c hc
    exact ⟨KState.upd hg.kstate (P' := g.cost) (F' := g.fresh) hc (fun j _ => ⟨Iff.rfl, Iff.rfl⟩), fun _ h => h⟩
  rcases h with ⟨hok, h⟩ | ⟨hok, e, h⟩ <;> cases op <;>
    simp only [step, Res.map_ok, Res.map_thrown, Res.ofOption_ok] at h
  case inl.spanCost j junk =>
    obtain ⟨c, h, rfl⟩ := h
    exact one ((hg.kstate j).span (Or.inl h))
  case inr.spanCost j junk =>
    obtain ⟨c, h, rfl⟩ := h
    exact one ((hg.kstate j).span (Or.inr ⟨_, h⟩))
  case inl.weights j v =>
    obtain ⟨c, h, rfl⟩ := h
    obtain ⟨u, rfl, hu⟩ := Cost.setWeights_frame (Or.inl h)
    exact one ((hg.kstate j).weights hu)
  case inr.weights j v =>
    obtain ⟨c, h, rfl⟩ := h
    obtain ⟨u, rfl, hu⟩ := Cost.setWeights_frame (Or.inr ⟨_, h⟩)
    exact one ((hg.kstate j).weights hu)
  case inl.weight j v =>
    cases h
    exact one ((hg.kstate j).weights rfl)
  case inl.initCost j p junk =>
    obtain ⟨c, h, rfl⟩ := h
    exact initOk ho hok h
  case inr.initCost j p junk =>
    obtain ⟨c, h, rfl⟩ := h
    exact initThrown ho hok h
  case inl.updateCost j p =>
    obtain ⟨c, h, rfl⟩ := h
    obtain ⟨o1, o2⟩ := ho
    obtain ⟨s1, s2⟩ := hg.raw p o2
    obtain ⟨c', e, r, _⟩ := Cost.update_ok (hg.costReg j o1) s1.dims.toSysShape s2
    rw [h] at e
    cases e
    refine ⟨KState.upd hg.kstate (P' := g.cost) (F' := fun k => g.fresh k ∧ k ≠ j)
      ⟨fun _ => r.pre, fun h => absurd o1 h, fun h => absurd rfl h.2⟩ (fun k hk => ⟨Iff.rfl, by simp [hk]⟩), fun _ h => h⟩
  case inl.addCost j junk =>
    unfold addCost at h
    split at h
    · cases h
    · rename_i p hp
      split at h <;> cases h
      rename_i c hc
      exact initOk (hg.ctl p hp).1 hok hc
  case inr.addCost j junk =>
    unfold addCost at h
    split at h
    · cases h
    · rename_i p hp
      split at h <;> cases h
      rename_i c hc
      exact initThrown (hg.ctl p hp).1 hok hc
  case inl.addConstraint j junk =>
    unfold addConstraint at h
    split at h
    · cases h
    · split at h
      · split at h <;> cases h
        exact triv
      · cases h
      · cases h
  case inr.addConstraint j junk =>
    unfold addConstraint at h
    split at h
    · cases h
    · split at h
      · split at h <;> cases h
      · cases h; exact triv
      · cases h
  case inl.clearConstraints =>
    obtain ⟨_, _, _, _, rfl⟩ := clearConstraints_inv h
    exact triv
  case inl.solve env =>
    obtain ⟨⟨w1, b, q⟩, hs, rfl⟩ := Option.map_eq_some_iff.1 h
    obtain ⟨p, hp, S⟩ := hg.solvedRaw ho.2 hs
    have H := S.heap
    refine ⟨?_, fun _ h => h⟩
    intro i
    show KState d (g.cost i) (g.fresh i ∧ i ∉ w.ctl.spCost) (w1.costs i)
    by_cases hi : i ∈ w.ctl.spCost
    · exact ⟨fun _ => ((H.costs i).1 hi).1.pre, fun h => absurd (hg.subK i hi) h, fun h => absurd hi h.2⟩
    · rw [(H.costs i).2 hi]
      have := hg.kstate i
      exact ⟨this.1, this.2.1, fun h => this.2.2 h.1⟩
  case inr.updateConstr | inr.updatePs | inr.updateCost | inr.constructPs | inr.initializeController | inr.removeConstraint =>
    obtain ⟨_, h, _⟩ := h
    exact absurd h Res.ofOption_ne_thrown
  case inr.clearConstraints | inr.solve => exact absurd h Res.ofOption_ne_thrown
  all_goals first
    | (cases h <;> exact triv)
    | (obtain ⟨_, _, rfl⟩ := h; exact triv)

/-! ## The controller -/

theorem total_sublist {sz : Nat → Nat} {a b : List Nat} (h : a.Sublist b) : total sz a ≤ total sz b := by
  induction h with
  | slnil => exact Nat.le_refl _
  | cons x _ ih => rw [total_cons]; omega
  | cons_cons x _ ih => rw [total_cons, total_cons]; omega

/-- The part of the invariant about the registries. -/
structure Lists (w : World K) (C Kst : Nat → Prop) (l : LMPC K) : Prop where
  subC : ∀ i ∈ l.spConstr, C i
  subK : ∀ i ∈ l.spCost, Kst i
  one : l.spBoundConstr.length ≤ 1
  eqLe : total (fun i => (w.cons i).nrConstr) l.spEqConstr ≤ l.nrEqConstr
  ineqLe : total (fun i => (w.cons i).nrConstr) l.spIneqConstr ≤ l.nrIneqConstr
  eqMax : l.nrEqConstr ≤ intMax
  ineqMax : l.nrIneqConstr ≤ intMax

theorem Lists.congr {w w' : World K} {C C' P P' : Nat → Prop} {l l' : LMPC K} (h : Lists w C P l)
    (hC : ∀ i ∈ l.spConstr, (w'.cons i).nrConstr = (w.cons i).nrConstr ∧ C' i) (hK : ∀ i, P i → P' i)
    (part : LMPC.Partition w.cons l)
    (e0 : l'.spConstr = l.spConstr) (e1 : l'.spEqConstr = l.spEqConstr) (e2 : l'.spIneqConstr = l.spIneqConstr)
    (e3 : l'.spBoundConstr = l.spBoundConstr) (e4 : l'.spCost = l.spCost) (e5 : l'.nrEqConstr = l.nrEqConstr)
    (e6 : l'.nrIneqConstr = l.nrIneqConstr) : Lists w' C' P' l' := by
  refine ⟨?_, ?_, ?_, ?_, ?_, ?_, ?_⟩
  · rw [e0]; exact fun i hi => (hC i hi).2
  · rw [e4]; exact fun i hi => hK i (h.subK i hi)
  · rw [e3]; exact h.one
  · rw [e1, e5]
    refine le_trans (le_of_eq ?_) h.eqLe
    apply total_congr
    intro i hi
    rw [part.eq] at hi
    exact (hC i (List.mem_of_mem_filter hi)).1
  · rw [e2, e6]
    refine le_trans (le_of_eq ?_) h.ineqLe
    apply total_congr
    intro i hi
    rw [part.ineq] at hi
    exact (hC i (List.mem_of_mem_filter hi)).1
  · rw [e5]; exact h.eqMax
  · rw [e6]; exact h.ineqMax

theorem Lists.shrink {w : World K} {C P : Nat → Prop} {l l' : LMPC K} (h : Lists w C P l)
    (e0 : l'.spConstr.Sublist l.spConstr) (e1 : l'.spEqConstr.Sublist l.spEqConstr)
    (e2 : l'.spIneqConstr.Sublist l.spIneqConstr) (e3 : l'.spBoundConstr.Sublist l.spBoundConstr)
    (e4 : l'.spCost.Sublist l.spCost) (e5 : l'.nrEqConstr = l.nrEqConstr)
    (e6 : l'.nrIneqConstr = l.nrIneqConstr) : Lists w C P l' := by
  refine ⟨fun i hi => h.subC i (e0.subset hi), fun i hi => h.subK i (e4.subset hi), e3.length_le.trans h.one, ?_, ?_, ?_, ?_⟩
  · rw [e5]; exact (total_sublist e1).trans h.eqLe
  · rw [e6]; exact (total_sublist e2).trans h.ineqLe
  · rw [e5]; exact h.eqMax
  · rw [e6]; exact h.ineqMax

theorem Lists.nil {w : World K} {C P : Nat → Prop} {l : LMPC K} (e0 : l.spConstr = []) (e1 : l.spEqConstr = [])
    (e2 : l.spIneqConstr = []) (e3 : l.spBoundConstr = []) (e5 : l.nrEqConstr = 0) (e6 : l.nrIneqConstr = 0)
    (hk : ∀ i ∈ l.spCost, P i) : Lists w C P l := by
  refine ⟨?_, hk, ?_, ?_, ?_, ?_, ?_⟩
  · rw [e0]; exact fun i hi => absurd hi List.not_mem_nil
  · rw [e3]; exact Nat.zero_le _
  · rw [e1]; exact Nat.zero_le _
  · rw [e2]; exact Nat.zero_le _
  · rw [e5]; exact Nat.zero_le _
  · rw [e6]; exact Nat.zero_le _

theorem GoodRaw.lists {d : Dims} {dmax : K} {w : World K} {g : Ghost} (h : GoodRaw d dmax w g) :
    Lists w g.constr g.cost w.ctl := ⟨h.subC, h.subK, h.one, h.eqLe, h.ineqLe, h.eqMax, h.ineqMax⟩

theorem GoodRaw.stepLists {d : Dims} {dmax : K} {w w' : World K} {g : Ghost} {op : Op K} {ok : Prop}
    (hg : GoodRaw d dmax w g) (ho : OpOk d w g op)
    (h : (ok ∧ w.step dmax op = .ok w') ∨ (¬ ok ∧ ∃ e, w.step dmax op = .thrown e w')) :
    Lists w' (g.next w ok op).constr (g.next w ok op).cost w'.ctl := by
  have hC : ∀ i, g.constr i → (w'.cons i).nrConstr = (w.cons i).nrConstr ∧ (g.next w ok op).constr i :=
    (hg.stepCons ho h).2
  have hK : ∀ i, g.cost i → (g.next w ok op).cost i := (hg.stepCosts ho h).2
  have same : Lists w' (g.next w ok op).constr (g.next w ok op).cost w.ctl :=
    hg.lists.congr (fun i hi => hC i (hg.subC i hi)) hK hg.part rfl rfl rfl rfl rfl rfl rfl
  rcases h with ⟨hok, h⟩ | ⟨hok, e, h⟩ <;> cases op <;>
    simp only [step, Res.map_ok, Res.map_thrown, Res.ofOption_ok] at h
  case inl.addCost j junk =>
    unfold addCost at h
    split at h
    · cases h
    · split at h <;> cases h
      refine ⟨same.subC, ?_, same.one, same.eqLe, same.ineqLe, same.eqMax, same.ineqMax⟩
      intro i hi
      rcases List.mem_append.1 hi with hi | hi
      · exact same.subK i hi
      · rw [List.mem_singleton.1 hi]; exact Or.inr ⟨hok, rfl⟩
  case inr.addCost j junk =>
    unfold addCost at h
    split at h
    · cases h
    · split at h <;> cases h
      exact same
  case inl.addConstraint j junk =>
    unfold addConstraint at h
    split at h
    · cases h
    · split at h
      · rename_i c hc
        split at h <;> cases h
        rename_i l hl
        have sub : ∀ i ∈ w.ctl.spConstr ++ [j], g.constr i ∨ (ok ∧ i = j) := by
          intro i hi
          rcases List.mem_append.1 hi with hi | hi
          · exact Or.inl (hg.subC i hi)
          · exact Or.inr ⟨hok, List.mem_singleton.1 hi⟩
        have hid := Constr.init_ident hc
        unfold LMPC.addConstraintByType at hl
        cases ht : c.constraintType <;> rw [ht] at hl <;> simp only at hl
        · simp only [Option.bind_eq_bind, Option.bind_eq_some_iff, Option.pure_def, Option.some.injEq, chkInt_eq] at hl
          obtain ⟨_, ⟨hle, rfl⟩, rfl⟩ := hl
          refine ⟨sub, same.subK, same.one, ?_, same.ineqLe, hle, same.ineqMax⟩
          have h1 : total (fun i => (upd w.cons j c i).nrConstr) w.ctl.spEqConstr ≤ w.ctl.nrEqConstr := same.eqLe
          show total (fun i => (upd w.cons j c i).nrConstr) (w.ctl.spEqConstr ++ [j]) ≤ w.ctl.nrEqConstr + c.nrConstr
          rw [total_append, total_cons, total_nil, upd_same]
          omega
        · simp only [Option.bind_eq_bind, Option.bind_eq_some_iff, Option.pure_def, Option.some.injEq, chkInt_eq] at hl
          obtain ⟨_, ⟨hle, rfl⟩, rfl⟩ := hl
          refine ⟨sub, same.subK, same.one, same.eqLe, ?_, same.eqMax, hle⟩
          have h1 : total (fun i => (upd w.cons j c i).nrConstr) w.ctl.spIneqConstr ≤ w.ctl.nrIneqConstr := same.ineqLe
          show total (fun i => (upd w.cons j c i).nrConstr) (w.ctl.spIneqConstr ++ [j]) ≤ w.ctl.nrIneqConstr + c.nrConstr
          rw [total_append, total_cons, total_nil, upd_same]
          omega
        · cases hl
          refine ⟨sub, same.subK, ?_, same.eqLe, same.ineqLe, same.eqMax, same.ineqMax⟩
          have hk : (w.cons j).kind = .ctrlBound := by
            rw [← hid.kind]
            unfold Constr.constraintType at ht
            cases hk : c.kind <;> rw [hk] at ht <;> simp only at ht <;>
              first | rfl | (split at ht <;> cases ht) | cases ht
          show (w.ctl.spBoundConstr ++ [j]).length ≤ 1
          rw [ho hk]
          simp
      · cases h
      · cases h
  case inr.addConstraint j junk =>
    unfold addConstraint at h
    split at h
    · cases h
    · split at h
      · split at h <;> cases h
      · cases h; exact same
      · cases h
  case inl.construct =>
    cases h
    exact Lists.nil rfl rfl rfl rfl rfl rfl fun i hi => absurd hi List.not_mem_nil
  case inl.constructPs =>
    obtain ⟨l, h, rfl⟩ := h
    obtain ⟨_, _, rfl⟩ := initializeController_inv h
    unfold seedInit
    split <;> exact Lists.nil rfl rfl rfl rfl rfl rfl fun i hi => absurd hi List.not_mem_nil
  case inl.initializeController =>
    obtain ⟨l, h, rfl⟩ := h
    obtain ⟨_, _, rfl⟩ := initializeController_inv h
    exact same.shrink (.refl _) (.refl _) (.refl _) (.refl _) (.refl _) rfl rfl
  case inl.removeConstraint j =>
    obtain ⟨l, h, rfl⟩ := h
    rw [hg.part.remove j] at h
    cases h
    exact same.shrink List.erase_sublist List.erase_sublist List.erase_sublist List.erase_sublist (.refl _) rfl rfl
  case inl.removeCost j =>
    cases h
    exact same.shrink (.refl _) (.refl _) (.refl _) (.refl _) List.erase_sublist rfl rfl
  case inl.clearCosts =>
    cases h
    exact same.shrink (.refl _) (.refl _) (.refl _) (.refl _) (List.nil_sublist _) rfl rfl
  case inl.clearConstraints =>
    obtain ⟨_, _, _, _, rfl⟩ := clearConstraints_inv h
    exact Lists.nil rfl rfl rfl rfl rfl rfl fun i hi => hK i (hg.subK i hi)
  case inl.solve env =>
    obtain ⟨⟨w1, b, q⟩, hs, rfl⟩ := Option.map_eq_some_iff.1 h
    obtain ⟨p, hp, S⟩ := hg.solvedRaw ho.2 hs
    obtain ⟨h1, h2, h3, h4, h5⟩ := (solve_frame hs).2
    obtain ⟨k1, k2, k3, k4, k5, _⟩ := LMPC.checkDelete_lists hg.part w.extCons w.extCosts
    have n1 : w1.ctl.nrEqConstr = total (fun i => (w1.cons i).nrConstr) w.ctl.spEqConstr := by
      rw [S.nrEq]
      cases hi : w.ctl.isInit
      · exact (S.plain hi).nrEq
      · exact (S.init hi).nrEq
    have n2 : w1.ctl.nrIneqConstr = total (fun i => (w1.cons i).nrConstr) w.ctl.spIneqConstr := by
      rw [S.nrIneq]
      cases hi : w.ctl.isInit
      · exact (S.plain hi).nrIneq
      · exact (S.init hi).nrIneq
    have m1 : w1.ctl.nrEqConstr ≤ intMax := by
      rw [n1]; exact same.eqLe.trans same.eqMax
    have m2 : w1.ctl.nrIneqConstr ≤ intMax := by
      rw [n2]; exact same.ineqLe.trans same.ineqMax
    refine ⟨?_, ?_, ?_, ?_, ?_, m1, m2⟩
    · intro i hi
      rw [h1, k1] at hi
      exact same.subC i (List.mem_of_mem_filter hi)
    · intro i hi
      rw [h5, k5] at hi
      exact same.subK i (List.mem_of_mem_filter hi)
    · rw [h4, k4]
      exact (List.length_filter_le _ _).trans hg.one
    · rw [n1, h2, k2]
      exact total_sublist List.filter_sublist
    · rw [n2, h3, k3]
      exact total_sublist List.filter_sublist
  case inl.useSolver | inl.resetInitialStateCost | inl.resetInitialStateBounds =>
    cases h; exact same.shrink (.refl _) (.refl _) (.refl _) (.refl _) (.refl _) rfl rfl
  case inr.updateConstr | inr.updatePs | inr.updateCost | inr.constructPs | inr.initializeController | inr.removeConstraint =>
    obtain ⟨_, h, _⟩ := h
    exact absurd h Res.ofOption_ne_thrown
  case inr.clearConstraints | inr.solve => exact absurd h Res.ofOption_ne_thrown
  all_goals first
    | (cases h <;> exact same)
    | (obtain ⟨_, _, rfl⟩ := h; exact same)

/-- The part of the invariant about the sizes of the controller's matrices. -/
def CtlOk (d : Dims) (w : World K) (l : LMPC K) : Prop :=
  ∀ p, l.ps = some p → HasSystem w p ∧ (l.isInit = true → d.n + d.m * d.N ≤ intMax) ∧
    l.Q.rows = numVars d l ∧ l.Q.cols = numVars d l ∧ l.c.rows = numVars d l ∧
    l.lb.rows = numVars d l ∧ l.ub.rows = numVars d l

/-- The part of the invariant about the bounds. -/
def CleanOk (d : Dims) (dmax : K) (P : Prop) (l : LMPC K) : Prop :=
  P → l.ps ≠ none → ∀ j < d.m * d.N,
    l.lb.e (off d l + j) = .fin (-dmax) ∧ l.ub.e (off d l + j) = .fin dmax

theorem GoodRaw.stepCtl {d : Dims} {dmax : K} {w w' : World K} {g : Ghost} {op : Op K} {ok : Prop}
    (hg : GoodRaw d dmax w g) (ho : OpOk d w g op)
    (h : (ok ∧ w.step dmax op = .ok w') ∨ (¬ ok ∧ ∃ e, w.step dmax op = .thrown e w')) :
    CtlOk d w' w'.ctl ∧ CleanOk d dmax (g.next w ok op).clean w'.ctl := by
  have hst : Steps dmax w op w' := by
    rcases h with h | h
    · exact Or.inl h.2
    · exact Or.inr h.2
  have hS := (hg.stepSys ho hst).1
  have ctl' : CtlOk d w' w.ctl := fun p hp => ⟨hS p (hg.ctl p hp).1, (hg.ctl p hp).2⟩
  have triv : CtlOk d w' w.ctl ∧ CleanOk d dmax g.clean w.ctl := ⟨ctl', hg.clean⟩
  have fresh : ∀ {l l' : LMPC K} {p : Nat} {junk : Junk K}, HasSystem w p →
      l.initializeController dmax junk p (w.pss p) = some l' → CtlOk d w' l' ∧ CleanOk d dmax True l' := by
    intro l l' p junk hp h
    obtain ⟨n, hn, rfl⟩ := initializeController_inv h
    obtain ⟨e, hle⟩ := LMPC.optSize_width (hg.raw p hp).1.dims.toSysShape hn
    subst e
    refine ⟨?_, ?_⟩
    · intro p' hp'
      cases hp'
      exact ⟨hS p hp, hle, rfl, rfl, rfl, rfl, rfl⟩
    · intro _ _ j _; exact ⟨rfl, rfl⟩
  rcases h with ⟨hok, h⟩ | ⟨hok, e, h⟩ <;> cases op <;>
    simp only [step, Res.map_ok, Res.map_thrown, Res.ofOption_ok] at h
  case inl.addCost j junk =>
    unfold addCost at h
    split at h
    · cases h
    · split at h <;> cases h
      exact triv
  case inr.addCost j junk =>
    unfold addCost at h
    split at h
    · cases h
    · split at h <;> cases h
      exact triv
  case inl.addConstraint j junk =>
    unfold addConstraint at h
    split at h
    · cases h
    · split at h
      · rename_i c hc
        split at h <;> cases h
        rename_i l hl
        unfold LMPC.addConstraintByType at hl
        cases ht : c.constraintType <;> rw [ht] at hl <;> simp only at hl
        · simp only [Option.bind_eq_bind, Option.bind_eq_some_iff, Option.pure_def, Option.some.injEq, chkInt_eq] at hl
          obtain ⟨_, ⟨hle, rfl⟩, rfl⟩ := hl
          exact triv
        · simp only [Option.bind_eq_bind, Option.bind_eq_some_iff, Option.pure_def, Option.some.injEq, chkInt_eq] at hl
          obtain ⟨_, ⟨hle, rfl⟩, rfl⟩ := hl
          exact triv
        · cases hl
          exact ⟨ctl', hg.clean⟩
      · cases h
      · cases h
  case inr.addConstraint j junk =>
    unfold addConstraint at h
    split at h
    · cases h
    · split at h
      · split at h <;> cases h
      · cases h; exact triv
      · cases h
  case inl.construct =>
    cases h
    exact ⟨fun p hp => (by cases hp), fun _ hp => absurd rfl hp⟩
  case inl.constructPs =>
    obtain ⟨l, h, rfl⟩ := h
    exact fresh ho h
  case inl.initializeController =>
    obtain ⟨l, h, rfl⟩ := h
    exact fresh ho h
  case inl.removeConstraint j =>
    obtain ⟨l, h, rfl⟩ := h
    rw [hg.part.remove j] at h
    cases h
    exact ⟨ctl', hg.clean⟩
  case inl.clearConstraints =>
    obtain ⟨p, n, hp, hn, rfl⟩ := clearConstraints_inv h
    obtain ⟨e, hle⟩ := LMPC.optSize_width (hg.raw p (hg.ctl p hp).1).1.dims.toSysShape hn
    subst e
    obtain ⟨c1, c2, c3, c4, c5, c6, c7⟩ := hg.ctl p hp
    refine ⟨?_, fun _ _ j _ => ⟨rfl, rfl⟩⟩
    intro p' hp'
    have : p' = p := by
      have : w.ctl.ps = some p' := hp'
      rw [hp] at this; cases this; rfl
    subst this
    exact ⟨hS p' c1, hle, c3, c4, c5, rfl, rfl⟩
  case inl.solve env =>
    obtain ⟨⟨w1, b, q⟩, hs, rfl⟩ := Option.map_eq_some_iff.1 h
    obtain ⟨p, hp, S⟩ := hg.solvedRaw ho.2 hs
    obtain ⟨F, h1, h2, h3, h4, h5⟩ := solve_frame hs
    have hw : numVars d w1.ctl = numVars d w.ctl := width_congr F.isInit
    have hoff : off d w1.ctl = off d w.ctl := by unfold off; rw [F.isInit]
    refine ⟨?_, ?_⟩
    · intro p' hp'
      have hp0 : w.ctl.ps = some p' := by rw [← F.ps]; exact hp'
      obtain ⟨c1, c2, c3, c4, c5, c6, c7⟩ := hg.ctl p' hp0
      refine ⟨hS p' c1, fun hi => c2 (by rw [← F.isInit]; exact hi), ?_⟩
      rw [hw, S.Q, S.c, S.lb, S.ub]
      unfold numVars
      cases hi : w.ctl.isInit
      · have A := S.plain hi
        exact ⟨A.Qr, A.Qc, A.cr, A.lbr, A.ubr⟩
      · have A := S.init hi
        exact ⟨A.Qr, A.Qc, A.cr, A.lbr, A.ubr⟩
    · rintro ⟨hc, hb0⟩ hpn j hj
      have hpn0 : w.ctl.ps ≠ none := by rw [← F.ps]; exact hpn
      have := hg.clean hc hpn0 j hj
      rw [hoff, S.lb, S.ub]
      cases hi : w.ctl.isInit
      · obtain ⟨a1, a2⟩ := (S.plain hi).keep hb0
        rw [a1, a2]; exact this
      · have A := (S.init hi).keep hb0 j hj
        unfold off at this ⊢
        rw [hi] at this ⊢
        simp only [if_true] at this ⊢
        rw [A.1, A.2]; exact this
  case inl.useSolver | inl.removeCost | inl.clearCosts | inl.resetInitialStateCost | inl.resetInitialStateBounds =>
    cases h; exact triv
  case inr.updateConstr | inr.updatePs | inr.updateCost | inr.constructPs | inr.initializeController | inr.removeConstraint =>
    obtain ⟨_, h, _⟩ := h
    exact absurd h Res.ofOption_ne_thrown
  case inr.clearConstraints | inr.solve => exact absurd h Res.ofOption_ne_thrown
  all_goals first
    | (cases h <;> exact triv)
    | (obtain ⟨_, _, rfl⟩ := h; exact triv)

theorem GoodRaw.step {d : Dims} {dmax : K} {w w' : World K} {g : Ghost} {op : Op K} {ok : Prop}
    (hg : GoodRaw d dmax w g) (ho : OpOk d w g op)
    (h : (ok ∧ w.step dmax op = .ok w') ∨ (¬ ok ∧ ∃ e, w.step dmax op = .thrown e w')) :
    GoodRaw d dmax w' (g.next w ok op) := by
  have hst : Steps dmax w op w' := by
    rcases h with h | h
    · exact Or.inl h.2
    · exact Or.inr h.2
  have h1 := hg.stepCons ho h
  have h2 := hg.stepCosts ho h
  have h3 := hg.stepLists ho h
  have h4 := hg.stepCtl ho h
  exact ⟨(hg.stepSys ho hst).2, fun i => (h1.1 i).1, fun i => (h1.1 i).2, fun i => (h2.1 i).1, fun i => (h2.1 i).2.1,
    fun i => (h2.1 i).2.2, h3.subC, h3.subK, hst.partition hg.part, h3.one, h3.eqLe, h3.ineqLe, h3.eqMax, h3.ineqMax,
    h4.1, h4.2⟩

/-! ## Contents of the prediction matrices -/

/-- The invariant of all histories of API calls: in addition, up-to-date prediction matrices are those of the dynamics. -/
structure Good (d : Dims) (dmax : K) (w : World K) (g : Ghost) : Prop extends GoodRaw d dmax w g where
  pred : ∀ p, HasSystem w p → (w.pss p).isUpdated = true → SysPred d (w.pss p)

theorem Good.sys {d : Dims} {dmax : K} {w : World K} {g : Ghost} (h : Good d dmax w g) (p : Nat) (hp : HasSystem w p) :
    SysOk d (w.pss p) ∧ (w.pss p).x0.rows = d.n :=
  ⟨⟨(h.raw p hp).1.dims, (h.raw p hp).1.base, h.pred p hp⟩, (h.raw p hp).2⟩

theorem Good.canUpdate {d : Dims} {dmax : K} {w : World K} {g : Ghost} (h : Good d dmax w g) {p : Nat}
    (hp : w.ctl.ps = some p) : CanUpdate d p w := ⟨h.canRaw hp, h.pred p (h.ctl p hp).1⟩

theorem Good.start {d : Dims} {dmax : K} {w : World K} (h : Init w) : Good d dmax w Ghost.start := by
  refine ⟨GoodRaw.start h, fun p hp => ?_⟩
  unfold HasSystem at hp
  rw [h.1 p] at hp
  exact absurd hp (Nat.lt_irrefl 0)

theorem Good.solved {d : Dims} {dmax : K} {w w' : World K} {g : Ghost} {env : SolveEnv K} {b : Bool} {q : QP K}
    (h : Good d dmax w g) (hc : SolveContract d env w.ctl) (hs : w.solve env = some (w', b, q)) :
    ∃ p, w.ctl.ps = some p ∧ Solved d p env w w' b q := by
  obtain ⟨p, hp, S⟩ := h.solvedRaw hc hs
  exact ⟨p, hp, S.solved (h.pred p (h.ctl p hp).1)⟩

theorem Good.stepPred {d : Dims} {dmax : K} {w w' : World K} {g : Ghost} {op : Op K} (hg : Good d dmax w g)
    (ho : OpOk d w g op) (h : Steps dmax w op w') :
    ∀ j, HasSystem w' j → (w'.pss j).isUpdated = true → SysPred d (w'.pss j) := by
  have one : ∀ {p : Nat} {ps : PreviewSystem K}, (0 < ps.nrUStep → ps.isUpdated = true → SysPred d ps) →
      ∀ j, 0 < (upd w.pss p ps j).nrUStep → (upd w.pss p ps j).isUpdated = true → SysPred d (upd w.pss p ps j) := by
    intro p ps hps j hj hu
    by_cases e : j = p
    · subst e; rw [upd_same] at hj hu ⊢; exact hps hj hu
    · rw [upd_ne _ _ e] at hj hu ⊢; exact hg.pred j hj hu
  have triv := hg.pred
  rcases h with h | ⟨e, h⟩ <;> cases op <;> simp only [World.step, Res.map_ok, Res.map_thrown, Res.ofOption_ok] at h
  case inl.system p A B v x0 N =>
    obtain ⟨s, h, rfl⟩ := h
    have : s.isUpdated = false := by
      unfold PreviewSystem.system at h
      split_ifs at h
      rw [Res.ofOption_ok] at h
      unfold PreviewSystem.systemBody at h
      simp only [Option.bind_eq_bind, Option.bind_eq_some_iff, Option.pure_def, Option.some.injEq] at h
      obtain ⟨_, _, _, _, _, _, _, _, _, _, _, _, rfl⟩ := h
      rfl
    exact one fun _ hu => by rw [this] at hu; cases hu
  case inr.system p A B v x0 N =>
    obtain ⟨s, h, rfl⟩ := h
    have : s = w.pss p := by
      unfold PreviewSystem.system at h
      split_ifs at h
      all_goals first | (cases h; rfl) | exact absurd h Res.ofOption_ne_thrown
    subst this
    exact one fun hp => hg.pred p hp
  case inl.xInit p x =>
    cases h
    refine one fun hp hu => ?_
    have P := hg.pred p hp hu
    exact ⟨P.phi, P.psi, P.xi⟩
  case inl.setDynamics p A B v =>
    cases h
    exact one fun _ hu => by cases hu
  case inl.updatePs p =>
    obtain ⟨s, h, rfl⟩ := h
    obtain ⟨s', e, _, a2, _⟩ := Copra.updateSystem_raw (hg.raw p ho).1
    rw [h] at e
    cases e
    exact one fun _ _ => a2
  case inl.addCost j junk =>
    unfold addCost at h
    split at h
    · cases h
    · split at h <;> cases h
      exact triv
  case inr.addCost j junk =>
    unfold addCost at h
    split at h
    · cases h
    · split at h <;> cases h
      exact triv
  case inl.addConstraint j junk =>
    unfold addConstraint at h
    split at h
    · cases h
    · split at h
      · split at h <;> cases h
        exact triv
      · cases h
      · cases h
  case inr.addConstraint j junk =>
    unfold addConstraint at h
    split at h
    · cases h
    · split at h
      · split at h <;> cases h
      · cases h; exact triv
      · cases h
  case inl.clearConstraints =>
    obtain ⟨_, _, _, _, rfl⟩ := clearConstraints_inv h
    exact triv
  case inl.solve env =>
    obtain ⟨⟨w1, b, q⟩, hs, rfl⟩ := Option.map_eq_some_iff.1 h
    obtain ⟨p, hp, S⟩ := hg.solved ho.2 hs
    intro j hj hu
    by_cases e : j = p
    · subst e; exact S.heap.pred
    · unfold HasSystem at hj; rw [S.heap.others j e] at hj hu ⊢; exact hg.pred j hj hu
  case inr.updateConstr | inr.updatePs | inr.updateCost | inr.constructPs | inr.initializeController | inr.removeConstraint =>
    obtain ⟨_, h, _⟩ := h
    exact absurd h Res.ofOption_ne_thrown
  case inr.clearConstraints | inr.solve => exact absurd h Res.ofOption_ne_thrown
  all_goals first
    | (cases h <;> exact triv)
    | (obtain ⟨_, _, rfl⟩ := h; exact triv)

theorem Good.step {d : Dims} {dmax : K} {w w' : World K} {g : Ghost} {op : Op K} {ok : Prop}
    (hg : Good d dmax w g) (ho : OpOk d w g op)
    (h : (ok ∧ w.step dmax op = .ok w') ∨ (¬ ok ∧ ∃ e, w.step dmax op = .thrown e w')) :
    Good d dmax w' (g.next w ok op) :=
  ⟨hg.toGoodRaw.step ho h, hg.stepPred ho (h.imp (·.2) (·.2))⟩

/-- The invariant holds along every history with fixed dimensions. -/
theorem _root_.Copra.Spec.Hist.good {d : Dims} {dmax : K} {E : World K → Op K → Prop} {w : World K} {g : Ghost}
    (h : Hist d dmax E w g) : Good d dmax w g := by
  induction h with
  | start h => exact Good.start h
  | ok _ ho _ hs ih => exact ih.step ho (Or.inl ⟨trivial, hs⟩)
  | thrown _ ho _ hs ih => exact ih.step ho (Or.inr ⟨fun h => h, _, hs⟩)

end World
end Copra
