import Verif.Proofs.UserQP

/-! # A solve of a program with user-defined objects is defined -/

namespace Copra
open Spec

set_option linter.unusedSectionVars false
set_option linter.unusedSimpArgs false

variable {K S : Type} [Field K] [LinearOrder K] [IsStrictOrderedRing K]

namespace UWorld

theorem updateConstrs_returns {cls : Nat → Option (ConstrClass K S)} {ps : PreviewSystem K}
    : ∀ {L : List Nat}
    {cons cw cw' : Nat → Constr K} {mem : Nat → S}, (∀ i ∈ L, ∀ C, cls i = some C → ∀ o, C.update ps o ≠ none) → (∀ i, cls i = none → cw i = cons i) →
    (L.filter fun i => (cls i).isNone).foldlM (World.updateConstr ps) cw = some cw' →
    ∃ r, L.foldlM (updateConstr cls ps) (cons, mem) = some r := by
  intro L
  induction L with
  | nil => intro cons cw cw' mem _ _ _; exact ⟨_, rfl⟩
  | cons a L ih =>
    intro cons cw cw' mem hr h e
    rw [List.foldlM_cons]
    cases hc : cls a with
    | none =>
      rw [List.filter_cons_of_pos (by rw [hc]; rfl), List.foldlM_cons] at e
      simp only [Option.bind_eq_bind, Option.bind_eq_some_iff] at e
      obtain ⟨c1, e1, e2⟩ := e
      unfold World.updateConstr at e1
      simp only [Option.bind_eq_bind, Option.bind_eq_some_iff, Option.pure_def, Option.some.injEq] at e1
      obtain ⟨c, hu, rfl⟩ := e1
      have hag : ∀ i, cls i = none → World.upd cw a c i = World.upd cons a c i := by
        intro i hi
        by_cases ha : i = a
        · subst ha; rw [World.upd_same, World.upd_same]
        · rw [World.upd_ne _ _ ha, World.upd_ne _ _ ha]; exact h i hi
      obtain ⟨r, hr'⟩ := ih (mem := mem) (fun i hi => hr i (List.mem_cons_of_mem _ hi)) hag e2
      refine ⟨r, ?_⟩
      have : updateConstr cls ps (cons, mem) a = some (World.upd cons a c, mem) := by
        unfold updateConstr World.updateConstr
        rw [hc]
        simp only
        rw [← h a hc, hu]
        rfl
      rw [this]
      exact hr'
    | some C =>
      rw [List.filter_cons_of_neg (by rw [hc]; simp)] at e
      obtain ⟨o, ho⟩ := Option.ne_none_iff_exists'.1 (hr a (List.mem_cons_self ..) C hc ((cons a).inheritedRows, mem a))
      have hag : ∀ i, cls i = none → cw i = World.upd cons a ((cons a).setRows o.1) i := by
        intro i hi
        rw [World.upd_ne _ _ (by rintro rfl; rw [hc] at hi; cases hi)]
        exact h i hi
      obtain ⟨r, hr'⟩ := ih (mem := World.upd mem a o.2) (fun i hi => hr i (List.mem_cons_of_mem _ hi)) hag e
      refine ⟨r, ?_⟩
      have : updateConstr cls ps (cons, mem) a = some (World.upd cons a ((cons a).setRows o.1), World.upd mem a o.2) := by
        unfold updateConstr
        rw [hc]
        simp only
        rw [ho]
        rfl
      rw [this]
      exact hr'

theorem updateCosts_returns {cls : Nat → Option (CostClass K S)} {ps : PreviewSystem K}
    : ∀ {L : List Nat}
    {costs cw cw' : Nat → Cost K} {mem : Nat → S}, (∀ i ∈ L, ∀ C, cls i = some C → ∀ o, C.update ps o ≠ none) → (∀ i, cls i = none → cw i = costs i) →
    (L.filter fun i => (cls i).isNone).foldlM (World.updateCost ps) cw = some cw' →
    ∃ r, L.foldlM (updateCost cls ps) (costs, mem) = some r := by
  intro L
  induction L with
  | nil => intro costs cw cw' mem _ _ _; exact ⟨_, rfl⟩
  | cons a L ih =>
    intro costs cw cw' mem hr h e
    rw [List.foldlM_cons]
    cases hc : cls a with
    | none =>
      rw [List.filter_cons_of_pos (by rw [hc]; rfl), List.foldlM_cons] at e
      simp only [Option.bind_eq_bind, Option.bind_eq_some_iff] at e
      obtain ⟨c1, e1, e2⟩ := e
      unfold World.updateCost at e1
      simp only [Option.bind_eq_bind, Option.bind_eq_some_iff, Option.pure_def, Option.some.injEq] at e1
      obtain ⟨c, hu, rfl⟩ := e1
      have hag : ∀ i, cls i = none → World.upd cw a c i = World.upd costs a c i := by
        intro i hi
        by_cases ha : i = a
        · subst ha; rw [World.upd_same, World.upd_same]
        · rw [World.upd_ne _ _ ha, World.upd_ne _ _ ha]; exact h i hi
      obtain ⟨r, hr'⟩ := ih (mem := mem) (fun i hi => hr i (List.mem_cons_of_mem _ hi)) hag e2
      refine ⟨r, ?_⟩
      have : updateCost cls ps (costs, mem) a = some (World.upd costs a c, mem) := by
        unfold updateCost World.updateCost
        rw [hc]
        simp only
        rw [← h a hc, hu]
        rfl
      rw [this]
      exact hr'
    | some C =>
      rw [List.filter_cons_of_neg (by rw [hc]; simp)] at e
      obtain ⟨o, ho⟩ := Option.ne_none_iff_exists'.1 (hr a (List.mem_cons_self ..) C hc ((costs a).inheritedTerms, mem a))
      have hag : ∀ i, cls i = none → cw i = World.upd costs a ((costs a).setTerms o.1) i := by
        intro i hi
        rw [World.upd_ne _ _ (by rintro rfl; rw [hc] at hi; cases hi)]
        exact h i hi
      obtain ⟨r, hr'⟩ := ih (mem := World.upd mem a o.2) (fun i hi => hr i (List.mem_cons_of_mem _ hi)) hag e
      refine ⟨r, ?_⟩
      have : updateCost cls ps (costs, mem) a = some (World.upd costs a ((costs a).setTerms o.1), World.upd mem a o.2) := by
        unfold updateCost
        rw [hc]
        simp only
        rw [ho]
        rfl
      rw [this]
      exact hr'

theorem updateSystem_eq {junk : Junk K} {X : UWorld K S} : X.updateSystem junk =
    X.world.ctl.ps.bind fun p =>
    (if (X.world.pss p).isUpdated then some (X.world.pss p) else (X.world.pss p).updateSystem).bind fun ps =>
    ({ X.world.ctl with
        Q := (Mat.identity X.world.ctl.Q.rows X.world.ctl.Q.cols).scale (1 / 1000000)
        c := Vec.zero X.world.ctl.c.rows }.updateNr X.world.cons).bind fun l1 =>
    (l1.updateConstraintMatrixSize junk ps).bind fun l2 =>
    (l2.spConstr.foldlM (updateConstr X.consClass ps) (X.world.cons, X.consMem)).bind fun c =>
    (l2.spCost.foldlM (updateCost X.costClass ps) (X.world.costs, X.costMem)).bind fun k =>
    some { X with
        world := { X.world with pss := World.upd X.world.pss p ps, cons := c.1, costs := k.1, ctl := l2 }
        consMem := c.2, costMem := k.2 } := by
  unfold updateSystem
  simp only [Option.bind_eq_bind]
  congr 1
  funext p
  by_cases h : (X.world.pss p).isUpdated = true
  · rw [if_pos h, if_pos h]; rfl
  · rw [if_neg h, if_neg h]; rfl

theorem updateSystem_mk {junk : Junk K} {X : UWorld K S} {p : Nat} {ps : PreviewSystem K} {l1 l2 : LMPC K}
    {cons : Nat → Constr K} {costs : Nat → Cost K} {cm km : Nat → S} (hp : X.world.ctl.ps = some p)
    (hps : (if (X.world.pss p).isUpdated then some (X.world.pss p) else (X.world.pss p).updateSystem) = some ps)
    (e1 : { X.world.ctl with
        Q := (Mat.identity X.world.ctl.Q.rows X.world.ctl.Q.cols).scale (1 / 1000000)
        c := Vec.zero X.world.ctl.c.rows }.updateNr X.world.cons = some l1)
    (e2 : l1.updateConstraintMatrixSize junk ps = some l2)
    (hc : l2.spConstr.foldlM (updateConstr X.consClass ps) (X.world.cons, X.consMem) = some (cons, cm))
    (hk : l2.spCost.foldlM (updateCost X.costClass ps) (X.world.costs, X.costMem) = some (costs, km)) :
    X.updateSystem junk = some { X with
        world := { X.world with pss := World.upd X.world.pss p ps, cons := cons, costs := costs, ctl := l2 }
        consMem := cm, costMem := km } := by
  rw [updateSystem_eq, hp, Option.bind_some, hps, Option.bind_some, e1, Option.bind_some, e2, Option.bind_some, hc, Option.bind_some, hk,
    Option.bind_some]

/-- Given conforming classes whose `update` returns, a solve is defined. -/
theorem solve_returns {d : Dims} {dmax : K} {X : UWorld K S} {g gw : Ghost} {w : World K} {env : SolveEnv K}
    (P : Projects d dmax X g w gw) (hconf : Conforming d X) (hret : Returning d X) (hint : RowsCount X)
    (ho : OpOk d X.world g (.solve env)) : ∃ X' b q, X.solve env = some (X', b, q) := by
  obtain ⟨p, hp⟩ := Option.ne_none_iff_exists'.1 ho.1
  have C := P.without.ctl
  have hpw : w.ctl.ps = some p := C.ps.trans hp
  have CU := P.hist.good.canUpdate hpw
  obtain ⟨w1, hu, H, f1, -, -, -⟩ := World.updateSystem_ok (junk := env.junk) CU
  obtain ⟨p', ps, k1, k2, consw, costsw, hp', hps, a1, a2, ac, ak, rfl, f3⟩ := World.updateSystem_inv hu
  rw [hpw] at hp'; cases hp'
  have Sh : SysShape d ps := by
    have := H.sys.dims.toSysShape
    simp only [World.upd_same] at this
    exact this
  have Pd : SysPred d ps := by have := H.pred; simp only [World.upd_same] at this; exact this
  have hx0 : ps.x0.rows = d.n := by
    have := H.x0; simp only [World.upd_same] at this; rw [this]; exact CU.x0
  rw [P.without.pss] at hps
  -- the rows
  have e1 : ∃ l1, ({ X.world.ctl with
        Q := (Mat.identity X.world.ctl.Q.rows X.world.ctl.Q.cols).scale (1 / 1000000)
        c := Vec.zero X.world.ctl.c.rows } : LMPC K).updateNr X.world.cons = some l1 := by
    unfold LMPC.updateNr
    simp only
    rw [LMPC.countConstr_ok hint.1, LMPC.countConstr_ok hint.2]
    exact ⟨_, rfl⟩
  obtain ⟨l1, e1⟩ := e1
  obtain ⟨u1, -⟩ := LMPC.updateNr_fixed e1
  have hi1 : l1.isInit = X.world.ctl.isInit := u1.isInit
  have e2 : ∃ l2, l1.updateConstraintMatrixSize env.junk ps = some l2 := by
    unfold LMPC.updateConstraintMatrixSize
    rw [LMPC.optSize_ok Sh (by rw [hi1, ← C.isInit]; exact CU.wle)]
    exact ⟨_, rfl⟩
  obtain ⟨l2, e2⟩ := e2
  have f2' := u1.trans (LMPC.updateConstraintMatrixSize_fixed e2).1
  have f2 : LMPC.Fixed X.world.ctl l2 := ⟨f2'.isInit, f2'.ps, f2'.sol, f2'.spCost, f2'.spConstr, f2'.spEqConstr, f2'.spIneqConstr,
    f2'.spBoundConstr, f2'.trajectory, f2'.control, f2'.solveTime, f2'.solveAndBuildTime, f2'.R, f2'.r, f2'.x0lb, f2'.x0ub⟩
  -- the loops
  rw [C.spConstr] at ac
  rw [C.spCost] at ak
  obtain ⟨⟨cons, cm⟩, ec⟩ := updateConstrs_returns (mem := X.consMem) (fun i hi D hD o => hret.1 i hi D hD ps o Sh.xDim Sh.fullU) P.without.cons ac
  obtain ⟨⟨costs, km⟩, ek⟩ := updateCosts_returns (mem := X.costMem) (fun i hi D hD o => hret.2 i hi D hD ps o Sh.xDim Sh.fullU) P.without.costs ak
  have hX1 := updateSystem_mk (junk := env.junk) hp hps e1 e2 (by rw [f2.spConstr]; exact ec) (by rw [f2.spCost]; exact ek)
  obtain ⟨⟨cw', c1, c2⟩, -, c4⟩ := updateConstrs_sim P.without.cons ec
  obtain ⟨⟨kw', x1, x2⟩, x3⟩ := updateCosts_sim P.without.costs ek
  rw [ac] at c1; cases c1
  rw [ak] at x1; cases x1
  have Pr : LMPC.Prepared d cons costs l2 := prepared (cm := cm) (km := km) P hconf hpw H Sh e1 e2 f2 c2 x2 c4 x3
  -- the rest
  have hm : ∃ l, l2.makeQPForm env.inverse cons costs ps = some l ∧ l.qp.nrVar = numVars d X.world.ctl := by
    unfold LMPC.makeQPForm
    cases hi : X.world.ctl.isInit
    · have hi2 : l2.isInit = false := by rw [f2.isInit]; exact hi
      rw [hi2]
      obtain ⟨m, em, am⟩ := LMPC.makeQPFormBase_ok Sh Pr hi2
      refine ⟨m, em, ?_⟩
      unfold numVars; rw [am.nrVar, am.cr, hi]; rfl
    · have hi2 : l2.isInit = true := by rw [f2.isInit]; exact hi
      rw [hi2]
      obtain ⟨r1, r2, r3, r4, r5, r6⟩ := ho.2.init hi
      obtain ⟨m, em, am⟩ := LMPC.makeQPFormInit_ok (inverse := env.inverse) Sh Pr hi2 (by rw [f2.R]; exact r1) (by rw [f2.R]; exact r2)
        (by rw [f2.r]; exact r3) (by rw [f2.x0lb]; exact r4) (by rw [f2.x0ub]; exact r5) r6
      refine ⟨m, em, ?_⟩
      unfold numVars; rw [am.nrVar, am.cr, hi]; rfl
  obtain ⟨l, hl, hv⟩ := hm
  have fl := f2.trans (LMPC.makeQPForm_fixed hl)
  obtain ⟨s, hs⟩ := Option.ne_none_iff_exists'.1 ho.2.sol
  have hsl : l.sol = some s := by rw [fl.sol]; exact hs
  unfold solve
  rw [hX1]
  simp only [Option.bind_eq_bind, Option.bind_some]
  unfold World.solveTail
  simp only
  rw [f2.ps, hp]
  simp only [Option.bind_eq_bind, Option.bind_some, World.upd_same]
  rw [hl]
  simp only [Option.bind_some]
  rw [hsl]
  simp only [Option.bind_some]
  cases hb : (env.answer l.qp).1
  · simp only [Bool.false_eq_true, if_false, Option.pure_def, Option.bind_some]
    exact ⟨_, _, _, rfl⟩
  · simp only [if_true]
    obtain ⟨l', e', -⟩ := LMPC.updateResults_ok (l := LMPC.checkDelete X.world.extCons X.world.extCosts
      { l with sol := some { s with result := (env.answer l.qp).2 }, solveTime := some (env.t2 - env.t1) })
      (s := { s with result := (env.answer l.qp).2 }) Sh Pd hx0 rfl
      (by
        show (env.answer l.qp).2.rows = _
        rw [ho.2.answer _ hv hb, hv]
        unfold numVars
        have : l.isInit = X.world.ctl.isInit := fl.isInit
        simp only [LMPC.checkDelete, this])
    rw [e']
    exact ⟨_, _, _, rfl⟩

end UWorld
end Copra
