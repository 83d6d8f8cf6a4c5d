import Verif.Proofs.UserHist

/-! # The problem assembled from library and user-defined objects -/

namespace Copra
open Spec

set_option linter.unusedSectionVars false
set_option linter.unusedSimpArgs false

variable {K S : Type} [Field K] [LinearOrder K] [IsStrictOrderedRing K]

namespace UWorld

theorem times_last {α : Type} {f : α → Option α} : ∀ {k : Nat} {a b : α}, times f (k + 1) a = some b →
    ∃ c, times f k a = some c ∧ f c = some b := by
  intro k
  induction k with
  | zero =>
    intro a b h
    simp only [times, Option.bind_eq_some_iff] at h
    obtain ⟨c, h1, h2⟩ := h
    cases h2
    exact ⟨a, rfl, h1⟩
  | succ k ih =>
    intro a b h
    rw [times, Option.bind_eq_some_iff] at h
    obtain ⟨c, h1, h2⟩ := h
    obtain ⟨e, h3, h4⟩ := ih h2
    exact ⟨e, by rw [times, h1]; exact h3, h4⟩

theorem _root_.Copra.Spec.ConstrClass.Conforms.nr {d : Dims} {r : Nat} {C : ConstrClass K S} (h : ConstrClass.Conforms d r C)
    {ps : PreviewSystem K} (h1 : ps.xDim = d.n) (h2 : ps.fullUDim = d.m * d.N) :
    ∀ {k : Nat} {o o' : Rows K × S}, o.1.nrConstr = r → ConstrClass.Updates C ps k o o' → o'.1.nrConstr = r := by
  intro k
  induction k with
  | zero => intro o o' h0 e; cases e; exact h0
  | succ k ih =>
    intro o o' h0 e
    unfold ConstrClass.Updates at e
    rw [times, Option.bind_eq_some_iff] at e
    obtain ⟨c, e1, e2⟩ := e
    exact ih (h ps o c h1 h2 h0 e1).1 e2

theorem _root_.Copra.Spec.ConstrClass.Conforms.sizes {d : Dims} {r : Nat} {C : ConstrClass K S} (h : ConstrClass.Conforms d r C)
    {ps : PreviewSystem K} (h1 : ps.xDim = d.n) (h2 : ps.fullUDim = d.m * d.N) {k : Nat} (hk : 0 < k) {o : Rows K × S}
    {c : Constr K} {m : S} (h0 : o.1.nrConstr = r) (e : ConstrClass.Updates C ps k o (c.inheritedRows, m)) : Constr.RowSizes d c := by
  obtain ⟨k, rfl⟩ := Nat.exists_eq_succ_of_ne_zero hk.ne'
  obtain ⟨o1, e1, e2⟩ := times_last e
  obtain ⟨a0, a1, a2, a3, a4, a5, a6⟩ := h ps _ _ h1 h2 (h.nr h1 h2 h0 e1) e2
  simp only [Constr.inheritedRows] at a0 a1 a2 a3 a4 a5 a6
  exact ⟨a1.trans a0.symm, a2, a3.trans a0.symm, a4.trans a0.symm, a5, a6.trans a0.symm⟩

theorem _root_.Copra.Spec.CostClass.Conforms.sizes {d : Dims} {C : CostClass K S} (h : CostClass.Conforms d C) {ps : PreviewSystem K}
    (h1 : ps.xDim = d.n) (h2 : ps.fullUDim = d.m * d.N) {k : Nat} (hk : 0 < k) {o : Terms K × S} {c : Cost K} {m : S}
    (e : CostClass.Updates C ps k o (c.inheritedTerms, m)) : Cost.Sizes d c := by
  obtain ⟨k, rfl⟩ := Nat.exists_eq_succ_of_ne_zero hk.ne'
  obtain ⟨o1, e1, e2⟩ := times_last e
  obtain ⟨a1, a2, a3, a4, a5, a6⟩ := h ps _ _ h1 h2 e2
  exact ⟨a1, a2, a3, a4, a5, a6⟩

/-- One solve of a program with user-defined objects and of the program without them. -/
structure Both (d : Dims) (p : Nat) (env : SolveEnv K) (X : UWorld K S) (w : World K) (X' : UWorld K S) (w' : World K) (b : Bool)
    (q q' : QP K) : Prop where
  ps : X.world.ctl.ps = some p
  solve : w.solve { env with answer := fun _ => env.answer q } = some (w', b, q')
  contract : SolveContract d { env with answer := fun _ => env.answer q } w.ctl
  without : WithoutUser X' w'
  inv : X'.Inv
  user : UserUpdated X (X'.world.pss p) X'
  solved : World.Solved d p { env with answer := fun _ => env.answer q } w w' b q'
  plain : X.world.ctl.isInit = false → LMPC.Assembled d X'.world.cons X'.world.costs X.world.ctl q
  init : X.world.ctl.isInit = true → LMPC.AssembledInit d env.inverse X'.world.cons X'.world.costs X.world.ctl q
  lb : q.lb = q'.lb
  ub : q.ub = q'.ub
  answer : b = (env.answer q).1
  sol : ∃ s, X.world.ctl.sol = some s ∧ X'.world.ctl.sol = some { s with result := (env.answer q).2 }

/-- What `updateSystem` hands to `makeQPForm` is of the right sizes. -/
theorem prepared {d : Dims} {dmax : K} {X : UWorld K S} {g gw : Ghost} {w w' : World K} {p : Nat} {ps : PreviewSystem K} {junk : Junk K}
    {cons : Nat → Constr K} {costs : Nat → Cost K} {cm km : Nat → S} {l1 l2 : LMPC K}
    (P : Projects d dmax X g w gw) (hconf : Conforming d X) (hpw : w.ctl.ps = some p) (H : World.HeapUpdated d p w w')
    (Sh : SysShape d ps)
    (e1 : { X.world.ctl with
        Q := (Mat.identity X.world.ctl.Q.rows X.world.ctl.Q.cols).scale (1 / 1000000)
        c := Vec.zero X.world.ctl.c.rows }.updateNr X.world.cons = some l1)
    (e2 : l1.updateConstraintMatrixSize junk ps = some l2) (f2 : LMPC.Fixed X.world.ctl l2)
    (Wc : ∀ i, X.consClass i = none → w'.cons i = cons i) (Wk : ∀ i, X.costClass i = none → w'.costs i = costs i)
    (hUc : ∀ i C, X.consClass i = some C → ConstrClass.Updates C ps (X.world.ctl.spConstr.count i)
      ((X.world.cons i).inheritedRows, X.consMem i) ((cons i).inheritedRows, cm i))
    (hUk : ∀ i C, X.costClass i = some C → CostClass.Updates C ps (X.world.ctl.spCost.count i)
      ((X.world.costs i).inheritedTerms, X.costMem i) ((costs i).inheritedTerms, km i)) :
    LMPC.Prepared d cons costs l2 := by
  have G := P.hist.good
  have CU := G.canUpdate hpw
  have C := P.without.ctl
  -- sizes of the rows
  have hnum : numVars d w.ctl = numVars d X.world.ctl := by unfold numVars; rw [C.isInit]
  have hmem : ∀ i ∈ X.world.ctl.spConstr, X.consClass i = none → i ∈ w.ctl.spConstr := by
    intro i hi hn
    rw [C.spConstr, List.mem_filter, hn]; exact ⟨hi, rfl⟩
  have hreg := World.mem_registered P.inv.part
  have hrows : ∀ i ∈ X.world.ctl.spConstr, (X.world.cons i).constraintType ≠ .bound → Constr.RowSizes d (cons i) := by
    intro i hi ht
    cases hC : X.consClass i with
    | none =>
      rw [← Wc i hC]
      have hw := hmem i hi hC
      have := (H.cons i).1 hw
      refine this.1.sizes ?_
      rw [(H.frame i).kind, P.without.cons i hC]
      intro hk
      apply ht
      unfold Constr.constraintType
      rw [hk]
    | some D => exact (hconf.1 i hi D hC).sizes Sh.xDim Sh.fullU (List.count_pos_iff.2 hi) rfl (hUc i D hC)
  have hnr : ∀ i ∈ X.world.ctl.spConstr, (cons i).nrConstr = (X.world.cons i).nrConstr := by
    intro i hi
    cases hC : X.consClass i with
    | none =>
      rw [← Wc i hC, ← P.without.cons i hC]
      exact (H.frame i).nr
    | some D => exact (hconf.1 i hi D hC).nr Sh.xDim Sh.fullU rfl (hUc i D hC)
  have heq : ∀ i ∈ X.world.ctl.spEqConstr, i ∈ X.world.ctl.spConstr ∧ (X.world.cons i).constraintType ≠ .bound := by
    intro i hi
    refine ⟨(hreg i).2 (Or.inl hi), ?_⟩
    rw [P.inv.part.eq] at hi
    simp only [List.mem_filter, decide_eq_true_eq] at hi
    rw [hi.2]; exact fun h => by cases h
  have hineq : ∀ i ∈ X.world.ctl.spIneqConstr, i ∈ X.world.ctl.spConstr ∧ (X.world.cons i).constraintType ≠ .bound := by
    intro i hi
    refine ⟨(hreg i).2 (Or.inr (Or.inl hi)), ?_⟩
    rw [P.inv.part.ineq] at hi
    simp only [List.mem_filter, decide_eq_true_eq] at hi
    rw [hi.2]; exact fun h => by cases h
  have hbd := bound_same P.without P.inv
  obtain ⟨u1, u2, u3, u4, u5⟩ := LMPC.updateNr_fixed e1
  obtain ⟨v1, v2, v3, v4, v5, v6, v7⟩ := LMPC.updateConstraintMatrixSize_fixed e2
  have n1 : l1.nrEqConstr = total (fun i => (X.world.cons i).nrConstr) X.world.ctl.spEqConstr ∧
      l1.nrIneqConstr = total (fun i => (X.world.cons i).nrConstr) X.world.ctl.spIneqConstr := by
    unfold LMPC.updateNr at e1
    simp only [Option.bind_eq_bind, Option.bind_eq_some_iff, Option.pure_def, Option.some.injEq] at e1
    obtain ⟨a, ha, c, hc, rfl⟩ := e1
    exact ⟨countConstr_inv ha, countConstr_inv hc⟩
  have hn2 : numVars d l2 = numVars d X.world.ctl := by unfold numVars; rw [f2.isInit]
  have hopt : l1.optSize ps = some (numVars d X.world.ctl) := by
    have : l1.isInit = X.world.ctl.isInit := u1.isInit
    rw [LMPC.optSize_ok Sh (by rw [this, ← C.isInit]; exact CU.wle)]
    unfold numVars; rw [this]
  have hA : l2.Aeq.rows = l1.nrEqConstr ∧ l2.Aeq.cols = numVars d X.world.ctl ∧ l2.beq.rows = l1.nrEqConstr ∧
      l2.Aineq.rows = l1.nrIneqConstr ∧ l2.Aineq.cols = numVars d X.world.ctl ∧ l2.bineq.rows = l1.nrIneqConstr := by
    unfold LMPC.updateConstraintMatrixSize at e2
    rw [hopt] at e2
    simp only [Option.bind_eq_bind, Option.bind_some, Option.pure_def, Option.some.injEq] at e2
    subst e2
    exact ⟨rfl, rfl, rfl, rfl, rfl, rfl⟩
  refine ⟨?_, ?_, ?_, ?_, ?_, ?_, ?_, ?_, ?_, ?_, ?_, ?_, ?_, ?_, ?_, ?_, ?_⟩
  · intro i hi
    rw [f2.spEqConstr] at hi
    obtain ⟨a, b⟩ := heq i hi
    exact hrows i a b
  · intro i hi
    rw [f2.spIneqConstr] at hi
    obtain ⟨a, b⟩ := hineq i hi
    exact hrows i a b
  · intro i hi
    rw [f2.spBoundConstr] at hi
    have hC := P.inv.bound_lib hi
    rw [← Wc i hC]
    rw [← hbd] at hi
    obtain ⟨a, b⟩ := CU.typed.2.2 i hi
    have := ((H.cons i).1 a).1
    unfold Constr.Reg at this
    have hk : (w'.cons i).kind = .ctrlBound := by rw [(H.frame i).kind]; exact b
    rw [hk] at this
    exact this
  · rw [f2.spBoundConstr, ← hbd]; exact G.one
  · intro i hi
    rw [f2.spCost] at hi
    cases hC : X.costClass i with
    | none =>
      rw [← Wk i hC]
      have hw : i ∈ w.ctl.spCost := by rw [C.spCost, List.mem_filter, hC]; exact ⟨hi, rfl⟩
      exact ((H.costs i).1 hw).1.sizes
    | some D => exact (hconf.2 i hi D hC).sizes Sh.xDim Sh.fullU (List.count_pos_iff.2 hi) (hUk i D hC)
  · rw [v2, u2, hn2, ← C.Qr, ← C.Qc, CU.Qr, CU.Qc, hnum]
  · rw [v3, u3, hn2, ← C.cr, CU.cr, hnum]
  · rw [v6, n1.1, f2.spEqConstr]; exact total_congr fun i hi => (hnr i (heq i hi).1).symm
  · rw [v7, n1.2, f2.spIneqConstr]; exact total_congr fun i hi => (hnr i (hineq i hi).1).symm
  · rw [v6]; exact hA.1
  · rw [hn2]; exact hA.2.1
  · rw [v6]; exact hA.2.2.1
  · rw [v7]; exact hA.2.2.2.1
  · rw [hn2]; exact hA.2.2.2.2.1
  · rw [v7]; exact hA.2.2.2.2.2
  · rw [v4, u4, hn2]; show X.world.ctl.lb.rows = _; rw [← C.lb, CU.lbr, hnum]
  · rw [v5, u5, hn2]; show X.world.ctl.ub.rows = _; rw [← C.ub, CU.ubr, hnum]

theorem both {d : Dims} {dmax : K} {X X' : UWorld K S} {g gw : Ghost} {w : World K} {env : SolveEnv K} {b : Bool} {q : QP K}
    (P : Projects d dmax X g w gw) (hconf : Conforming d X) (ho : OpOk d X.world g (.solve env))
    (hs : X.solve env = some (X', b, q)) : ∃ p w' q', Both d p env X w X' w' b q q' := by
  obtain ⟨w', q', hs', W', I', hc', p, hp, hU⟩ := solve_sim P.without P.inv P.hist.good ho.2 hs
  obtain ⟨p1, hp1, Sv⟩ := P.hist.good.solved hc' hs'
  have hpw : w.ctl.ps = some p := P.without.ctl.ps.trans hp
  rw [hpw] at hp1
  cases hp1
  have Sh : SysShape d (w'.pss p) := Sv.heap.sys.dims.toSysShape
  rw [W'.pss] at Sh
  -- the stages on the side of the program with user-defined objects
  obtain ⟨X1, w1, hu, ht, rfl⟩ := solve_inv hs
  obtain ⟨p', ps, l1, l2, cons, cm, costs, km, hp', hps, e1, e2, ec, ek, rfl, f2⟩ := updateSystem_inv hu
  rw [hp] at hp'; cases hp'
  obtain ⟨p'', l, s, l', hp'', hm, hsl, rfl, rfl, hr, rfl⟩ := ht
  have : p'' = p := by
    have : l2.ps = some p'' := hp''
    rw [f2.ps, hp] at this; cases this; rfl
  subst this
  simp only [World.upd_same] at hm hr Sh
  have hUc : ∀ i C, X.consClass i = some C → ConstrClass.Updates C ps (X.world.ctl.spConstr.count i)
      ((X.world.cons i).inheritedRows, X.consMem i) ((cons i).inheritedRows, cm i) := by
    intro i C hC
    have := hU.cons i C hC
    simp only [World.upd_same, constrObj] at this
    exact this
  have hUk : ∀ i C, X.costClass i = some C → CostClass.Updates C ps (X.world.ctl.spCost.count i)
      ((X.world.costs i).inheritedTerms, X.costMem i) ((costs i).inheritedTerms, km i) := by
    intro i C hC
    have := hU.costs i C hC
    simp only [World.upd_same, costObj] at this
    exact this
  have Wc : ∀ i, X.consClass i = none → w'.cons i = cons i := W'.cons
  have Wk : ∀ i, X.costClass i = none → w'.costs i = costs i := W'.costs
  have Pr : LMPC.Prepared d cons costs l2 := prepared P hconf hpw Sv.heap Sh e1 e2 f2 Wc Wk hUc hUk
  obtain ⟨u1, u2, u3, u4, u5⟩ := LMPC.updateNr_fixed e1
  obtain ⟨v1, v2, v3, v4, v5, v6, v7⟩ := LMPC.updateConstraintMatrixSize_fixed e2
  have hlbe : l2.lb = X.world.ctl.lb := v4.trans u4
  have hube : l2.ub = X.world.ctl.ub := v5.trans u5
  have hfin : l'.lb = l.lb ∧ l'.ub = l.ub ∧ l'.sol = some { s with result := (env.answer l.qp).2 } := by
    cases hb : (env.answer l.qp).1
    · rw [hb] at hr
      simp only [Bool.false_eq_true, if_false, Option.some.injEq] at hr
      subst hr
      exact ⟨rfl, rfl, rfl⟩
    · rw [hb] at hr
      simp only [if_true] at hr
      rw [World.updateResults_frame hr]
      exact ⟨rfl, rfl, rfl⟩
  refine ⟨p'', w', q', ⟨hp, hs', hc', W', I', hU, Sv, ?_, ?_, ?_, ?_, rfl, ?_⟩⟩
  · intro hi
    have hi2 : l2.isInit = false := by rw [f2.isInit]; exact hi
    obtain ⟨m, em, am⟩ := LMPC.makeQPFormBase_ok Sh Pr hi2
    unfold LMPC.makeQPForm at hm
    rw [hi2] at hm
    simp only [Bool.false_eq_true, if_false] at hm
    rw [hm] at em
    cases em
    exact World.assembled_congr f2 hlbe hube am
  · intro hi
    have hi2 : l2.isInit = true := by rw [f2.isInit]; exact hi
    obtain ⟨r1, r2, r3, r4, r5, r6⟩ := ho.2.init hi
    obtain ⟨m, em, am⟩ := LMPC.makeQPFormInit_ok (inverse := env.inverse) Sh Pr hi2 (by rw [f2.R]; exact r1) (by rw [f2.R]; exact r2)
      (by rw [f2.r]; exact r3) (by rw [f2.x0lb]; exact r4) (by rw [f2.x0ub]; exact r5) r6
    unfold LMPC.makeQPForm at hm
    rw [hi2] at hm
    simp only [if_true] at hm
    rw [hm] at em
    cases em
    exact World.assembledInit_congr f2 hlbe hube am
  · rw [← Sv.lb, W'.ctl.lb]
    exact hfin.1.symm
  · rw [← Sv.ub, W'.ctl.ub]
    exact hfin.2.1.symm
  · refine ⟨s, ?_, hfin.2.2⟩
    rw [← hsl, (LMPC.makeQPForm_fixed hm).sol, f2.sol]

end UWorld
end Copra
