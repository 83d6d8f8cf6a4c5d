import Verif.Props.InitState2

/-! # C31, C37: control bounds -/

namespace Copra
open Spec

set_option linter.unusedSectionVars false
set_option linter.unusedSimpArgs false

variable {K : Type} [Field K] [LinearOrder K] [IsStrictOrderedRing K]

namespace World

/-- Where the controls' bounds of the problem handed to the solver come from. -/
theorem Solved.boundSource {d : Dims} {p : Nat} {env : SolveEnv K} {w w' : World K} {b : Bool} {q : QP K}
    (S : Solved d p env w w' b q) :
    q.lb.rows = off d w.ctl + d.m * d.N ∧ q.ub.rows = off d w.ctl + d.m * d.N ∧
    (w.ctl.spBoundConstr = [] → ∀ j < d.m * d.N, q.lb.e (off d w.ctl + j) = w.ctl.lb.e (off d w.ctl + j) ∧
      q.ub.e (off d w.ctl + j) = w.ctl.ub.e (off d w.ctl + j)) ∧
    ∀ i, w.ctl.spBoundConstr = [i] → ∀ j < d.m * d.N, q.lb.e (off d w.ctl + j) = (w'.cons i).lb.e j ∧
      q.ub.e (off d w.ctl + j) = (w'.cons i).ub.e j := by
  unfold off
  cases hi : w.ctl.isInit
  · have A := S.plain hi
    simp only [Bool.false_eq_true, if_false, Nat.zero_add]
    refine ⟨A.lbr, A.ubr, fun hb j _ => ?_, A.bound⟩
    obtain ⟨k1, k2⟩ := A.keep hb
    rw [k1, k2]; exact ⟨rfl, rfl⟩
  · have A := S.init hi
    simp only [if_true]
    exact ⟨A.lbr, A.ubr, A.keep, A.bound⟩

/-- Controls within the bounds `lb`, `ub` of the problem satisfy the control bound `i` those came from. -/
theorem Solved.holds_of_bounds {d : Dims} {dmax : K} {p : Nat} {env : SolveEnv K} {w w' : World K} {g : Ghost} {b : Bool}
    {q : QP K} (hg : Good d dmax w g) (hp : w.ctl.ps = some p) (S : Solved d p env w w' b q) {i : Nat}
    (hb : w.ctl.spBoundConstr = [i]) (X : Nat → Nat → K) {U : Nat → K}
    (h : ∀ j < d.m * d.N, q.lb.e (off d w.ctl + j) ≤ Ext.fin (U j) ∧ Ext.fin (U j) ≤ q.ub.e (off d w.ctl + j)) :
    (w.cons i).userData.Holds d X U := by
  obtain ⟨_, _, t3⟩ := (hg.canUpdate hp).typed
  obtain ⟨a1, a2⟩ := t3 i (by rw [hb]; exact List.mem_singleton_self _)
  rw [← S.bounds a1 a2 X U]
  intro j hj
  obtain ⟨e1, e2⟩ := S.boundSource.2.2.2 i hb j hj
  rw [← e1, ← e2]
  exact h j hj

theorem feasible_controls {d : Dims} {p : Nat} {env : SolveEnv K} {w w' : World K} {b : Bool} {q : QP K}
    (S : Solved d p env w w' b q) {y : Nat → K} (h : Feasible q y) :
    ∀ j < d.m * d.N, q.lb.e (off d w.ctl + j) ≤ Ext.fin (controls d w.ctl y j) ∧
      Ext.fin (controls d w.ctl y j) ≤ q.ub.e (off d w.ctl + j) := by
  obtain ⟨r1, r2, _, _⟩ := S.boundSource
  intro j hj
  obtain ⟨_, _, h3, h4⟩ := h
  exact ⟨h3 (off d w.ctl + j) (by omega), h4 (off d w.ctl + j) (by omega)⟩

/-! ## C31 -/

/-- C31, the part that is true: with at most one control bound registered at any time (which is what `Hist`
allows), the bounds handed to the solver restrict the controls to it.  Missing: two or more control bounds, for
which the property is false, see `c31_two_bounds_undefined`. -/
theorem c31_single_bound_partial {d : Dims} {dmax : K} {E : World K → Op K → Prop} {w w' : World K} {g : Ghost}
    {env : SolveEnv K} {b : Bool} {q : QP K} (h : Hist d dmax E w g) (ho : OpOk d w g (.solve env))
    (hs : w.solve env = some (w', b, q)) {y : Nat → K} (hy : Feasible q y) (X : Nat → Nat → K) :
    ∀ i ∈ w.ctl.spBoundConstr, (w.cons i).userData.Holds d X (controls d w.ctl y) := by
  obtain ⟨p, hp, S⟩ := h.good.solved ho.2 hs
  intro i hi
  have hlen := h.good.one
  rcases hb : w.ctl.spBoundConstr with _ | ⟨i', _ | ⟨i'', r⟩⟩
  · rw [hb] at hi; exact absurd hi List.not_mem_nil
  · rw [hb] at hi
    cases List.mem_singleton.1 hi
    exact S.holds_of_bounds h.good hp hb X (feasible_controls S hy)
  · rw [hb] at hlen; simp at hlen

theorem putBounds_room {cons : Nat → Constr K} : ∀ (L : List Nat) {s s' : Nat × Vec (Ext K) × Vec (Ext K)},
    L.foldlM (LMPC.putBounds cons) s = some s' → L ≠ [] → s.1 + total (fun i => (cons i).nrConstr) L ≤ s.2.1.rows := by
  intro L
  induction L with
  | nil => intro _ _ _ h; exact absurd rfl h
  | cons i L ih =>
    intro s s' h _
    obtain ⟨nr, lb, ub⟩ := s
    rw [List.foldlM_cons, Option.bind_eq_bind, Option.bind_eq_some_iff] at h
    obtain ⟨s1, h1, h2⟩ := h
    unfold LMPC.putBounds at h1
    simp only [Option.bind_eq_bind, Option.bind_eq_some_iff, Option.pure_def, Option.some.injEq] at h1
    obtain ⟨lb1, e1, ub1, e2, rfl⟩ := h1
    have hr : nr + (cons i).nrConstr ≤ lb.rows ∧ lb1.rows = lb.rows := by
      unfold Vec.setSegment? at e1
      split at e1
      · next hc => cases e1; exact ⟨hc.1, rfl⟩
      · cases e1
    rw [total_cons]
    by_cases hn : L = []
    · subst hn
      rw [total_nil]
      exact hr.1
    · have := ih h2 hn
      simp only at this
      rw [hr.2] at this
      show nr + _ ≤ lb.rows
      omega

theorem addCostTerms_lb {costs : Nat → Cost K} {l l' : LMPC K} {i : Nat} (h : LMPC.addCostTerms costs l i = some l') :
    l'.lb = l.lb ∧ l'.spBoundConstr = l.spBoundConstr := by
  unfold LMPC.addCostTerms at h
  simp only [Option.bind_eq_bind, Option.bind_eq_some_iff, Option.pure_def, Option.some.injEq] at h
  obtain ⟨_, _, _, _, rfl⟩ := h
  exact ⟨rfl, rfl⟩

theorem addCostTermsInit_lb {costs : Nat → Cost K} {ps : PreviewSystem K} {l l' : LMPC K} {i : Nat}
    (h : LMPC.addCostTermsInit costs ps l i = some l') : l'.lb = l.lb ∧ l'.spBoundConstr = l.spBoundConstr := by
  unfold LMPC.addCostTermsInit at h
  simp only [Option.bind_eq_bind, Option.bind_eq_some_iff, Option.pure_def, Option.some.injEq] at h
  obtain ⟨_, _, _, _, _, _, _, _, _, _, _, _, rfl⟩ := h
  exact ⟨rfl, rfl⟩

/-- A solve that is defined has room for all registered control bounds. -/
theorem solve_room {d : Dims} {p : Nat} {env : SolveEnv K} {w w' : World K} {b : Bool} {q : QP K}
    (hp : w.ctl.ps = some p) (hS : SysOk d (w.pss p)) (hs : w.solve env = some (w', b, q)) (hb : w.ctl.spBoundConstr ≠ []) :
    off d w.ctl + total (fun i => (w.cons i).nrConstr) w.ctl.spBoundConstr ≤ w.ctl.lb.rows := by
  obtain ⟨w1, p1, l, s, l', h1, hp1, hq, _⟩ := solve_inv hs
  obtain ⟨p2, ps, l1, l2, cons, costs, hp2, hps, e1, e2, hc, _, rfl, F⟩ := updateSystem_inv h1
  rw [hp] at hp2
  cases hp2
  have : p1 = p := by
    have : l2.ps = some p1 := hp1
    rw [F.ps, hp] at this
    cases this; rfl
  subst this
  have X : ps.xDim = d.n := by
    split at hps
    · cases hps; exact hS.dims.xDim
    · obtain ⟨a, _⟩ := (Copra.updateSystem_ok hS).of_eq hps
      exact a.dims.xDim
  have L : l2.lb = w.ctl.lb := by
    rw [(LMPC.updateConstraintMatrixSize_fixed e2).2.2.2.1, (LMPC.updateNr_fixed e1).2.2.2.1]
  have T : total (fun i => (cons i).nrConstr) w.ctl.spBoundConstr = total (fun i => (w.cons i).nrConstr) w.ctl.spBoundConstr :=
    total_congr fun i _ => (updateConstrs_keeps hc i).nr
  have Fb := F.spBoundConstr
  rw [← T, ← L, ← Fb]
  rw [← Fb] at hb
  simp only [upd_same] at hq
  unfold off
  rw [← F.isInit]
  unfold LMPC.makeQPForm at hq
  split at hq
  · next hi =>
    rw [if_pos hi]
    unfold LMPC.makeQPFormInit at hq
    simp only [Option.bind_eq_bind, Option.bind_eq_some_iff, Option.pure_def, Option.some.injEq] at hq
    obtain ⟨k, hk, _, _, _, _, _, hq, _⟩ := hq
    have K := foldlM_rel (R := fun a b : LMPC K => b.lb = a.lb ∧ b.spBoundConstr = a.spBoundConstr) (fun _ => ⟨rfl, rfl⟩)
      (fun h g => ⟨g.1.trans h.1, g.2.trans h.2⟩) (fun s a s' h => addCostTermsInit_lb h) _ hk
    rw [K.1, K.2, X] at hq
    exact putBounds_room _ hq hb
  · next hi =>
    rw [if_neg hi]
    unfold LMPC.makeQPFormBase at hq
    simp only [Option.bind_eq_bind, Option.bind_eq_some_iff, Option.pure_def, Option.some.injEq] at hq
    obtain ⟨k, hk, _, _, _, _, _, hq, _⟩ := hq
    have K := foldlM_rel (R := fun a b : LMPC K => b.lb = a.lb ∧ b.spBoundConstr = a.spBoundConstr) (fun _ => ⟨rfl, rfl⟩)
      (fun h g => ⟨g.1.trans h.1, g.2.trans h.2⟩) (fun s a s' h => addCostTerms_lb h) _ hk
    rw [K.1, K.2] at hq
    exact putBounds_room _ hq hb

/-- C31 is false of the code: adding a second control bound is accepted, but the next solve writes out of
bounds. -/
theorem c31_two_bounds_undefined {d : Dims} {dmax : K} {E : World K → Op K → Prop} {w w1 : World K} {g : Ghost} {i j : Nat}
    {jk : Junk K} (h : Hist d dmax E w g) (hi : i ∈ w.ctl.spBoundConstr) (hj : (w.cons j).kind = .ctrlBound)
    (hm : 0 < d.m) (h1 : w.step dmax (.addConstraint j jk) = .ok w1) (env : SolveEnv K) :
    w1.solve env = none ∧ w1.step dmax (.solve env) = .ub := by
  have key : w1.solve env = none := by
    cases hs : w1.solve env with
    | none => rfl
    | some r =>
      exfalso
      obtain ⟨w3, b, q⟩ := r
      simp only [step] at h1
      unfold addConstraint at h1
      split at h1
      · cases h1
      · next p hp =>
        split at h1
        · next c hc =>
          split at h1
          · next l hl =>
            cases h1
            have hsys := h.good.ctl p hp
            have st : w.step dmax (.initConstr j p jk) = .ok { w with cons := upd w.cons j c } := by
              simp only [step, hc, Res.map]
            have hg := (Hist.ok (op := .initConstr j p jk) (hist_any h) hsys.1 trivial st).good
            have rj : Constr.Reg d c := by
              have := hg.consReg j (Or.inr ⟨trivial, rfl⟩)
              simpa only [upd_same] using this
            have ri := hg.consReg i (Or.inl (h.good.subC i ((mem_registered h.good.part i).2 (Or.inr (Or.inr hi)))))
            have ki : ((upd w.cons j c) i).kind = .ctrlBound := by
              have := hg.part.bound
              have hi' : i ∈ (w.ctl.spBoundConstr) := hi
              rw [show w.ctl.spBoundConstr = _ from this] at hi'
              have := (List.mem_filter.1 hi').2
              simp only [decide_eq_true_eq] at this
              unfold Constr.constraintType at this
              revert this
              cases hk : ((upd w.cons j c) i).kind <;> simp only <;> (try split) <;> simp
            have kj : c.kind = .ctrlBound := by
              have := (Constr.init_ident hc).kind
              rw [this]; exact hj
            unfold Constr.Reg at rj ri
            rw [kj] at rj
            rw [ki] at ri
            have ty : c.constraintType = .bound := by unfold Constr.constraintType; rw [kj]
            unfold LMPC.addConstraintByType at hl
            rw [ty] at hl
            cases hl
            have room : off d w.ctl + total (fun i => (upd w.cons j c i).nrConstr) (w.ctl.spBoundConstr ++ [j]) ≤ w.ctl.lb.rows :=
              (fun a b c => solve_room (d := d) (p := p) a b hs c) hp (h.good.sys p hsys.1).1
              (List.append_ne_nil_of_right_ne_nil _ (List.cons_ne_nil _ _))
            have hlen : w.ctl.spBoundConstr = [i] := by
              have := h.good.one
              rcases hb : w.ctl.spBoundConstr with _ | ⟨i', _ | ⟨i'', r⟩⟩
              · rw [hb] at hi; exact absurd hi List.not_mem_nil
              · rw [hb] at hi
                cases List.mem_singleton.1 hi; rfl
              · rw [hb] at this; simp at this
            have hlb := hsys.2.2.2.2.2.1
            have ri' : (upd w.cons j c i).nrConstr = d.m * d.N := ri.nr
            simp only [hlen, List.cons_append, List.nil_append, total_cons, total_nil, upd_same, ri', rj.nr] at room
            have e : numVars d w.ctl = off d w.ctl + d.m * d.N := by
              unfold numVars off; split <;> simp
            rw [hlb, e] at room
            have : 0 < d.m * d.N := Nat.mul_pos hm (h.good.sys p hsys.1).1.dims.Npos
            omega
          · cases h1
        · cases h1
        · cases h1
  refine ⟨key, ?_⟩
  simp only [step, key, Option.map_none, Res.ofOption]

/-! ## C37 -/

theorem _root_.Copra.Spec.Later.hist {d : Dims} {dmax : K} {E : World K → Op K → Prop} {w w' : World K} {g g' : Ghost}
    (h : Hist d dmax AnyOp w g) (l : Later d dmax E w g w' g') : Hist d dmax AnyOp w' g' := by
  induction l with
  | refl => exact h
  | ok _ ho he hs ih => exact .ok ih ho trivial hs
  | thrown _ ho he hs ih => exact .thrown ih ho trivial hs

/-- A call that is not a reset leaves the controller's bounds on the controls alone. -/
theorem Good.keepsBounds {d : Dims} {dmax : K} {w w' : World K} {g : Ghost} {op : Op K} (hg : Good d dmax w g)
    (ho : OpOk d w g op) (hn : NoReset w op) (h : Steps dmax w op w') :
    w'.ctl.isInit = w.ctl.isInit ∧ ∀ j < d.m * d.N, w'.ctl.lb.e (off d w.ctl + j) = w.ctl.lb.e (off d w.ctl + j) ∧
      w'.ctl.ub.e (off d w.ctl + j) = w.ctl.ub.e (off d w.ctl + j) := by
  have triv : w.ctl.isInit = w.ctl.isInit ∧ ∀ j < d.m * d.N, w.ctl.lb.e (off d w.ctl + j) = w.ctl.lb.e (off d w.ctl + j) ∧
      w.ctl.ub.e (off d w.ctl + j) = w.ctl.ub.e (off d w.ctl + j) := ⟨rfl, fun _ _ => ⟨rfl, rfl⟩⟩
  rcases h with h | ⟨e, h⟩ <;> cases op <;> simp only [World.step, Res.map_ok, Res.map_thrown, Res.ofOption_ok] at h
  case inl.addCost j junk =>
    unfold addCost at h
    split at h
    · cases h
    · split at h <;> cases h
      exact triv
  case inr.addCost j junk =>
    unfold addCost at h
    split at h
    · cases h
    · split at h <;> cases h
      exact triv
  case inl.addConstraint j junk =>
    unfold addConstraint at h
    split at h
    · cases h
    · split at h
      · rename_i c hc
        split at h <;> cases h
        rename_i l hl
        unfold LMPC.addConstraintByType at hl
        cases ht : c.constraintType <;> rw [ht] at hl <;> simp only at hl
        · simp only [Option.bind_eq_bind, Option.bind_eq_some_iff, Option.pure_def, Option.some.injEq, chkInt_eq] at hl
          obtain ⟨_, ⟨hle, rfl⟩, rfl⟩ := hl
          exact triv
        · simp only [Option.bind_eq_bind, Option.bind_eq_some_iff, Option.pure_def, Option.some.injEq, chkInt_eq] at hl
          obtain ⟨_, ⟨hle, rfl⟩, rfl⟩ := hl
          exact triv
        · cases hl
          exact triv
      · cases h
      · cases h
  case inr.addConstraint j junk =>
    unfold addConstraint at h
    split at h
    · cases h
    · split at h
      · split at h <;> cases h
      · cases h; exact triv
      · cases h
  case inl.construct | inl.constructPs | inl.initializeController | inl.clearConstraints => exact hn.elim
  case inl.removeConstraint j =>
    obtain ⟨l, h, rfl⟩ := h
    rw [hg.part.remove j] at h
    cases h
    exact triv
  case inl.solve env =>
    obtain ⟨⟨w1, b, q⟩, hs, rfl⟩ := Option.map_eq_some_iff.1 h
    obtain ⟨p, hp, S⟩ := hg.solved ho.2 hs
    refine ⟨(solve_frame hs).1.isInit, fun j hj => ?_⟩
    rw [S.lb, S.ub]
    exact S.boundSource.2.2.1 hn j hj
  case inl.useSolver | inl.removeCost | inl.clearCosts | inl.resetInitialStateCost | inl.resetInitialStateBounds =>
    cases h; exact triv
  case inr.updateConstr | inr.updatePs | inr.updateCost | inr.constructPs | inr.initializeController | inr.removeConstraint =>
    obtain ⟨_, h, _⟩ := h
    exact absurd h Res.ofOption_ne_thrown
  case inr.clearConstraints | inr.solve => exact absurd h Res.ofOption_ne_thrown
  all_goals first
    | (cases h <;> exact triv)
    | (obtain ⟨_, _, rfl⟩ := h; exact triv)

theorem laterBounds {d : Dims} {dmax : K} {w w' : World K} {g g' : Ghost}
    (h : Hist d dmax AnyOp w g) (l : Later d dmax NoReset w g w' g') :
    w'.ctl.isInit = w.ctl.isInit ∧ ∀ j < d.m * d.N, w'.ctl.lb.e (off d w.ctl + j) = w.ctl.lb.e (off d w.ctl + j) ∧
      w'.ctl.ub.e (off d w.ctl + j) = w.ctl.ub.e (off d w.ctl + j) := by
  have comb : ∀ {w1 w2 : World K} {g1 : Ghost} {op : Op K}, Later d dmax NoReset w g w1 g1 → OpOk d w1 g1 op → NoReset w1 op →
      Steps dmax w1 op w2 →
      (w1.ctl.isInit = w.ctl.isInit ∧ ∀ j < d.m * d.N, w1.ctl.lb.e (off d w.ctl + j) = w.ctl.lb.e (off d w.ctl + j) ∧
        w1.ctl.ub.e (off d w.ctl + j) = w.ctl.ub.e (off d w.ctl + j)) →
      (w2.ctl.isInit = w.ctl.isInit ∧ ∀ j < d.m * d.N, w2.ctl.lb.e (off d w.ctl + j) = w.ctl.lb.e (off d w.ctl + j) ∧
        w2.ctl.ub.e (off d w.ctl + j) = w.ctl.ub.e (off d w.ctl + j)) := by
    intro w1 w2 g1 op l1 ho he st ih
    have k := (l1.hist h).good.keepsBounds ho he st
    have e : off d w1.ctl = off d w.ctl := by unfold off; rw [ih.1]
    rw [e] at k
    refine ⟨k.1.trans ih.1, fun j hj => ?_⟩
    rw [(k.2 j hj).1, (k.2 j hj).2]
    exact ih.2 j hj
  induction l with
  | refl => exact ⟨rfl, fun _ _ => ⟨rfl, rfl⟩⟩
  | ok l1 ho he hs ih => exact comb l1 ho he (Or.inl hs) ih
  | thrown l1 ho he hs ih => exact comb l1 ho he (Or.inr ⟨_, hs⟩) ih

/-- C37 is false of the code, for every controller: once `solve()` was called with the control bound `i`
registered, removing it has no effect.  After any number of further calls (except those that rebuild or clear the
controller, and solves with another control bound), a solve without any registered control bound still forces the
controls to satisfy bound `i` as it was declared. -/
theorem c37_still_imposed {d : Dims} {dmax : K} {w w1 w2 w3 : World K} {g g2 : Ghost}
    {env env2 : SolveEnv K} {b b2 : Bool} {q q2 : QP K} {i : Nat} (h : Hist d dmax AnyOp w g) (ho : OpOk d w g (.solve env))
    (hi : w.ctl.spBoundConstr = [i]) (hs : w.solve env = some (w1, b, q))
    (later : Later d dmax NoReset w1 (g.next w True (.solve env)) w2 g2) (ho2 : OpOk d w2 g2 (.solve env2))
    (hb2 : w2.ctl.spBoundConstr = []) (hs2 : w2.solve env2 = some (w3, b2, q2)) {y : Nat → K} (hy : Feasible q2 y)
    (X : Nat → Nat → K) : (w.cons i).userData.Holds d X (controls d w2.ctl y) := by
  have st : w.step dmax (.solve env) = .ok w1 := by simp only [step, hs, Option.map_some, Res.ofOption]
  have H1 := Hist.ok (op := .solve env) h ho trivial st
  obtain ⟨p, hp, S⟩ := h.good.solved ho.2 hs
  have H2 := later.hist H1
  obtain ⟨p2, hp2, S2⟩ := H2.good.solved ho2.2 hs2
  have keep := laterBounds H1 later
  have e1 : w1.ctl.isInit = w.ctl.isInit := (solve_frame hs).1.isInit
  have o1 : off d w1.ctl = off d w.ctl := by unfold off; rw [e1]
  have o2 : off d w2.ctl = off d w.ctl := by unfold off; rw [keep.1, e1]
  refine S.holds_of_bounds h.good hp hi X fun j hj => ?_
  have f := feasible_controls S2 hy j hj
  rw [(S2.boundSource.2.2.1 hb2 j hj).1, (S2.boundSource.2.2.1 hb2 j hj).2, o2] at f
  rw [← S.lb, ← S.ub]
  have k := keep.2 j hj
  rw [o1] at k
  rw [← k.1, ← k.2]
  exact f

/-- C37, a part that is true: a control bound removed before any solve (since the controller's bounds were last
reset) leaves no trace; a solve without control bounds leaves the controls free (up to `DBL_MAX`).  Missing: removal
after a solve, for which the property is false, see `c37_still_imposed`. -/
theorem c37_unsolved_partial {d : Dims} {dmax : K} {E : World K → Op K → Prop} {w w1 w2 : World K} {g : Ghost} {i : Nat}
    {env : SolveEnv K} {b : Bool} {q : QP K} (h : Hist d dmax E w g) (hc : g.clean) (hi : w.ctl.spBoundConstr = [i])
    (h1 : w.step dmax (.removeConstraint i) = .ok w1)
    (ho : OpOk d w1 g (.solve env)) (hs : w1.solve env = some (w2, b, q)) :
    i ∉ w1.ctl.spConstr.filter (fun j => (w1.cons j).kind = .ctrlBound) ∧
    ∀ j < d.m * d.N, q.lb.e ((if w.ctl.isInit then d.n else 0) + j) = .fin (-dmax) ∧
      q.ub.e ((if w.ctl.isInit then d.n else 0) + j) = .fin dmax := by
  have H := Hist.ok (op := .removeConstraint i) (hist_any h) trivial trivial h1
  obtain ⟨p, hp, S⟩ := H.good.solved ho.2 hs
  simp only [step, Res.map_ok, Res.ofOption_ok] at h1
  obtain ⟨l, h1, rfl⟩ := h1
  rw [h.good.part.remove i] at h1
  cases h1
  have hb : w.ctl.spBoundConstr.erase i = [] := by rw [hi]; simp
  constructor
  · intro hm
    have hp := H.good.part.bound
    simp only at hp
    have hm' := List.mem_filter.1 hm
    have : i ∈ w.ctl.spBoundConstr.erase i := by
      rw [hp, List.mem_filter]
      refine ⟨hm'.1, ?_⟩
      have hk := of_decide_eq_true hm'.2
      unfold Constr.constraintType
      simp only at hk ⊢
      rw [hk]; rfl
    rw [hb] at this
    exact absurd this List.not_mem_nil
  · intro j hj
    obtain ⟨e1, e2⟩ := S.boundSource.2.2.1 hb j hj
    obtain ⟨c1, c2⟩ := H.good.clean hc (by rw [hp]; exact Option.some_ne_none _) j hj
    exact ⟨e1.trans c1, e2.trans c2⟩

/-- C37, another part that is true: the bounds handed to the solver are exactly those of the control bound that is
registered now, whatever was registered, solved and removed before. -/
theorem c37_replaced_partial {d : Dims} {dmax : K} {E : World K → Op K → Prop} {w w' : World K} {g : Ghost}
    {env : SolveEnv K} {b : Bool} {q : QP K} {i : Nat} (h : Hist d dmax E w g) (ho : OpOk d w g (.solve env))
    (hi : w.ctl.spBoundConstr = [i]) (hs : w.solve env = some (w', b, q)) (U : Nat → K) (X : Nat → Nat → K) :
    (∀ j < d.m * d.N, q.lb.e ((if w.ctl.isInit then d.n else 0) + j) ≤ Ext.fin (U j) ∧
      Ext.fin (U j) ≤ q.ub.e ((if w.ctl.isInit then d.n else 0) + j)) ↔ (w.cons i).userData.Holds d X U := by
  obtain ⟨p, hp, S⟩ := h.good.solved ho.2 hs
  obtain ⟨_, _, t3⟩ := (h.good.canUpdate hp).typed
  obtain ⟨a1, a2⟩ := t3 i (by rw [hi]; exact List.mem_singleton_self _)
  rw [← S.bounds a1 a2 X U]
  refine forall_congr' fun j => forall_congr' fun hj => ?_
  obtain ⟨e1, e2⟩ := S.boundSource.2.2.2 i hi j hj
  unfold off at e1 e2
  rw [e1, e2]

end World
end Copra
