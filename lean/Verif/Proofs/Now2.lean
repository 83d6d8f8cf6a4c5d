import Verif.Proofs.Assign
import Verif.Proofs.Existence
import Verif.Props.EndToEnd

/-! # Solves with the prediction in force: sizes, Hessian, unique minimiser, back ends -/

namespace Copra
open Spec

set_option linter.unusedSectionVars false
variable {K : Type} [Field K] [LinearOrder K] [IsStrictOrderedRing K]

namespace World
variable {d : Dims} {dmax : K} {w w' : World K} {g : Ghost} {E : World K → Op K → Prop}
  {env : SolveEnv K} {b : Bool} {q : QP K} {p : Nat}

theorem now_sized (hg : GoodRaw d dmax w g) (ho : OpOk d w g (.solve env))
    (hs : w.solve env = some (w', b, q)) (hp : w.ctl.ps = some p) : WellSized q := by
  have S := now_solved hg ho hs hp
  have hv := S.nrVar
  unfold numVars at hv
  cases hi : w.ctl.isInit
  · obtain ⟨a0, a1, a2, a3, a4, a5, a6, a7, a8, a9, a10, a11, a12, a13⟩ := S.plain hi
    rw [hi] at hv
    simp only [Bool.false_eq_true, if_false] at hv
    refine ⟨a3.trans hv.symm, a4.trans hv.symm, a0.symm, ?_, a8.cols.trans hv.symm, ?_, ?_, a9.cols.trans hv.symm, ?_,
      a10.trans hv.symm, a11.trans hv.symm⟩
    · rw [a8.rows, a1]
    · rw [a8.brows, a1]
    · rw [a9.rows, a2]
    · rw [a9.brows, a2]
  · have A := S.init hi
    rw [hi] at hv
    simp only [if_true] at hv
    refine ⟨A.Qr.trans hv.symm, A.Qc.trans hv.symm, A.nrVar.symm, ?_, A.eq.cols.trans hv.symm, ?_, ?_,
      A.ineq.cols.trans hv.symm, ?_, A.lbr.trans hv.symm, A.ubr.trans hv.symm⟩
    · rw [A.eq.rows, A.nrEq]
    · rw [A.eq.brows, A.nrEq]
    · rw [A.ineq.rows, A.nrIneq]
    · rw [A.ineq.brows, A.nrIneq]

/-- Weights stay nonnegative if the client only sets nonnegative ones. -/
theorem nonneg_step {op : Op K} (hn : NonnegWeights w op) (hst : Steps dmax w op w')
    (ih : ∀ i, Cost.NonnegW (w.costs i)) : ∀ i, Cost.NonnegW (w'.costs i) := by
  intro i
  cases hst.costChange i with
  | same e => rw [e]; exact ih i
  | span junk e hsp => exact Cost.autoSpan_nonneg hsp (ih i)
  | weights v e hv =>
    subst e
    exact Cost.setWeights_nonneg hv hn (ih i)
  | weight x e hv =>
    subst e
    rw [hv]
    intro r _
    exact hn
  | init p junk hop hi =>
    have := (Cost.init_frame hi).1
    unfold Cost.NonnegW
    rw [this.weights]; exact ih i
  | update p hop hc =>
    have s := Cost.update_chain_same hc
    unfold Cost.NonnegW
    rw [s.weights]; exact ih i

theorem nonneg_start (h : Init w) : ∀ i, Cost.NonnegW (w.costs i) := by
  obtain ⟨_, _, h2, _⟩ := h
  intro i r _
  have one : (0 : K) ≤ 1 := zero_le_one
  rcases h2 i with ⟨_, _, e⟩ | ⟨_, _, e⟩ | ⟨_, _, e⟩ | ⟨_, _, _, e⟩ <;> rw [e] <;> exact one

theorem nonneg_sstep {op : SOp K} (hE : ∀ w op, E w op → NonnegWeights w op) (he : OnSCalls E w op)
    (hst : w.sstep dmax op = .ok w' ∨ ∃ e, w.sstep dmax op = .thrown e w')
    (ih : ∀ i, Cost.NonnegW (w.costs i)) : ∀ i, Cost.NonnegW (w'.costs i) := by
  cases op with
  | other op =>
    cases op with
    | call op => exact nonneg_step (hE _ _ he) hst ih
    | _ => rcases hst with hs | ⟨e, hs⟩ <;> cases hs; exact ih
  | _ => rcases hst with hs | ⟨e, hs⟩ <;> cases hs; exact ih

theorem _root_.Copra.Spec.SHist.nonneg (h : SHist d dmax E w g) (hE : ∀ w op, E w op → NonnegWeights w op) :
    ∀ i, Cost.NonnegW (w.costs i) := by
  induction h with
  | start h => exact nonneg_start h
  | ok _ _ he hs ih => exact nonneg_sstep hE he (Or.inl hs) ih
  | thrown _ _ he hs ih => exact nonneg_sstep hE he (Or.inr ⟨_, hs⟩) ih

theorem _root_.Copra.Spec.EHist.nonneg (h : EHist d dmax E w g) (hE : ∀ w op, E w op → NonnegWeights w op) :
    ∀ i, Cost.NonnegW (w.costs i) := by
  induction h with
  | start h => exact nonneg_start h
  | ok _ _ he hs _ ih => exact nonneg_sstep hE he (Or.inl hs) ih
  | thrown _ _ he hs ih => exact nonneg_sstep hE he (Or.inr ⟨_, hs⟩) ih
  | assignConstr _ _ ih => exact ih
  | @assignCost w g j i _ _ ih =>
    intro k
    show Cost.NonnegW (upd w.costs j (w.costs i) k)
    by_cases e : k = j
    · subst e; rw [upd_same]; exact ih i
    · rw [upd_ne _ _ e]; exact ih k
  | assignPs _ _ ih => exact ih

theorem now_psd (hg : GoodRaw d dmax w g) (hn : ∀ i, Cost.NonnegW (w.costs i)) (hf : CostsFresh d w g)
    (ho : OpOk d w g (.solve env)) (hs : w.solve env = some (w', b, q)) (hp : w.ctl.ps = some p) :
    ∀ i ∈ w.ctl.spCost, PSD (d.m * d.N) (w'.costs i).Q := by
  intro i hi
  have S := now_solved hg ho hs hp
  have sh := S.heap.sys.dims.toSysShape
  have hx : (w'.pss p).x0.rows = d.n := by rw [S.heap.x0]; exact (hg.raw p (hg.ctl p hp).1).2
  have hk : ∃ ps', w'.pss p = ps' ∧ w.ctl.spCost.foldlM (updateCost ps') w.costs = some w'.costs := by
    obtain ⟨w1, p2, l, s, l', h1, _, hl, _, rfl, rfl, hl', rfl⟩ := solve_inv hs
    obtain ⟨p1, ps, l1, l2, cons, costs, hp1, hps, e1, e2, hc, hk, rfl, f⟩ := updateSystem_inv h1
    rw [hp] at hp1
    cases hp1
    exact ⟨ps, by simp only [upd_same], hk⟩
  obtain ⟨ps', rfl, hk⟩ := hk
  obtain ⟨c, hc1, hc2⟩ := updateCosts_last hk hi
  have hgi := hg.subK i hi
  have r0 := hg.costReg i hgi
  obtain ⟨r, nw, pp⟩ := Good.update_chain_psd sh hx hc1 r0 (hn i)
    (fun ha => Cost.PSD.zero ((hg.fresh i (hf i hi (r0.acc ha)).1).2 ha).1)
  obtain ⟨_, u⟩ := (Cost.update_ok r sh hx).of_eq hc2
  exact u.psd r nw pp

theorem now_hessian (hg : GoodRaw d dmax w g) (hn : ∀ i, Cost.NonnegW (w.costs i)) (hf : CostsFresh d w g)
    (ho : OpOk d w g (.solve env)) (hi : w.ctl.isInit = false) (hs : w.solve env = some (w', b, q))
    (hp : w.ctl.ps = some p) : PD q.nrVar q.Q := by
  have A := (now_solved hg ho hs hp).plain hi
  rw [A.nrVar, A.cr]
  exact pd_of_sum (F := fun i => (w'.costs i).Q) (by norm_num) A.Q (now_psd hg hn hf ho hs hp)

/-- A well-sized problem with a positive definite Hessian has at most one minimiser. -/
theorem unique_of_pd {q : QP K} (hw : WellSized q) (P : PD q.nrVar q.Q) {x y : Nat → K}
    (hx : IsOptimal q x) (hy : IsOptimal q y) : ∀ j < q.nrVar, x j = y j := by
  have hn : q.nrVar = q.c.rows := hw.2.2.1.symm
  rw [hn] at P ⊢
  by_contra hne
  push Not at hne
  obtain ⟨j, hj, hne⟩ := hne
  have pos := P.2 (fun j => x j - y j) ⟨j, hj, sub_ne_zero.2 hne⟩
  have m := feasible_mid hx.1 hy.1
  have h1 := hx.2 _ m
  have h2 := hy.2 _ m
  have e := quadValue_mid (n := q.c.rows) (Q := q.Q) q.c x y
  unfold objective at h1 h2
  linarith

theorem now_end_to_end {k : SolverKind} {junk : Junk K} (hg : GoodRaw d dmax w g) (hl : ∀ i, LinesCurrent (w.cons i))
    (ho : OpOk d w g (.solve env)) (hi : w.ctl.isInit = false) (hb : w.ctl.spBoundConstr = [] → g.clean)
    (hh : ∀ i ∈ w.ctl.spConstr, (w.cons i).userData.Honest) (hf : CostsFresh d w g)
    (hs : w.solve env = some (w', true, q)) (hp : w.ctl.ps = some p) (hm : MixedSuits d w p)
    (hn : q.nrEq + q.nrIneq + 2 * q.nrVar ≤ intMax)
    (hopt : BackEndOptimal dmax junk k q (env.answer q).2.e) :
    (∀ i ∈ w.ctl.spConstr, (w.cons i).userData.Holds d (trajNow d w p w'.ctl.control.e) w'.ctl.control.e) ∧
    IsStacked d (trajNow d w p w'.ctl.control.e) w'.ctl.trajectory ∧
    ∀ V : Nat → K, (∀ i ∈ w.ctl.spConstr, (w.cons i).userData.Holds d (trajNow d w p V) V) →
      (∀ j < d.m * d.N, -dmax ≤ V j ∧ V j ≤ dmax) →
      (k = .osqp → ∀ i < q.Aineq.rows, -dmax ≤ rowValue q.Aineq V i) →
      totalCostNow d w p w'.ctl.control.e ≤ totalCostNow d w p V := by
  have hw := now_sized hg ho hs hp
  obtain ⟨hx, hmin⟩ := BackEndOptimal.spec hw hn hopt
  have F := now_feasible hg hl ho hi hb hh hs hp hm
  obtain ⟨κ, O⟩ := now_objective hg ho hi hf hs hp
  obtain ⟨_, hc, hT⟩ := now_trajectory hg ho hi hs hp
  have nv : q.nrVar = d.m * d.N := by rw [(now_solved hg ho hs hp).nrVar]; unfold numVars; rw [hi]; rfl
  have agree : ∀ j < q.nrVar, (env.answer q).2.e j = w'.ctl.control.e j := fun j hj => (hc j (by omega)).symm
  refine ⟨((F _).1 ((Feasible.congr hw agree).1 hx)).1, hT, fun V hV hr ho => ?_⟩
  have := hmin V ((F V).2 ⟨hV, fun _ => hr⟩) ho
  rw [objective.congr hw agree, O, O] at this
  linarith

theorem now_init_end_to_end {k : SolverKind} {junk : Junk K} (hg : GoodRaw d dmax w g)
    (hl : ∀ i, LinesCurrent (w.cons i))
    (ho : OpOk d w g (.solve env)) (hi : w.ctl.isInit = true) (hb : w.ctl.spBoundConstr = [] → g.clean)
    (hh : ∀ i ∈ w.ctl.spConstr, (w.cons i).userData.Honest) (hf : CostsFresh d w g)
    (hs : w.solve env = some (w', true, q)) (hp : w.ctl.ps = some p) (hm : MixedSuits d w p)
    (hn : q.nrEq + q.nrIneq + 2 * q.nrVar ≤ intMax)
    (hopt : BackEndOptimal dmax junk k q (env.answer q).2.e) :
    ∃ x : Vec K, w'.ctl.initialState (w'.pss p) = some x ∧ InitBounds d w.ctl x.e ∧
      IsStacked d (predNow d (w.pss p) x.e w'.ctl.control.e) w'.ctl.trajectory ∧
      (∀ i ∈ w.ctl.spConstr, (w.cons i).userData.Holds d (predNow d (w.pss p) x.e w'.ctl.control.e) w'.ctl.control.e) ∧
      ∀ V : Nat → K, (∀ i ∈ w.ctl.spConstr, (w.cons i).userData.Holds d (predNow d (w.pss p) x.e V) V) →
        (∀ j < d.m * d.N, -dmax ≤ V j ∧ V j ≤ dmax) →
        (k = .osqp → ∀ i < q.Aineq.rows, -dmax ≤ rowValue q.Aineq (joined d x.e V) i) →
        totalCostNowFrom d w p x.e w'.ctl.control.e ≤ totalCostNowFrom d w p x.e V := by
  have hw := now_sized hg ho hs hp
  obtain ⟨hx, hmin⟩ := BackEndOptimal.spec hw hn hopt
  obtain ⟨x, e1, _, e3, _, e5, e6⟩ := now_init_trajectory hg ho hi hs hp
  have F := now_init_feasible hg hl ho hi hb hh hs hp hm x.e
  obtain ⟨κ, O⟩ := now_init_objective hg ho hi hf hs hp x.e
  have nv : q.nrVar = d.n + d.m * d.N := by rw [(now_solved hg ho hs hp).nrVar]; unfold numVars; rw [hi]; rfl
  have agree : ∀ j < q.nrVar, (env.answer q).2.e j = joined d x.e w'.ctl.control.e j := by
    intro j hj
    unfold joined
    split
    · next hlt => exact (e3 j hlt).symm
    · next hge =>
      rw [e5 (j - d.n) (by omega)]
      congr 1; omega
  have F0 := (F _).1 ((Feasible.congr hw agree).1 hx)
  refine ⟨x, e1, F0.2.1, e6, F0.1, fun V hV hr hos => ?_⟩
  have := hmin _ ((F V).2 ⟨hV, F0.2.1, fun _ => hr⟩) hos
  rw [objective.congr hw agree, O, O] at this
  linarith

end World
end Copra
