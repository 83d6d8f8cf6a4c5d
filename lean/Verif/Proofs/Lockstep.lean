import Verif.Proofs.Twin
import Verif.Props.Same

/-! # Two executions that differ only in uninitialised memory stay together -/

namespace Copra
open Spec

set_option linter.unusedSectionVars false
set_option linter.unusedSimpArgs false

section
variable {K : Type} [Field K]

/-- Simulation reads the initial state and the controls of the horizon, nothing else. -/
theorem sim_congr (d : Dims) (A B : Mat K) (w : Vec K) {x x' U V : Nat → K} (hx : ∀ j < d.n, x j = x' j)
    (hU : ∀ j < d.m * d.N, U j = V j) : ∀ k ≤ d.N, ∀ r < d.n, sim d A B w x U k r = sim d A B w x' V k r
  | 0, _, r, hr => hx r hr
  | k + 1, hk, r, _ => by
    have ih := sim_congr d A B w hx hU k (by omega)
    show _ + _ + _ = _ + _ + _
    congr 1
    congr 1
    · exact Finset.sum_congr rfl fun c hc => by rw [ih c (Finset.mem_range.1 hc)]
    · refine Finset.sum_congr rfl fun c hc => ?_
      rw [ctrl, ctrl, hU _ (blk_lt' (by omega) (Finset.mem_range.1 hc))]

/-- Related controllers. -/
structure LTwin (l l' : LMPC K) : Prop where
  isInit : l'.isInit = l.isInit
  ps : l'.ps = l.ps
  spCost : l'.spCost = l.spCost
  spConstr : l'.spConstr = l.spConstr
  spEqConstr : l'.spEqConstr = l.spEqConstr
  spIneqConstr : l'.spIneqConstr = l.spIneqConstr
  spBoundConstr : l'.spBoundConstr = l.spBoundConstr
  nrEq : l'.nrEqConstr = l.nrEqConstr
  nrIneq : l'.nrIneqConstr = l.nrIneqConstr
  R : l'.R = l.R
  r : l'.r = l.r
  x0lb : l'.x0lb = l.x0lb
  x0ub : l'.x0ub = l.x0ub
  lb : VecEq l.lb l'.lb
  ub : VecEq l.ub l'.ub
  control : VecEq l.control l'.control
  trajectory : VecEq l.trajectory l'.trajectory
  sol : (l.sol = none ∧ l'.sol = none) ∨ ∃ s s', l.sol = some s ∧ l'.sol = some s' ∧ s'.kind = s.kind ∧ VecEq s.result s'.result

theorem LTwin.refl (l : LMPC K) : LTwin l l := by
  refine ⟨rfl, rfl, rfl, rfl, rfl, rfl, rfl, rfl, rfl, rfl, rfl, rfl, rfl, (VecEq.rfl' _), (VecEq.rfl' _), (VecEq.rfl' _),
    (VecEq.rfl' _), ?_⟩
  cases h : l.sol
  · exact Or.inl ⟨rfl, rfl⟩
  · exact Or.inr ⟨_, _, rfl, rfl, rfl, (VecEq.rfl' _)⟩

namespace World

/-- Related worlds. -/
structure WTwin (d : Dims) (g : Ghost) (w w' : World K) : Prop where
  pss : w'.pss = w.pss
  extCons : w'.extCons = w.extCons
  extCosts : w'.extCosts = w.extCosts
  cons : ∀ i, Constr.Twin (w.cons i) (w'.cons i)
  costs : ∀ i, Cost.Twin (w.costs i) (w'.costs i)
  res : ∀ i, g.cost i → Cost.Accumulates (w.costs i) → Cost.ResEq d (w.costs i) (w'.costs i)
  ctl : LTwin w.ctl w'.ctl

variable {d : Dims} {g g' : Ghost} {w w' : World K}

theorem WTwin.refl (w : World K) : WTwin d g w w :=
  ⟨rfl, rfl, rfl, fun _ => Constr.Twin.refl _, fun _ => Cost.Twin.refl _,
    fun _ _ _ => ⟨fun _ _ _ _ => rfl, fun _ _ _ _ => rfl, fun _ _ => rfl, fun _ _ => rfl⟩, LTwin.refl _⟩

theorem WTwin.mono (T : WTwin d g w w') (h : ∀ i, g'.cost i → g.cost i) : WTwin d g' w w' :=
  ⟨T.pss, T.extCons, T.extCosts, T.cons, T.costs, fun i hi => T.res i (h i hi), T.ctl⟩

theorem WTwin.setPss (T : WTwin d g w w') (p : Nat) (s : PreviewSystem K) :
    WTwin d g { w with pss := upd w.pss p s } { w' with pss := upd w'.pss p s } :=
  ⟨by show upd w'.pss p s = upd w.pss p s; rw [T.pss], T.extCons, T.extCosts, T.cons, T.costs, T.res, T.ctl⟩

theorem WTwin.setCons (T : WTwin d g w w') (i : Nat) {c c' : Constr K} (h : Constr.Twin c c') :
    WTwin d g { w with cons := upd w.cons i c } { w' with cons := upd w'.cons i c' } := by
  refine ⟨T.pss, T.extCons, T.extCosts, ?_, T.costs, T.res, T.ctl⟩
  intro j
  show Constr.Twin (upd w.cons i c j) (upd w'.cons i c' j)
  by_cases e : j = i
  · subst e; rw [upd_same, upd_same]; exact h
  · rw [upd_ne _ _ e, upd_ne _ _ e]; exact T.cons j

theorem WTwin.setCost (T : WTwin d g w w') (i : Nat) {c c' : Cost K} (h : Cost.Twin c c')
    (hg : ∀ j, j ≠ i → g'.cost j → g.cost j) (hr : g'.cost i → Cost.Accumulates c → Cost.ResEq d c c') :
    WTwin d g' { w with costs := upd w.costs i c } { w' with costs := upd w'.costs i c' } := by
  refine ⟨T.pss, T.extCons, T.extCosts, T.cons, ?_, ?_, T.ctl⟩
  · intro j
    show Cost.Twin (upd w.costs i c j) (upd w'.costs i c' j)
    by_cases e : j = i
    · subst e; rw [upd_same, upd_same]; exact h
    · rw [upd_ne _ _ e, upd_ne _ _ e]; exact T.costs j
  · intro j
    show g'.cost j → Cost.Accumulates (upd w.costs i c j) → Cost.ResEq d (upd w.costs i c j) (upd w'.costs i c' j)
    by_cases e : j = i
    · subst e; rw [upd_same, upd_same]; exact hr
    · rw [upd_ne _ _ e, upd_ne _ _ e]; exact fun x y => T.res j (hg j e x) y

theorem WTwin.setCtl (T : WTwin d g w w') {l l' : LMPC K} (h : LTwin l l') :
    WTwin d g { w with ctl := l } { w' with ctl := l' } :=
  ⟨T.pss, T.extCons, T.extCosts, T.cons, T.costs, T.res, h⟩

/-- Related outcomes of a call. -/
def StepRel (d : Dims) (g : Ghost) (w : World K) (a : Op K) : Res (World K) → Res (World K) → Prop
  | .ok x, .ok y => WTwin d (g.next w True a) x y
  | .thrown e x, .thrown e' y => e = e' ∧ WTwin d (g.next w False a) x y
  | .ub, .ub => True
  | _, _ => False

theorem StepRel.of {α : Type} {R : α → α → Prop} {r r' : Res α} {f f' : α → World K} {a : Op K} (h : RRel R r r')
    (hok : ∀ x y, r = .ok x → r' = .ok y → R x y → WTwin d (g.next w True a) (f x) (f' y))
    (hth : ∀ e x y, r = .thrown e x → r' = .thrown e y → R x y → WTwin d (g.next w False a) (f x) (f' y)) :
    StepRel d g w a (r.map f) (r'.map f') := by
  cases r <;> cases r' <;> simp only [RRel, Res.map, StepRel] at h ⊢
  · exact hok _ _ rfl rfl h
  · obtain ⟨rfl, h⟩ := h
    exact ⟨rfl, hth _ _ _ rfl rfl h⟩

theorem StepRel.same {α : Type} {r : Res α} {f f' : α → World K} {a : Op K}
    (hok : ∀ x, WTwin d (g.next w True a) (f x) (f' x)) (hth : ∀ x, WTwin d (g.next w False a) (f x) (f' x)) :
    StepRel d g w a (r.map f) (r.map f') := by
  cases r <;> simp only [Res.map, StepRel]
  · exact hok _
  · exact ⟨trivial, hth _⟩

/-- The controller pieces. -/
theorem LTwin.checkDelete {l l' : LMPC K} (h : LTwin l l') (ec ek : Nat → Nat) :
    (l'.checkDelete ec ek).spConstr = (l.checkDelete ec ek).spConstr ∧
    (l'.checkDelete ec ek).spEqConstr = (l.checkDelete ec ek).spEqConstr ∧
    (l'.checkDelete ec ek).spIneqConstr = (l.checkDelete ec ek).spIneqConstr ∧
    (l'.checkDelete ec ek).spBoundConstr = (l.checkDelete ec ek).spBoundConstr ∧
    (l'.checkDelete ec ek).spCost = (l.checkDelete ec ek).spCost := by
  simp only [LMPC.checkDelete, h.spConstr, h.spEqConstr, h.spIneqConstr, h.spBoundConstr, h.spCost, and_self]

/-- What a solve does to the costs and to the systems. -/
theorem solve_heap {env : SolveEnv K} {w w' : World K} {b : Bool} {q : QP K} (h : w.solve env = some (w', b, q)) :
    ∃ p ps, w.ctl.ps = some p ∧ (if (w.pss p).isUpdated then some (w.pss p) else (w.pss p).updateSystem) = some ps ∧
      w.ctl.spCost.foldlM (updateCost ps) w.costs = some w'.costs ∧ w'.pss = upd w.pss p ps := by
  obtain ⟨w1, p, l, s, l', h1, hp, hl, hs, rfl, rfl, hl', rfl⟩ := solve_inv h
  obtain ⟨p1, ps, l1, l2, cons, costs, hp1, hps, e1, e2, hc, hk, rfl, f⟩ := updateSystem_inv h1
  exact ⟨p1, ps, hp1, hps, hk, rfl⟩

end World
end

variable {K : Type} [Field K] [LinearOrder K] [IsStrictOrderedRing K]
namespace World
variable {d : Dims} {g : Ghost} {w1 w2 w1' w2' : World K} {dmax : K}

/-- Two solves in related states. -/
theorem WTwin.solve (T : WTwin d g w1 w2) (G1 : Good d dmax w1 g) (G2 : Good d dmax w2 g) {e1 e2 : SolveEnv K}
    {b1 b2 : Bool} {q1 q2 : QP K} (c1 : SolveContract d e1 w1.ctl) (c2 : SolveContract d e2 w2.ctl)
    (hI : SameInverse d e1 e2) (hA : SameAnswer e1 e2)
    (s1 : w1.solve e1 = some (w1', b1, q1)) (s2 : w2.solve e2 = some (w2', b2, q2)) :
    QPEq q1 q2 ∧ b1 = b2 ∧ WTwin d g w1' w2' := by
  obtain ⟨p, hp, S1⟩ := G1.solved c1 s1
  obtain ⟨p', hp', S2⟩ := G2.solved c2 s2
  have hpp : p' = p := by rw [T.ctl.ps, hp] at hp'; exact (Option.some.inj hp').symm
  subst hpp
  have C1 := G1.canUpdate hp
  have C2 := G2.canUpdate hp'
  -- systems and costs
  obtain ⟨pa, ps, ha, hps, k1, l1⟩ := solve_heap s1
  rw [hp] at ha; cases ha
  obtain ⟨pb, ps2, hb, hps2, k2, l2⟩ := solve_heap s2
  rw [hp'] at hb; cases hb
  rw [T.pss] at hps2
  have hpe : ps2 = ps := by rw [hps] at hps2; exact (Option.some.inj hps2).symm
  subst hpe
  have hq : w2'.pss = w1'.pss := by rw [l2, l1, T.pss]
  have e1 : w1'.pss p' = ps2 := by rw [l1, upd_same]
  have S : SysShape d ps2 := by rw [← e1]; exact S1.heap.sys.dims.toSysShape
  have hx : ps2.x0.rows = d.n := by rw [← e1, S1.heap.x0]; exact C1.x0
  rw [T.ctl.spCost] at k2
  obtain ⟨t1, t2, t3, t4⟩ := updateCosts_twin S hx w1.ctl.spCost C1.costs
    (fun i hi => C2.costs i (by rw [T.ctl.spCost]; exact hi)) T.costs
    (fun i hi => T.res i (G1.subK i hi)) k1 k2
  -- declared data
  have D : SameDet d w1 p' w2 p' := by
    refine ⟨by rw [T.pss], by rw [T.pss], by rw [T.pss], fun _ _ => by rw [T.pss], ?_⟩
    rw [T.ctl.spConstr]
    exact forall₂_self fun i hi =>
      ⟨hi, hi, (T.cons i).det (C1.cons i hi) (C2.cons i (by rw [T.ctl.spConstr]; exact hi))⟩
  have hK : List.Forall₂ (fun i j => Cost.ResEq d (w1'.costs i) (w2'.costs j)) w1.ctl.spCost w2.ctl.spCost := by
    rw [T.ctl.spCost]; exact forall₂_self t2
  have hQ : QPEq q1 q2 := by
    cases hi : w1.ctl.isInit
    · have hn : numVars d w1.ctl = d.m * d.N := by unfold numVars; rw [hi]; rfl
      exact qp_eq_plain C1 C2 S1 S2 hi (by rw [T.ctl.isInit]; exact hi) D hK fun _ t ht =>
        ⟨T.ctl.lb.2 t (by rw [C1.lbr, hn]; exact ht), T.ctl.ub.2 t (by rw [C1.ubr, hn]; exact ht)⟩
    · have hn : numVars d w1.ctl = d.n + d.m * d.N := by unfold numVars; rw [hi]; rfl
      refine qp_eq_init C1 C2 S1 S2 hi (by rw [T.ctl.isInit]; exact hi) D hK (fun _ t ht =>
        ⟨T.ctl.lb.2 _ (by rw [C1.lbr, hn]; omega), T.ctl.ub.2 _ (by rw [C1.ubr, hn]; omega)⟩) ?_ hI (c1.init hi).2.2.2.2.2
      intro a _
      rw [T.ctl.R, T.ctl.r, T.ctl.x0lb, T.ctl.x0ub]
      exact ⟨fun _ _ => rfl, rfl, rfl, rfl⟩
  obtain ⟨a1, a2⟩ := hA q1 q2 hQ
  have hbb : b1 = b2 := by rw [S1.answer, S2.answer]; exact a1
  refine ⟨hQ, hbb, ?_⟩
  obtain ⟨F1, fl1, fl2, fl3, fl4, fl5⟩ := solve_frame s1
  obtain ⟨F2, gl1, gl2, gl3, gl4, gl5⟩ := solve_frame s2
  rw [T.extCons, T.extCosts] at gl1 gl2 gl3 gl4 gl5
  obtain ⟨z1, z2, z3, z4, z5⟩ := LTwin.checkDelete T.ctl w1.extCons w1.extCosts
  have hn2 : q1.nrVar = numVars d w1.ctl := S1.nrVar
  refine ⟨hq, by rw [F2.extCons, F1.extCons, T.extCons], by rw [F2.extCosts, F1.extCosts, T.extCosts], ?_, t1, ?_, ?_⟩
  · intro i
    by_cases hi : i ∈ w1.ctl.spConstr
    · exact (T.cons i).frame (C1.cons i hi) (S1.heap.frame i) (S2.heap.frame i)
    · rw [(S1.heap.cons i).2 hi, (S2.heap.cons i).2 (by rw [T.ctl.spConstr]; exact hi)]
      exact T.cons i
  · intro i hg hac
    by_cases hi : i ∈ w1.ctl.spCost
    · exact t2 i hi
    · obtain ⟨x, y⟩ := t3 i hi
      rw [x] at hac ⊢
      rw [y]
      exact T.res i hg hac
  · refine ⟨by rw [F2.isInit, F1.isInit, T.ctl.isInit], by rw [F2.ps, F1.ps, T.ctl.ps], by rw [gl5, fl5, z5],
      by rw [gl1, fl1, z1], by rw [gl2, fl2, z2], by rw [gl3, fl3, z3], by rw [gl4, fl4, z4],
      by rw [S2.nrEq, S1.nrEq]; exact hQ.2.1.symm, by rw [S2.nrIneq, S1.nrIneq]; exact hQ.2.2.1.symm,
      by rw [F2.R, F1.R, T.ctl.R], by rw [F2.r, F1.r, T.ctl.r], by rw [F2.x0lb, F1.x0lb, T.ctl.x0lb],
      by rw [F2.x0ub, F1.x0ub, T.ctl.x0ub], ?_, ?_, ?_, ?_, ?_⟩
    · rw [S1.lb, S2.lb]; exact hQ.2.2.2.2.2.2.2.2.2.1
    · rw [S1.ub, S2.ub]; exact hQ.2.2.2.2.2.2.2.2.2.2
    · cases hb : b1
      · rw [(S1.fail hb).1, (S2.fail (by rw [← hbb]; exact hb)).1]; exact T.ctl.control
      · obtain ⟨r1, r2, _⟩ := S1.success hb
        obtain ⟨r1', r2', _⟩ := S2.success (by rw [← hbb]; exact hb)
        refine ⟨r1.trans r1'.symm, ?_⟩
        intro j hj
        rw [r1] at hj
        rw [r2 j hj, r2' j hj, T.ctl.isInit]
        refine a2.2 _ ?_
        rw [c1.answer q1 hn2 (by rw [← S1.answer]; exact hb), hn2]
        unfold numVars
        split <;> omega
    · cases hb : b1
      · rw [(S1.fail hb).2, (S2.fail (by rw [← hbb]; exact hb)).2]; exact T.ctl.trajectory
      · obtain ⟨r1, r2, v, v1⟩ := S1.success hb
        obtain ⟨r1', r2', v', v1'⟩ := S2.success (by rw [← hbb]; exact hb)
        refine ⟨v.trans v'.symm, ?_⟩
        intro j hj
        rw [v] at hj
        obtain ⟨k, r, hk, hr, rfl⟩ := blk_split hj
        rw [v1 k r (by omega) hr, v1' k r (by omega) hr, T.pss, T.ctl.isInit]
        refine sim_congr d _ _ _ ?_ ?_ k (by omega) r hr
        · intro j hj
          split
          · next hi =>
            refine a2.2 _ ?_
            rw [c1.answer q1 hn2 (by rw [← S1.answer]; exact hb), hn2]
            unfold numVars
            rw [if_pos hi]; omega
          · rfl
        · intro j hj
          rw [r2 j hj, r2' j hj, T.ctl.isInit]
          refine a2.2 _ ?_
          rw [c1.answer q1 hn2 (by rw [← S1.answer]; exact hb), hn2]
          unfold numVars
          split <;> omega
    · obtain ⟨s, x, x'⟩ := S1.sol
      obtain ⟨s', y, y'⟩ := S2.sol
      rcases T.ctl.sol with ⟨h, _⟩ | ⟨u, u', h1, h2, h3, _⟩
      · rw [x] at h; cases h
      · rw [x] at h1; cases h1
        rw [y] at h2; cases h2
        exact Or.inr ⟨_, _, x', y', h3, a2⟩

/-! ## Every call -/

/-- Field by field. -/
local macro "ltwin " h:ident : tactic => `(tactic| (constructor <;> first
  | rfl | exact ($h).isInit | exact ($h).ps | exact ($h).spCost | exact ($h).spConstr | exact ($h).spEqConstr
  | exact ($h).spIneqConstr | exact ($h).spBoundConstr | exact ($h).nrEq | exact ($h).nrIneq | exact ($h).R | exact ($h).r
  | exact ($h).x0lb | exact ($h).x0ub | exact ($h).lb | exact ($h).ub | exact ($h).control | exact ($h).trajectory
  | exact ($h).sol | exact VecEq.rfl' _
  | (show _ ++ _ = _ ++ _
     first | rw [($h).spConstr] | rw [($h).spEqConstr] | rw [($h).spIneqConstr] | rw [($h).spBoundConstr] | rw [($h).spCost])))


theorem LTwin.initialize {K : Type} [Field K] {l l' : LMPC K} (h : LTwin l l') (dmax : K) (j j' : Junk K) (p : Nat)
    (ps : PreviewSystem K) :
    RRel LTwin (Res.ofOption (l.initializeController dmax j p ps)) (Res.ofOption (l'.initializeController dmax j' p ps)) := by
  refine RRel.ofOption ?_
  unfold LMPC.initializeController LMPC.clearConstraintMatrices LMPC.updateQPMatrixSize LMPC.optSize
  simp only [h.isInit]
  by_cases hi : l.isInit = true
  · simp only [hi, if_true]
    cases hc : chkInt (ps.xDim + ps.fullUDim) with
    | none => exact Or.inl ⟨rfl, rfl⟩
    | some n =>
      exact Or.inr ⟨_, _, rfl, rfl, by ltwin h⟩
  · simp only [hi, if_false]
    exact Or.inr ⟨_, _, rfl, rfl, by ltwin h⟩

theorem LTwin.addByType {K : Type} [Field K] {l l' : LMPC K} (h : LTwin l l') (i : Nat) {c c' : Constr K} (t : Constr.Twin c c') :
    (l.addConstraintByType i c = none ∧ l'.addConstraintByType i c' = none) ∨
    ∃ a b, l.addConstraintByType i c = some a ∧ l'.addConstraintByType i c' = some b ∧ LTwin a b := by
  unfold LMPC.addConstraintByType
  rw [t.type, t.nr, h.nrEq, h.nrIneq]
  cases c.constraintType <;> simp only
  · cases chkInt (l.nrEqConstr + c.nrConstr) with
    | none => exact Or.inl ⟨rfl, rfl⟩
    | some n =>
      exact Or.inr ⟨_, _, rfl, rfl, by ltwin h⟩
  · cases chkInt (l.nrIneqConstr + c.nrConstr) with
    | none => exact Or.inl ⟨rfl, rfl⟩
    | some n =>
      exact Or.inr ⟨_, _, rfl, rfl, by ltwin h⟩
  · exact Or.inr ⟨_, _, rfl, rfl, by ltwin h⟩

theorem LTwin.remove {K : Type} [Field K] {l l' : LMPC K} (h : LTwin l l') (i : Nat) {c c' : Constr K} (t : Constr.Twin c c') :
    RRel LTwin (Res.ofOption (l.removeConstraint i c)) (Res.ofOption (l'.removeConstraint i c')) := by
  refine RRel.ofOption ?_
  unfold LMPC.removeConstraint LMPC.eraseFind?
  rw [t.type, h.spConstr]
  split
  · cases c.constraintType <;> simp only [h.spEqConstr, h.spIneqConstr, h.spBoundConstr]
    · split
      · exact Or.inr ⟨_, _, rfl, rfl, by ltwin h⟩
      · exact Or.inl ⟨rfl, rfl⟩
    · split
      · exact Or.inr ⟨_, _, rfl, rfl, by ltwin h⟩
      · exact Or.inl ⟨rfl, rfl⟩
    · split
      · exact Or.inr ⟨_, _, rfl, rfl, by ltwin h⟩
      · exact Or.inl ⟨rfl, rfl⟩
  · exact Or.inr ⟨_, _, rfl, rfl, h⟩

theorem Good.notFull {w : World K} (G : Good d dmax w g) (i : Nat) :
    Constr.Once (w.cons i) → (w.cons i).hasBeenInitialized = false → (w.cons i).fullSizeEntry = false := by
  intro ho hi
  by_cases hg : g.constr i
  · have r := G.consReg i hg
    unfold Constr.Reg at r
    rcases ho with ho | ho <;> rw [ho] at r
    · rw [r.init] at hi; cases hi
    · rw [r.init] at hi; cases hi
  · exact (G.consUn i hg).1

/-- Initialising twin costs: what the ghost needs. -/
theorem WTwin.initCost (T : WTwin d g w1 w2) (G1 : Good d dmax w1 g) (G2 : Good d dmax w2 g) {i : Nat} {ps : PreviewSystem K}
    (S : SysShape d ps) {j j' : Junk K} :
    RRel Cost.Twin ((w1.costs i).initializeCost j ps) ((w2.costs i).initializeCost j' ps) ∧
    (∀ x y, (w1.costs i).initializeCost j ps = .ok x → (w2.costs i).initializeCost j' ps = .ok y →
      Cost.Accumulates x → Cost.Accumulates y → Cost.ResEq d x y) ∧
    (∀ e x, (w1.costs i).initializeCost j ps = .thrown e x → ¬ g.cost i) := by
  refine ⟨(T.costs i).init j j' ps, ?_, ?_⟩
  · intro x y hx hy ax ay
    exact ((G1.kstate i).init S hx).2.resEq ((G2.kstate i).init S hy).2 ax ay
  · intro e x hx hg
    have r := G1.costReg i hg
    obtain ⟨c2, e2, _⟩ := (Cost.init_spec j S r.wr (Or.inr r.data)).1 r.data.fits
    rw [hx] at e2; cases e2

section
variable {K : Type} [Field K] {w : World K} {p i : Nat} {j : Junk K}

theorem addCost_none (hp : w.ctl.ps = none) : w.addCost j i = .ub := by
  unfold World.addCost
  split
  · rfl
  · next h => rw [hp] at h; cases h

theorem addCost_ok' (hp : w.ctl.ps = some p) {c : Cost K} (h : (w.costs i).initializeCost j (w.pss p) = .ok c) :
    w.addCost j i = .ok { w with
        costs := upd w.costs i c
        ctl := { w.ctl with spCost := w.ctl.spCost ++ [i] } } := by
  unfold World.addCost
  split
  · next h' => rw [hp] at h'; cases h'
  · next p' h' => rw [hp] at h'; cases h'; rw [h]

theorem addCost_thrown' (hp : w.ctl.ps = some p) {c : Cost K} {e : Exn}
    (h : (w.costs i).initializeCost j (w.pss p) = .thrown e c) :
    w.addCost j i = .thrown e { w with costs := upd w.costs i c } := by
  unfold World.addCost
  split
  · next h' => rw [hp] at h'; cases h'
  · next p' h' => rw [hp] at h'; cases h'; rw [h]

theorem addCost_ub' (hp : w.ctl.ps = some p) (h : (w.costs i).initializeCost j (w.pss p) = .ub) : w.addCost j i = .ub := by
  unfold World.addCost
  split
  · rfl
  · next p' h' => rw [hp] at h'; cases h'; rw [h]

theorem addConstraint_none (hp : w.ctl.ps = none) : w.addConstraint j i = .ub := by
  unfold World.addConstraint
  split
  · rfl
  · next h => rw [hp] at h; cases h

theorem addConstraint_ok' (hp : w.ctl.ps = some p) {c : Constr K} {l : LMPC K}
    (h : (w.cons i).initializeConstraint j (w.pss p) = .ok c) (hl : w.ctl.addConstraintByType i c = some l) :
    w.addConstraint j i = .ok { w with cons := upd w.cons i c, ctl := l } := by
  unfold World.addConstraint
  split
  · next h' => rw [hp] at h'; cases h'
  · next p' h' => rw [hp] at h'; cases h'; rw [h]; simp only [hl]

theorem addConstraint_full' (hp : w.ctl.ps = some p) {c : Constr K}
    (h : (w.cons i).initializeConstraint j (w.pss p) = .ok c) (hl : w.ctl.addConstraintByType i c = none) :
    w.addConstraint j i = .ub := by
  unfold World.addConstraint
  split
  · rfl
  · next p' h' => rw [hp] at h'; cases h'; rw [h]; dsimp only; rw [hl]

theorem addConstraint_thrown' (hp : w.ctl.ps = some p) {c : Constr K} {e : Exn}
    (h : (w.cons i).initializeConstraint j (w.pss p) = .thrown e c) :
    w.addConstraint j i = .thrown e { w with cons := upd w.cons i c } := by
  unfold World.addConstraint
  split
  · next h' => rw [hp] at h'; cases h'
  · next p' h' => rw [hp] at h'; cases h'; rw [h]

theorem addConstraint_ub' (hp : w.ctl.ps = some p) (h : (w.cons i).initializeConstraint j (w.pss p) = .ub) :
    w.addConstraint j i = .ub := by
  unfold World.addConstraint
  split
  · rfl
  · next p' h' => rw [hp] at h'; cases h'; rw [h]

end

theorem clearConstraints_eq {w : World K} {p n : Nat} (hp : w.ctl.ps = some p)
    (hn : w.ctl.clearRegistry.optSize (w.pss p) = some n) :
    w.clearConstraints dmax = some { w with ctl := { w.ctl.clearRegistry with
      Aineq := Mat.zero 0 n, Aeq := Mat.zero 0 n, bineq := Vec.nil, beq := Vec.nil
      lb := Vec.const n (.fin (-dmax)), ub := Vec.const n (.fin dmax) } } := by
  unfold World.clearConstraints LMPC.clearConstraintMatrices
  simp only [hp, hn, Option.bind_eq_bind, Option.bind_some, Option.pure_def]

theorem WTwin.clearConstraints (T : WTwin d g w1 w2) :
    StepRel d g w1 .clearConstraints (Res.ofOption (w1.clearConstraints dmax)) (Res.ofOption (w2.clearConstraints dmax)) := by
  cases hp : w1.ctl.ps with
  | none =>
    have h1 : w1.clearConstraints dmax = none := by unfold World.clearConstraints; rw [hp]; rfl
    have h2 : w2.clearConstraints dmax = none := by unfold World.clearConstraints; rw [T.ctl.ps, hp]; rfl
    rw [h1, h2]; trivial
  | some p =>
    have hp2 : w2.ctl.ps = some p := T.ctl.ps.trans hp
    have hps : w2.pss p = w1.pss p := by rw [T.pss]
    have ho : w2.ctl.clearRegistry.optSize (w2.pss p) = w1.ctl.clearRegistry.optSize (w1.pss p) := by
      rw [hps]
      show w2.ctl.optSize _ = w1.ctl.optSize _
      unfold LMPC.optSize; rw [T.ctl.isInit]
    cases hn : w1.ctl.clearRegistry.optSize (w1.pss p) with
    | none =>
      have h1 : w1.clearConstraints dmax = none := by
        unfold World.clearConstraints LMPC.clearConstraintMatrices
        simp only [hp, hn, Option.bind_eq_bind, Option.bind_some, Option.bind_none]
      have h2 : w2.clearConstraints dmax = none := by
        unfold World.clearConstraints LMPC.clearConstraintMatrices
        simp only [hp2, ho, hn, Option.bind_eq_bind, Option.bind_some, Option.bind_none]
      rw [h1, h2]; trivial
    | some n =>
      have h1 := clearConstraints_eq (dmax := dmax) hp hn
      have h2 := clearConstraints_eq (dmax := dmax) hp2 (ho.trans hn)
      rw [h1, h2]
      refine WTwin.mono (g := g) ?_ fun _ h => h
      refine T.setCtl ?_
      exact ⟨T.ctl.isInit, T.ctl.ps, T.ctl.spCost, rfl, rfl, rfl, rfl, rfl, rfl, T.ctl.R, T.ctl.r, T.ctl.x0lb, T.ctl.x0ub,
        (VecEq.rfl' _), (VecEq.rfl' _), T.ctl.control, T.ctl.trajectory, T.ctl.sol⟩

theorem WTwin.addCost (T : WTwin d g w1 w2) (G1 : Good d dmax w1 g) (G2 : Good d dmax w2 g) (i : Nat) (j j' : Junk K) :
    StepRel d g w1 (.addCost i j) (w1.addCost j i) (w2.addCost j' i) := by
  cases hp : w1.ctl.ps with
  | none => rw [addCost_none hp, addCost_none (T.ctl.ps.trans hp)]; trivial
  | some p =>
    have hp2 : w2.ctl.ps = some p := T.ctl.ps.trans hp
    obtain ⟨k1, k2, k3⟩ := T.initCost G1 G2 (i := i) (G1.sys p (G1.ctl p hp).1).1.dims.toSysShape (j := j) (j' := j')
    have hps : w2.pss p = w1.pss p := by rw [T.pss]
    cases h1 : (w1.costs i).initializeCost j (w1.pss p) with
    | ok x =>
      obtain ⟨y, h2, t⟩ := k1.same h1
      rw [addCost_ok' hp h1, addCost_ok' hp2 (by rw [hps]; exact h2)]
      have T' := T.setCost (g' := g.next w1 True (.addCost i j)) i t (by
        rintro n hn (h | h)
        · exact h
        · exact absurd h.2 hn) (fun _ ha => k2 x y h1 h2 ha (t.acc.2 ha))
      have t := T.ctl
      refine T'.setCtl ?_
      ltwin t
    | thrown e x =>
      obtain ⟨y, h2, t⟩ := k1.same_thrown h1
      rw [addCost_thrown' hp h1, addCost_thrown' hp2 (by rw [hps]; exact h2)]
      refine ⟨rfl, T.setCost i t ?_ ?_⟩
      · rintro n hn (h | h)
        · exact h
        · exact h.1.elim
      · rintro (h | h)
        · exact absurd h (k3 e x h1)
        · exact h.1.elim
    | ub =>
      rw [h1] at k1
      cases h2 : (w2.costs i).initializeCost j' (w1.pss p) <;> rw [h2] at k1 <;> simp only [RRel] at k1
      rw [addCost_ub' hp h1, addCost_ub' hp2 (by rw [hps]; exact h2)]
      trivial

theorem WTwin.addConstraint (T : WTwin d g w1 w2) (G1 : Good d dmax w1 g) (i : Nat) (j j' : Junk K) :
    StepRel d g w1 (.addConstraint i j) (w1.addConstraint j i) (w2.addConstraint j' i) := by
  cases hp : w1.ctl.ps with
  | none => rw [addConstraint_none hp, addConstraint_none (T.ctl.ps.trans hp)]; trivial
  | some p =>
    have hp2 : w2.ctl.ps = some p := T.ctl.ps.trans hp
    have k1 := (T.cons i).init (G1.notFull i) j j' (w1.pss p)
    have hps : w2.pss p = w1.pss p := by rw [T.pss]
    cases h1 : (w1.cons i).initializeConstraint j (w1.pss p) with
    | ok x =>
      obtain ⟨y, h2, t⟩ := k1.same h1
      rcases LTwin.addByType T.ctl i t with ⟨a1, a2⟩ | ⟨l, l', a1, a2, t'⟩
      · rw [addConstraint_full' hp h1 a1, addConstraint_full' hp2 (by rw [hps]; exact h2) a2]; trivial
      · rw [addConstraint_ok' hp h1 a1, addConstraint_ok' hp2 (by rw [hps]; exact h2) a2]
        exact (((T.setCons i t).setCtl t').mono fun _ h => h)
    | thrown e x =>
      obtain ⟨y, h2, t⟩ := k1.same_thrown h1
      rw [addConstraint_thrown' hp h1, addConstraint_thrown' hp2 (by rw [hps]; exact h2)]
      exact ⟨rfl, (T.setCons i t).mono fun _ h => h⟩
    | ub =>
      rw [h1] at k1
      cases h2 : (w2.cons i).initializeConstraint j' (w1.pss p) <;> rw [h2] at k1 <;> simp only [RRel] at k1
      rw [addConstraint_ub' hp h1, addConstraint_ub' hp2 (by rw [hps]; exact h2)]
      trivial

/-- The rules transfer to the other execution. -/
theorem WTwin.opOk (T : WTwin d g w1 w2) {a b : Op K} (ho : OpOk d w1 g a) (hs : SameCall d a b) : OpOk d w2 g b := by
  cases a
  case spanConstr | spanCost => obtain ⟨_, rfl⟩ := hs; trivial
  case addCost => obtain ⟨_, rfl⟩ := hs; trivial
  case initConstr | initCost | constructPs | initializeController =>
    obtain ⟨_, rfl⟩ := hs
    show HasSystem _ _
    unfold HasSystem; rw [T.pss]; exact ho
  case addConstraint i _ =>
    obtain ⟨_, rfl⟩ := hs
    show (w2.cons i).kind = .ctrlBound → w2.ctl.spBoundConstr = []
    rw [(T.cons i).kind, T.ctl.spBoundConstr]; exact ho
  case solve e =>
    obtain ⟨e', rfl, hI, hA⟩ := hs
    obtain ⟨h1, c⟩ := ho
    refine ⟨by rw [T.ctl.ps]; exact h1, ?_, ?_, ?_⟩
    · rcases T.ctl.sol with ⟨h, _⟩ | ⟨s, s', _, h, _⟩
      · exact absurd h c.sol
      · rw [h]; exact Option.some_ne_none _
    · intro q hq hb
      obtain ⟨a1, a2⟩ := hA q q (QPEq.refl q)
      rw [← a2.1]
      exact c.answer q (by rw [hq]; unfold numVars; rw [T.ctl.isInit]) (by rw [a1]; exact hb)
    · rw [T.ctl.isInit, T.ctl.R, T.ctl.r, T.ctl.x0lb, T.ctl.x0ub]
      intro hi
      obtain ⟨r1, r2, r3, r4, r5, r6⟩ := c.init hi
      refine ⟨r1, r2, r3, r4, r5, fun M h1 h2 => ?_⟩
      have m := hI M M h1 h2 (MatEq.rfl' M)
      rw [← m.1, ← m.2.1]
      exact r6 M h1 h2
  case updatePs | updateConstr | updateCost =>
    obtain rfl := hs
    simp only [OpOk, HasSystem] at ho ⊢
    rw [T.pss]; exact ho
  all_goals
    obtain rfl := hs
    exact ho

/-- The client's book-keeping is the same. -/
theorem WTwin.next (T : WTwin d g w1 w2) {a b : Op K} (hs : SameCall d a b) (P : Prop) : g.next w1 P a = g.next w2 P b := by
  cases a
  case spanConstr | spanCost | addCost | initConstr | initCost | constructPs | initializeController | addConstraint =>
    obtain ⟨_, rfl⟩ := hs; rfl
  case solve e =>
    obtain ⟨e', rfl, hI, hA⟩ := hs
    simp only [Ghost.next, T.ctl.spCost, T.ctl.spBoundConstr]
  all_goals
    obtain rfl := hs
    rfl

set_option maxHeartbeats 1000000 in
/-- One call in both executions. -/
theorem WTwin.step (T : WTwin d g w1 w2) (G1 : Good d dmax w1 g) (G2 : Good d dmax w2 g) {a b : Op K}
    (ho : OpOk d w1 g a) (hs : SameCall d a b) : StepRel d g w1 a (w1.step dmax a) (w2.step dmax b) := by
  have ho2 := T.opOk ho hs
  obtain ⟨P2, cons2, costs2, ec2, ek2, ctl2⟩ := w2
  obtain rfl : P2 = w1.pss := T.pss
  cases a
  case system p A B v x N =>
    obtain rfl := hs
    simp only [World.step]
    refine StepRel.same (fun s => ?_) (fun s => ?_) <;> exact T.setPss p s
  case xInit p x =>
    obtain rfl := hs
    simp only [World.step]
    exact T.setPss p ((w1.pss p).setXInit x)
  case setDynamics p A B v =>
    obtain rfl := hs
    simp only [World.step]
    exact T.setPss p ((w1.pss p).setDynamics A B v)
  case updatePs p =>
    obtain rfl := hs
    simp only [World.step]
    refine StepRel.same (fun s => ?_) (fun s => ?_) <;> exact T.setPss p s
  case spanConstr i j =>
    obtain ⟨j', rfl⟩ := hs
    simp only [World.step]
    exact StepRel.of ((T.cons i).autoSpan j j') (fun x y _ _ h => T.setCons i h) (fun _ x y _ _ h => T.setCons i h)
  case initConstr i p j =>
    obtain ⟨j', rfl⟩ := hs
    simp only [World.step]
    exact StepRel.of ((T.cons i).init (G1.notFull i) j j' _)
      (fun x y _ _ h => (T.setCons i h).mono fun _ h => h) (fun _ x y _ _ h => (T.setCons i h).mono fun _ h => h)
  case updateConstr i p =>
    obtain rfl := hs
    obtain ⟨o1, o2, o3⟩ := ho
    obtain ⟨s1, s2⟩ := G1.sys p o2
    obtain ⟨c1, e1, _, f1, _⟩ := Constr.update_ok (G1.consReg i o1) s1.dims.toSysShape (s1.pred o3) s2
    obtain ⟨c2, e2, _, f2, _⟩ := Constr.update_ok (G2.consReg i o1) s1.dims.toSysShape (s1.pred o3) s2
    simp only [World.step, e1, e2, Res.ofOption]
    exact T.setCons i ((T.cons i).frame (G1.consReg i o1) f1 f2)
  case spanCost i j =>
    obtain ⟨j', rfl⟩ := hs
    simp only [World.step]
    by_cases hg : g.cost i
    · rw [Cost.autoSpan_rowsAgree j (G1.costReg i hg).rowsAgree, Cost.autoSpan_rowsAgree j' (G2.costReg i hg).rowsAgree]
      exact T.setCost i (T.costs i) (fun _ _ h => h) (fun h => T.res i h)
    · exact StepRel.of ((T.costs i).autoSpan j j') (fun x y _ _ h => T.setCost i h (fun _ _ h => h) fun h => absurd h hg)
        (fun _ x y _ _ h => T.setCost i h (fun _ _ h => h) fun h => absurd h hg)
  case weights i v =>
    obtain rfl := hs
    simp only [World.step]
    refine StepRel.of ((T.costs i).setWeights (d := d) v) ?_ ?_
    · intro x y hx _ h
      refine T.setCost i h.1 (fun _ _ h => h) fun hc ha => h.2 (T.res i hc ?_)
      obtain ⟨v', rfl, _⟩ := Cost.setWeights_frame (Or.inl hx)
      exact ha
    · intro e x y hx _ h
      refine T.setCost i h.1 (fun _ _ h => h) fun hc ha => h.2 (T.res i hc ?_)
      obtain ⟨v', rfl, _⟩ := Cost.setWeights_frame (Or.inr ⟨e, hx⟩)
      exact ha
  case weight i v =>
    obtain rfl := hs
    simp only [World.step]
    refine T.setCost i ((T.costs i).setWeight v) (fun _ _ h => h) fun hc ha => ?_
    have e := T.res i hc ha
    exact ⟨e.Q, e.E, e.f, e.c⟩
  case initCost i p j =>
    obtain ⟨j', rfl⟩ := hs
    simp only [World.step]
    obtain ⟨k1, k2, k3⟩ := T.initCost G1 G2 (i := i) (G1.sys p ho).1.dims.toSysShape (j := j) (j' := j')
    refine StepRel.of k1 ?_ ?_
    · intro x y hx hy h
      refine T.setCost i h ?_ fun _ ha => k2 x y hx hy ha (h.acc.2 ha)
      rintro n hn (h | h)
      · exact h
      · exact absurd h.2 hn
    · intro e x y hx hy h
      refine T.setCost i h ?_ ?_
      · rintro n hn (h | h)
        · exact h
        · exact h.1.elim
      · rintro (h | h)
        · exact absurd h (k3 e x hx)
        · exact h.1.elim
  case updateCost i p =>
    obtain rfl := hs
    obtain ⟨o1, o2⟩ := ho
    obtain ⟨s1, s2⟩ := G1.sys p o2
    obtain ⟨c1, e1, _, u1⟩ := Cost.update_ok (G1.costReg i o1) s1.dims.toSysShape s2
    obtain ⟨c2, e2, _, u2⟩ := Cost.update_ok (G2.costReg i o1) s1.dims.toSysShape s2
    simp only [World.step, e1, e2, Res.ofOption]
    refine T.setCost i ((T.costs i).same u1.same u2.same) (fun _ _ h => h) fun _ _ => ?_
    exact Cost.Updated.resEq (T.costs i) (Cost.determined (G1.costReg i o1) (G2.costReg i o1) (T.costs i).eqv)
      (T.res i o1) u1 u2
  case refsConstr i n =>
    obtain rfl := hs
    exact ⟨T.pss, congrArg (upd · i n) T.extCons, T.extCosts, T.cons, T.costs, T.res, T.ctl⟩
  case refsCost i n =>
    obtain rfl := hs
    exact ⟨T.pss, T.extCons, congrArg (upd · i n) T.extCosts, T.cons, T.costs, T.res, T.ctl⟩
  case construct t s =>
    obtain rfl := hs
    exact (T.setCtl (LTwin.refl _)).mono fun _ h => h
  case constructPs t s p j =>
    obtain ⟨j', rfl⟩ := hs
    simp only [World.step]
    exact StepRel.of (LTwin.initialize (LTwin.refl _) dmax j j' p _) (fun x y _ _ h => (T.setCtl h).mono fun _ h => h)
      (fun _ x y _ _ h => (T.setCtl h).mono fun _ h => h)
  case useSolver s =>
    obtain rfl := hs
    refine T.setCtl ⟨T.ctl.isInit, T.ctl.ps, T.ctl.spCost, T.ctl.spConstr, T.ctl.spEqConstr, T.ctl.spIneqConstr,
      T.ctl.spBoundConstr, T.ctl.nrEq, T.ctl.nrIneq, T.ctl.R, T.ctl.r, T.ctl.x0lb, T.ctl.x0ub, T.ctl.lb, T.ctl.ub,
      T.ctl.control, T.ctl.trajectory, ?_⟩
    cases s
    · exact Or.inl ⟨rfl, rfl⟩
    · exact Or.inr ⟨_, _, rfl, rfl, rfl, (VecEq.rfl' _)⟩
  case initializeController p j =>
    obtain ⟨j', rfl⟩ := hs
    simp only [World.step]
    exact StepRel.of (LTwin.initialize T.ctl dmax j j' p _) (fun x y _ _ h => (T.setCtl h).mono fun _ h => h)
      (fun _ x y _ _ h => (T.setCtl h).mono fun _ h => h)
  case addCost i j =>
    obtain ⟨j', rfl⟩ := hs
    exact T.addCost G1 G2 i j j'
  case addConstraint i j =>
    obtain ⟨j', rfl⟩ := hs
    exact T.addConstraint G1 i j j'
  case removeCost i =>
    obtain rfl := hs
    refine T.setCtl ?_
    exact ⟨T.ctl.isInit, T.ctl.ps, by show List.erase _ _ = List.erase _ _; rw [T.ctl.spCost], T.ctl.spConstr, T.ctl.spEqConstr,
      T.ctl.spIneqConstr, T.ctl.spBoundConstr, T.ctl.nrEq, T.ctl.nrIneq, T.ctl.R, T.ctl.r, T.ctl.x0lb, T.ctl.x0ub,
      T.ctl.lb, T.ctl.ub, T.ctl.control, T.ctl.trajectory, T.ctl.sol⟩
  case removeConstraint i =>
    obtain rfl := hs
    simp only [World.step]
    exact StepRel.of (LTwin.remove T.ctl i (T.cons i)) (fun x y _ _ h => T.setCtl h) (fun _ x y _ _ h => T.setCtl h)
  case clearCosts =>
    obtain rfl := hs
    refine T.setCtl ?_
    exact ⟨T.ctl.isInit, T.ctl.ps, rfl, T.ctl.spConstr, T.ctl.spEqConstr,
      T.ctl.spIneqConstr, T.ctl.spBoundConstr, T.ctl.nrEq, T.ctl.nrIneq, T.ctl.R, T.ctl.r, T.ctl.x0lb, T.ctl.x0ub,
      T.ctl.lb, T.ctl.ub, T.ctl.control, T.ctl.trajectory, T.ctl.sol⟩
  case clearConstraints =>
    obtain rfl := hs
    exact T.clearConstraints
  case resetInitialStateCost R r =>
    obtain rfl := hs
    exact T.setCtl ⟨T.ctl.isInit, T.ctl.ps, T.ctl.spCost, T.ctl.spConstr, T.ctl.spEqConstr, T.ctl.spIneqConstr,
      T.ctl.spBoundConstr, T.ctl.nrEq, T.ctl.nrIneq, rfl, rfl, T.ctl.x0lb, T.ctl.x0ub, T.ctl.lb, T.ctl.ub,
      T.ctl.control, T.ctl.trajectory, T.ctl.sol⟩
  case resetInitialStateBounds lo up =>
    obtain rfl := hs
    exact T.setCtl ⟨T.ctl.isInit, T.ctl.ps, T.ctl.spCost, T.ctl.spConstr, T.ctl.spEqConstr, T.ctl.spIneqConstr,
      T.ctl.spBoundConstr, T.ctl.nrEq, T.ctl.nrIneq, T.ctl.R, T.ctl.r, rfl, rfl, T.ctl.lb, T.ctl.ub,
      T.ctl.control, T.ctl.trajectory, T.ctl.sol⟩
  case solve e =>
    obtain ⟨e', rfl, hI, hA⟩ := hs
    obtain ⟨n1, c1⟩ := ho
    obtain ⟨n2, c2⟩ := ho2
    obtain ⟨p, hp⟩ := Option.ne_none_iff_exists'.1 n1
    obtain ⟨p2, hp2⟩ := Option.ne_none_iff_exists'.1 n2
    obtain ⟨w1', b1, q1, h1, _⟩ := solve_ok (G1.canUpdate hp) c1
    obtain ⟨w2', b2, q2, h2, _⟩ := solve_ok (G2.canUpdate hp2) c2
    simp only [World.step, h1, h2, Option.map_some, Res.ofOption]
    exact (T.solve G1 G2 c1 c2 hI hA h1 h2).2.2.mono fun _ h => h

/-- The invariant of lockstep executions. -/
theorem _root_.Copra.Spec.Twins.inv (h : Twins d dmax w1 w2 g) : WTwin d g w1 w2 ∧ Good d dmax w1 g ∧ Good d dmax w2 g := by
  induction h with
  | start h => exact ⟨WTwin.refl _, Good.start h, Good.start h⟩
  | ok _ ho hs h1 h2 ih =>
    obtain ⟨T, G1, G2⟩ := ih
    have s := T.step G1 G2 ho hs
    rw [h1, h2] at s
    refine ⟨s, G1.step ho (Or.inl ⟨trivial, h1⟩), ?_⟩
    rw [T.next hs]
    exact G2.step (T.opOk ho hs) (Or.inl ⟨trivial, h2⟩)
  | thrown _ ho hs h1 h2 ih =>
    obtain ⟨T, G1, G2⟩ := ih
    have s := T.step G1 G2 ho hs
    rw [h1, h2] at s
    refine ⟨s.2, G1.step ho (Or.inr ⟨fun h => h, _, h1⟩), ?_⟩
    rw [T.next hs]
    exact G2.step (T.opOk ho hs) (Or.inr ⟨fun h => h, _, h2⟩)

end World
end Copra
