import Verif.Proofs.Assemble
import Verif.SpecHist

/-! # `makeQPForm` on registered objects -/

namespace Copra
open Spec

set_option linter.unusedSectionVars false
set_option linter.unusedSimpArgs false

variable {K : Type} [Field K]

namespace LMPC

theorem countConstr_ok {cons : Nat → Constr K} {L : List Nat}
    (h : total (fun i => (cons i).nrConstr) L ≤ intMax) :
    countConstr cons L = some (total (fun i => (cons i).nrConstr) L) := by
  unfold countConstr
  have key : ∀ (L : List Nat) (n : Nat), n + total (fun i => (cons i).nrConstr) L ≤ intMax →
      L.foldlM (fun n i => chkInt (n + (cons i).nrConstr)) n = some (n + total (fun i => (cons i).nrConstr) L) := by
    intro L
    induction L with
    | nil => intro n _; rfl
    | cons x L ih =>
      intro n hn
      rw [total_cons] at hn
      rw [List.foldlM_cons, Constr.chkInt_some (by omega)]
      show L.foldlM _ (n + _) = _
      rw [ih _ (by omega), total_cons, Nat.add_assoc]
  have := key L 0 (by omega)
  rwa [Nat.zero_add] at this

theorem optSize_ok {d : Dims} {l : LMPC K} {ps : PreviewSystem K} (S : SysShape d ps)
    (h : l.isInit = true → d.n + d.m * d.N ≤ intMax) : l.optSize ps = some (numVars d l) := by
  unfold optSize numVars
  rw [S.xDim, S.fullU]
  split
  · next hi => rw [Constr.chkInt_some (h hi)]
  · rfl

theorem optSize_width {d : Dims} {l : LMPC K} {ps : PreviewSystem K} (S : SysShape d ps) {n : Nat}
    (h : l.optSize ps = some n) : n = numVars d l ∧ (l.isInit = true → d.n + d.m * d.N ≤ intMax) := by
  unfold optSize at h
  unfold numVars
  rw [S.xDim, S.fullU] at h
  split at h
  · next hi =>
    rw [chkInt_eq] at h
    rw [if_pos hi]; exact ⟨h.2, fun _ => h.1⟩
  · next hi => rw [if_neg hi]; exact ⟨(Option.some.inj h).symm, fun h => absurd h hi⟩

/-- The registered objects and the sizes of the controller's matrices just before `makeQPForm`. -/
structure Prepared (d : Dims) (cons : Nat → Constr K) (costs : Nat → Cost K) (l : LMPC K) : Prop where
  eqs : ∀ i ∈ l.spEqConstr, Constr.RowSizes d (cons i)
  ineqs : ∀ i ∈ l.spIneqConstr, Constr.RowSizes d (cons i)
  bounds : ∀ i ∈ l.spBoundConstr, Constr.RegCtrlBound d (cons i)
  one : l.spBoundConstr.length ≤ 1
  costs : ∀ i ∈ l.spCost, Cost.Sizes d (costs i)
  Q : l.Q = (Mat.identity (numVars d l) (numVars d l)).scale (1 / 1000000)
  c : l.c = Vec.zero (numVars d l)
  nrEq : l.nrEqConstr = total (fun i => (cons i).nrConstr) l.spEqConstr
  nrIneq : l.nrIneqConstr = total (fun i => (cons i).nrConstr) l.spIneqConstr
  Aeqr : l.Aeq.rows = l.nrEqConstr
  Aeqc : l.Aeq.cols = numVars d l
  beqr : l.beq.rows = l.nrEqConstr
  Aineqr : l.Aineq.rows = l.nrIneqConstr
  Aineqc : l.Aineq.cols = numVars d l
  bineqr : l.bineq.rows = l.nrIneqConstr
  lbr : l.lb.rows = numVars d l
  ubr : l.ub.rows = numVars d l

/-- What `LMPC::makeQPForm` builds. -/
structure Assembled (d : Dims) (cons : Nat → Constr K) (costs : Nat → Cost K) (l : LMPC K) (q : QP K) : Prop where
  nrVar : q.nrVar = q.c.rows
  nrEq : q.nrEq = total (fun i => (cons i).nrConstr) l.spEqConstr
  nrIneq : q.nrIneq = total (fun i => (cons i).nrConstr) l.spIneqConstr
  Qr : q.Q.rows = d.m * d.N
  Qc : q.Q.cols = d.m * d.N
  cr : q.c.rows = d.m * d.N
  Q : ∀ a < d.m * d.N, ∀ b < d.m * d.N, q.Q.e a b = (if a = b then 1 / 1000000 else 0)
    + (l.spCost.map fun i => (costs i).Q.e a b).sum
  c : ∀ a < d.m * d.N, q.c.e a = (l.spCost.map fun i => (costs i).c.e a).sum
  eq : Stack l.spEqConstr (fun i => (cons i).nrConstr) (fun i => (cons i).A.e) (fun i => (cons i).b.e)
    (d.m * d.N) q.Aeq q.beq
  ineq : Stack l.spIneqConstr (fun i => (cons i).nrConstr) (fun i => (cons i).A.e) (fun i => (cons i).b.e)
    (d.m * d.N) q.Aineq q.bineq
  lbr : q.lb.rows = d.m * d.N
  ubr : q.ub.rows = d.m * d.N
  keep : l.spBoundConstr = [] → q.lb = l.lb ∧ q.ub = l.ub
  bound : ∀ i, l.spBoundConstr = [i] → ∀ j < d.m * d.N, q.lb.e j = (cons i).lb.e j ∧ q.ub.e j = (cons i).ub.e j

/-- What `InitialStateLMPC::makeQPForm` builds. -/
structure AssembledInit (d : Dims) (inverse : Mat K → Mat K) (cons : Nat → Constr K) (costs : Nat → Cost K)
    (l : LMPC K) (q : QP K) : Prop where
  nrVar : q.nrVar = q.c.rows
  nrEq : q.nrEq = total (fun i => (cons i).nrConstr) l.spEqConstr
  nrIneq : q.nrIneq = total (fun i => (cons i).nrConstr) l.spIneqConstr
  Qr : q.Q.rows = d.n + d.m * d.N
  Qc : q.Q.cols = d.n + d.m * d.N
  cr : q.c.rows = d.n + d.m * d.N
  QUU : ∀ a < d.m * d.N, ∀ b < d.m * d.N, q.Q.e (d.n + a) (d.n + b) = (if a = b then 1 / 1000000 else 0)
    + (l.spCost.map fun i => (costs i).Q.e a b).sum
  QxU : ∀ a < d.n, ∀ b < d.m * d.N, q.Q.e a (d.n + b) = (l.spCost.map fun i => (costs i).E.e a b).sum
  QUx : ∀ a < d.n, ∀ b < d.m * d.N, q.Q.e (d.n + b) a = q.Q.e a (d.n + b)
  Qxx : ∃ QU Ex : Mat K, QU.rows = d.m * d.N ∧ QU.cols = d.m * d.N ∧ Ex.rows = d.n ∧ Ex.cols = d.m * d.N ∧
    (∀ a b, QU.e a b = q.Q.e (d.n + a) (d.n + b)) ∧ (∀ a b, Ex.e a b = q.Q.e a (d.n + b)) ∧
    ∀ a < d.n, ∀ b < d.n, q.Q.e a b = l.R.e a b + (((Ex.mul (inverse QU)).mul Ex.transpose).e a b)
  cx : ∀ a < d.n, q.c.e a = l.r.e a
  cU : ∀ a < d.m * d.N, q.c.e (d.n + a) = (l.spCost.map fun i => (costs i).f.e a).sum
  eq : Stack l.spEqConstr (fun i => (cons i).nrConstr)
    (fun i r j => if j < d.n then (cons i).Y.e r j else (cons i).A.e r (j - d.n)) (fun i => (cons i).z.e)
    (d.n + d.m * d.N) q.Aeq q.beq
  ineq : Stack l.spIneqConstr (fun i => (cons i).nrConstr)
    (fun i r j => if j < d.n then (cons i).Y.e r j else (cons i).A.e r (j - d.n)) (fun i => (cons i).z.e)
    (d.n + d.m * d.N) q.Aineq q.bineq
  lbr : q.lb.rows = d.n + d.m * d.N
  ubr : q.ub.rows = d.n + d.m * d.N
  bx : ∀ j < d.n, q.lb.e j = l.x0lb.e j ∧ q.ub.e j = l.x0ub.e j
  keep : l.spBoundConstr = [] → ∀ j < d.m * d.N, q.lb.e (d.n + j) = l.lb.e (d.n + j) ∧
    q.ub.e (d.n + j) = l.ub.e (d.n + j)
  bound : ∀ i, l.spBoundConstr = [i] → ∀ j < d.m * d.N,
    q.lb.e (d.n + j) = (cons i).lb.e j ∧ q.ub.e (d.n + j) = (cons i).ub.e j

theorem makeQPFormBase_ok {d : Dims} {cons : Nat → Constr K} {costs : Nat → Cost K} {ps : PreviewSystem K} {l : LMPC K}
    (S : SysShape d ps) (h : Prepared d cons costs l) (hi : l.isInit = false) :
    Ok (l.makeQPFormBase cons costs ps) (fun l' => Assembled d cons costs l l'.qp) := by
  have hw : numVars d l = d.m * d.N := by unfold numVars; rw [hi]; rfl
  unfold makeQPFormBase
  apply Ok.bind
  refine (addCosts_ok h.costs (by rw [h.Q]; exact hw) (by rw [h.Q]; exact hw) (by rw [h.c]; exact hw)).mono ?_
  rintro l1 ⟨e, q1, q2, q3, q4, q5⟩
  rw [show l1.spEqConstr = l.spEqConstr by rw [e], show l1.Aeq = l.Aeq by rw [e], show l1.beq = l.beq by rw [e],
    show l1.spIneqConstr = l.spIneqConstr by rw [e], show l1.Aineq = l.Aineq by rw [e],
    show l1.bineq = l.bineq by rw [e], show l1.spBoundConstr = l.spBoundConstr by rw [e],
    show l1.lb = l.lb by rw [e], show l1.ub = l.ub by rw [e]]
  apply Ok.bind
  refine (putRows_ok S h.eqs (by rw [h.Aeqr, h.nrEq]) (by rw [h.Aeqc, hw]) (by rw [h.beqr, h.nrEq])).mono ?_
  rintro ⟨_, Aeq, beq⟩ seq
  apply Ok.bind
  refine (putRows_ok S h.ineqs (by rw [h.Aineqr, h.nrIneq]) (by rw [h.Aineqc, hw]) (by rw [h.bineqr, h.nrIneq])).mono ?_
  rintro ⟨_, Aineq, bineq⟩ sineq
  apply Ok.bind
  refine (putBounds_ok (off := 0) h.one h.bounds (by rw [h.lbr, hw]; omega) (by rw [h.ubr, hw]; omega)).mono ?_
  rintro ⟨_, lb, ub⟩ ⟨b1, b2, _, b4, b5⟩
  apply Ok.pure'
  refine ⟨rfl, ?_, ?_, q1, q2, q3, ?_, ?_, seq, sineq, by simpa [qp] using b1, by simpa [qp] using b2, b4, ?_⟩
  · show l1.nrEqConstr = _; rw [e]; exact h.nrEq
  · show l1.nrIneqConstr = _; rw [e]; exact h.nrIneq
  · intro a _ b _
    show l1.Q.e a b = _
    rw [q4, h.Q]
    simp only [Mat.scale_e, Mat.identity_e]
    congr 1
    split <;> simp
  · intro a _
    show l1.c.e a = _
    rw [q5, h.c]; simp
  · intro i hi j hj
    have := b5 i hi j hj
    simpa [qp] using this

theorem finishQ_ok {d : Dims} {inverse : Mat K → Mat K} {ps : PreviewSystem K} {l : LMPC K} (S : SysShape d ps)
    (h1 : l.Q.rows = d.n + d.m * d.N) (h2 : l.Q.cols = d.n + d.m * d.N) (hR1 : l.R.rows = d.n) (hR2 : l.R.cols = d.n)
    (hinv : ∀ M : Mat K, M.rows = d.m * d.N → M.cols = d.m * d.N →
      (inverse M).rows = d.m * d.N ∧ (inverse M).cols = d.m * d.N) :
    Ok (l.finishQ inverse ps) fun l' => l' = { l with Q := l'.Q } ∧ l'.Q.rows = d.n + d.m * d.N ∧
      l'.Q.cols = d.n + d.m * d.N ∧
      (∀ a, ∀ b, l'.Q.e a (d.n + b) = l.Q.e a (d.n + b)) ∧
      (∀ a < d.n, ∀ b < d.m * d.N, l'.Q.e (d.n + b) a = l.Q.e a (d.n + b)) ∧
      ∃ QU Ex : Mat K, QU.rows = d.m * d.N ∧ QU.cols = d.m * d.N ∧ Ex.rows = d.n ∧ Ex.cols = d.m * d.N ∧
        (∀ a b, QU.e a b = l.Q.e (d.n + a) (d.n + b)) ∧ (∀ a b, Ex.e a b = l.Q.e a (d.n + b)) ∧
        ∀ a < d.n, ∀ b < d.n, l'.Q.e a b = l.R.e a b + (((Ex.mul (inverse QU)).mul Ex.transpose).e a b) := by
  unfold finishQ
  rw [S.fullU, S.xDim, h1, h2, cornerOff_ok (by omega), Nat.add_sub_cancel]
  simp only [Option.bind_eq_bind, Option.bind_some]
  obtain ⟨i1, i2⟩ := hinv (l.Q.block d.n d.n (d.m * d.N) (d.m * d.N)) rfl rfl
  apply Ok.bind; apply Ok.block? (by rw [h1]; omega) (by rw [h2])
  apply Ok.bind; apply Ok.block? (by rw [h1]) (by rw [h2])
  apply Ok.bind; apply Ok.setBlock? (by rw [h1]) (by rw [h2]; omega) (by rfl) (by rfl)
  apply Ok.bind; apply Ok.mul? (by rw [i1]; rfl)
  apply Ok.bind; apply Ok.mul? (by rw [Mat.mul_cols, i2]; rfl)
  apply Ok.bind; apply Ok.add? (by rw [hR1]; rfl) (by rw [hR2]; rfl)
  apply Ok.bind; apply Ok.setBlock? (by rw [Mat.setBlock_rows, h1]; omega) (by rw [Mat.setBlock_cols, h2]; omega)
    (by rw [Mat.add_rows, hR1]) (by rw [Mat.add_cols, hR2])
  apply Ok.pure'
  refine ⟨rfl, h1, h2, ?_, ?_, l.Q.block d.n d.n (d.m * d.N) (d.m * d.N), l.Q.block 0 d.n d.n (d.m * d.N),
    rfl, rfl, rfl, rfl, fun _ _ => rfl, fun a b => by rw [Mat.block_e, Nat.zero_add], ?_⟩
  · intro a b
    simp only [Mat.setBlock_e]
    rw [if_neg (by omega), if_neg (by omega)]
  · intro a ha b hb
    simp only [Mat.setBlock_e, Mat.transpose_e, Mat.block_e]
    rw [if_neg (by omega), if_pos ⟨by omega, by omega, by omega, by omega⟩]
    congr 1 <;> omega
  · intro a ha b hb
    simp only [Mat.setBlock_e, Mat.add_e]
    rw [if_pos ⟨by omega, by omega, by omega, by omega⟩]
    rfl

set_option maxHeartbeats 1000000 in
theorem makeQPFormInit_ok {d : Dims} {inverse : Mat K → Mat K} {cons : Nat → Constr K} {costs : Nat → Cost K}
    {ps : PreviewSystem K} {l : LMPC K} (S : SysShape d ps) (h : Prepared d cons costs l) (hi : l.isInit = true)
    (hR1 : l.R.rows = d.n) (hR2 : l.R.cols = d.n) (hr : l.r.rows = d.n) (hlo : l.x0lb.rows = d.n) (hup : l.x0ub.rows = d.n)
    (hinv : ∀ M : Mat K, M.rows = d.m * d.N → M.cols = d.m * d.N →
      (inverse M).rows = d.m * d.N ∧ (inverse M).cols = d.m * d.N) :
    Ok (l.makeQPFormInit inverse cons costs ps) (fun l' => AssembledInit d inverse cons costs l l'.qp) := by
  have hw : numVars d l = d.n + d.m * d.N := by unfold numVars; rw [hi]; rfl
  unfold makeQPFormInit
  apply Ok.bind
  refine (addCostsInit_ok S h.costs (by rw [h.Q]; exact hw) (by rw [h.Q]; exact hw) (by rw [h.c]; exact hw)).mono ?_
  rintro l1 ⟨e, q1, q2, q3, q4, q5, q6⟩
  rw [show l1.spEqConstr = l.spEqConstr by rw [e], show l1.Aeq = l.Aeq by rw [e], show l1.beq = l.beq by rw [e],
    show l1.spIneqConstr = l.spIneqConstr by rw [e], show l1.Aineq = l.Aineq by rw [e],
    show l1.bineq = l.bineq by rw [e], show l1.spBoundConstr = l.spBoundConstr by rw [e],
    show l1.lb = l.lb by rw [e], show l1.ub = l.ub by rw [e]]
  apply Ok.bind
  refine (putRowsInit_ok S h.eqs (by rw [h.Aeqr, h.nrEq]) (by rw [h.Aeqc, hw]) (by rw [h.beqr, h.nrEq])).mono ?_
  rintro ⟨_, Aeq, beq⟩ seq
  apply Ok.bind
  refine (putRowsInit_ok S h.ineqs (by rw [h.Aineqr, h.nrIneq]) (by rw [h.Aineqc, hw])
    (by rw [h.bineqr, h.nrIneq])).mono ?_
  rintro ⟨_, Aineq, bineq⟩ sineq
  apply Ok.bind
  rw [S.xDim]
  refine (putBounds_ok (off := d.n) h.one h.bounds (by rw [h.lbr, hw]) (by rw [h.ubr, hw])).mono ?_
  rintro ⟨_, lb, ub⟩ ⟨b1, b2, _, b4, b5⟩
  apply Ok.bind
  refine (finishQ_ok S q1 q2 (by rw [e]; exact hR1) (by rw [e]; exact hR2) hinv).mono ?_
  rintro l2 ⟨e2, f1, f2, f3, f4, QU, Ex, g1, g2, g3, g4, g5, g6, g7⟩
  rw [show l2.c = l1.c by rw [e2], show l2.r = l.r by rw [e2, e], show l2.x0lb = l.x0lb by rw [e2, e],
    show l2.x0ub = l.x0ub by rw [e2, e]]
  apply Ok.bind; apply Ok.setSegment? (by rw [q3]; omega) hr
  apply Ok.bind; apply Ok.setSegment? (by simp only at b1; rw [b1]; omega) hlo
  apply Ok.bind; apply Ok.setSegment? (by simp only at b2; rw [b2]; omega) hup
  apply Ok.pure'
  refine ⟨rfl, ?_, ?_, f1, f2, q3, ?_, ?_, ?_, ⟨QU, Ex, g1, g2, g3, g4, ?_, ?_, ?_⟩, ?_, ?_, seq, sineq, b1, b2, ?_, ?_, ?_⟩
  · show l2.nrEqConstr = _; rw [e2, e]; exact h.nrEq
  · show l2.nrIneqConstr = _; rw [e2, e]; exact h.nrIneq
  · intro a ha b hb
    show l2.Q.e _ _ = _
    rw [f3, q4 a ha b hb, h.Q]
    simp only [Mat.scale_e, Mat.identity_e]
    congr 1
    by_cases hab : a = b
    · subst hab; simp
    · rw [if_neg (by omega), if_neg hab]; simp
  · intro a ha b hb
    show l2.Q.e _ _ = _
    rw [f3, q5 a ha b hb, h.Q]
    simp only [Mat.scale_e, Mat.identity_e]
    rw [if_neg (by omega)]; simp
  · intro a ha b hb
    show l2.Q.e _ _ = l2.Q.e _ _
    rw [f3, f4 a ha b hb]
  · intro a b; show _ = l2.Q.e _ _; rw [f3, g5]
  · intro a b; show _ = l2.Q.e _ _; rw [f3, g6]
  · intro a ha b hb
    show l2.Q.e _ _ = _
    rw [g7 a ha b hb, e]
  · intro a ha
    simp only [qp, Vec.setSegment_e]
    rw [if_pos ⟨by omega, by omega⟩]; congr 1
  · intro a ha
    simp only [qp, Vec.setSegment_e]
    rw [if_neg (by omega), q6 a ha, h.c]; simp
  · intro j hj
    simp only [qp, Vec.setSegment_e]
    rw [if_pos ⟨by omega, by omega⟩, if_pos ⟨by omega, by omega⟩]
    exact ⟨rfl, rfl⟩
  · intro hnil j hj
    simp only [qp, Vec.setSegment_e]
    rw [if_neg (by omega), if_neg (by omega)]
    obtain ⟨c1, c2⟩ := b4 hnil
    simp only at c1 c2
    rw [c1, c2]; exact ⟨rfl, rfl⟩
  · intro i hi j hj
    simp only [qp, Vec.setSegment_e]
    rw [if_neg (by omega), if_neg (by omega)]
    exact b5 i hi j hj

/-! ## Results -/

theorem predict_raw {d : Dims} {ps : PreviewSystem K} {x U : Vec K} (S : SysShape d ps)
    (hx : x.rows = d.n) (hU : U.rows = d.m * d.N) :
    Ok (predict ps x U) (IsStacked d (predC d ps x.e U.e)) := by
  unfold predict
  apply Ok.bind; apply Ok.mulVec? (by rw [S.Phic, hx])
  apply Ok.bind; apply Ok.mulVec? (by rw [S.Psic, hU])
  apply Ok.bind; apply Ok.vadd? (by rw [Mat.mulVec_rows, Mat.mulVec_rows, S.Phir, S.Psir])
  apply Ok.vadd? (by rw [Vec.add_rows, Mat.mulVec_rows, S.Phir, S.xir])
  refine ⟨?_, ?_⟩
  · show ps.Phi.rows = _
    rw [S.Phir, Nat.mul_comm]
  · intro k r hk hr
    simp only [Vec.add_e, Mat.mulVec_e]
    unfold predC
    rw [S.Phic, S.Psic]

theorem updateResults_raw {d : Dims} {ps : PreviewSystem K} {l : LMPC K} {s : Solver K} (S : SysShape d ps)
    (hx : ps.x0.rows = d.n) (hs : l.sol = some s) (hr : s.result.rows = numVars d l) :
    Ok (l.updateResults ps) fun l' => l' = { l with control := l'.control, trajectory := l'.trajectory } ∧
      l'.control.rows = d.m * d.N ∧
      (∀ j < d.m * d.N, l'.control.e j = s.result.e (if l.isInit then d.n + j else j)) ∧
      IsStacked d (predC d ps (if l.isInit then s.result.e else ps.x0.e) l'.control.e) l'.trajectory := by
  unfold updateResults
  rw [hs]
  simp only [Option.bind_eq_bind, Option.bind_some]
  unfold numVars at hr
  by_cases hi : l.isInit = true
  · rw [if_pos hi] at hr
    simp only [hi, if_true]
    rw [S.fullU, hr, cornerOff_ok (by omega), Nat.add_sub_cancel]
    simp only [Option.bind_some]
    apply Ok.bind; apply Ok.segment? (by rw [hr])
    apply Ok.bind
    have : l.initialState ps = some (s.result.segment 0 d.n) := by
      unfold initialState
      rw [hs, S.xDim]
      obtain ⟨a, ha, rfl⟩ := Ok.segment? (v := s.result) (i := 0) (m := d.n) (P := fun a => a = s.result.segment 0 d.n)
        (by rw [hr]; omega) rfl
      exact ha
    rw [this]
    refine ⟨_, rfl, ?_⟩
    apply Ok.bind
    refine (predict_raw S rfl (by rfl)).mono ?_
    intro t ht
    apply Ok.pure'
    refine ⟨rfl, rfl, fun j _ => rfl, ?_⟩
    have : (s.result.segment 0 d.n).e = s.result.e := by funext i; rw [Vec.segment_e, Nat.zero_add]
    rw [this] at ht
    exact ht
  · rw [if_neg hi] at hr
    have hi' : l.isInit = false := by simpa using hi
    simp only [hi', Bool.false_eq_true, if_false]
    apply Ok.bind
    refine (predict_raw S hx hr).mono ?_
    intro t ht
    apply Ok.pure'
    exact ⟨rfl, hr, fun j _ => rfl, ht⟩

theorem updateResults_ok {d : Dims} {ps : PreviewSystem K} {l : LMPC K} {s : Solver K} (S : SysShape d ps)
    (P : SysPred d ps) (hx : ps.x0.rows = d.n) (hs : l.sol = some s) (hr : s.result.rows = numVars d l) :
    Ok (l.updateResults ps) fun l' => l' = { l with control := l'.control, trajectory := l'.trajectory } ∧
      l'.control.rows = d.m * d.N ∧
      (∀ j < d.m * d.N, l'.control.e j = s.result.e (if l.isInit then d.n + j else j)) ∧
      IsStacked d (sim d ps.A ps.B ps.d (if l.isInit then s.result.e else ps.x0.e) l'.control.e) l'.trajectory :=
  (updateResults_raw S hx hs hr).mono fun _ ⟨a, b, c, e⟩ =>
    ⟨a, b, c, e.1, fun k r hk hr => (e.2 k r hk hr).trans (predC_eq_sim P _ _ k hk r hr)⟩

end LMPC
end Copra
