import Verif.SpecSupply
import Verif.Proofs.Fields
import Verif.Props.System

/-! # Prediction matrices supplied by the user: invariants and the prediction in force -/

namespace Copra
open Spec

set_option linter.unusedSectionVars false
variable {K : Type} [Field K] [LinearOrder K] [IsStrictOrderedRing K]

namespace World

/-- Replacing one system by one of the same dimensions keeps the invariant. -/
theorem GoodRaw.replace {d : Dims} {dmax : K} {w : World K} {g : Ghost} (hg : GoodRaw d dmax w g) {p : Nat}
    {s : PreviewSystem K} (hn : s.nrUStep = (w.pss p).nrUStep)
    (hs : HasSystem w p → SysRaw d s ∧ s.x0.rows = d.n) :
    GoodRaw d dmax { w with pss := upd w.pss p s } g := by
  have hh : ∀ j, HasSystem ({ w with pss := upd w.pss p s } : World K) j ↔ HasSystem w j := by
    intro j
    unfold HasSystem
    dsimp only
    by_cases e : j = p
    · subst e; rw [upd_same, hn]
    · rw [upd_ne _ _ e]
  obtain ⟨h1, h2, h3, h4, h5, h6, h7, h8, h9, h10, h11, h12, h13, h14, h15, h16⟩ := hg
  refine ⟨fun j hj => ?_, h2, h3, h4, h5, h6, h7, h8, h9, h10, h11, h12, h13, h14,
    fun j hj => ⟨(hh j).2 (h15 j hj).1, (h15 j hj).2⟩, h16⟩
  have hj' := (hh j).1 hj
  dsimp only
  by_cases e : j = p
  · subst e; rw [upd_same]; exact hs hj'
  · rw [upd_ne _ _ e]; exact h1 j hj'

/-- One call or assignment keeps the invariant. -/
theorem GoodRaw.sok {d : Dims} {dmax : K} {w w' : World K} {g : Ghost} {op : SOp K} (hg : GoodRaw d dmax w g)
    (ho : SOpOk d w g op) (hs : w.sstep dmax op = .ok w') : GoodRaw d dmax w' (g.snext w True op) := by
  cases op with
  | other op =>
    cases op with
    | call op => exact hg.step (ok := True) ho (Or.inl ⟨trivial, hs⟩)
    | writeA p A =>
      cases hs
      refine hg.replace rfl fun hp => ?_
      obtain ⟨⟨D, B⟩, hx⟩ := hg.raw p hp
      exact ⟨⟨⟨D.toSysShape.with _ _ _ _ _, ⟨ho.2.1, ho.2.2, D.Br, D.Bc, D.dr⟩⟩, B.with _ _ _ _ _⟩, hx⟩
    | writeB p M =>
      cases hs
      refine hg.replace rfl fun hp => ?_
      obtain ⟨⟨D, B⟩, hx⟩ := hg.raw p hp
      exact ⟨⟨⟨D.toSysShape.with _ _ _ _ _, ⟨D.Ar, D.Ac, ho.2.1, ho.2.2, D.dr⟩⟩, B.with _ _ _ _ _⟩, hx⟩
    | writeD p v =>
      cases hs
      refine hg.replace rfl fun hp => ?_
      obtain ⟨⟨D, B⟩, hx⟩ := hg.raw p hp
      exact ⟨⟨⟨D.toSysShape.with _ _ _ _ _, ⟨D.Ar, D.Ac, D.Br, D.Bc, ho.2⟩⟩, B.with _ _ _ _ _⟩, hx⟩
    | writeX0 p x =>
      cases hs
      refine hg.replace rfl fun hp => ?_
      obtain ⟨⟨D, B⟩, hx⟩ := hg.raw p hp
      exact ⟨⟨⟨D.toSysShape.with _ _ _ _ _, ⟨D.Ar, D.Ac, D.Br, D.Bc, D.dr⟩⟩, B.with _ _ _ _ _⟩, ho⟩
    | markStale p =>
      cases hs
      refine hg.replace rfl fun hp => ?_
      obtain ⟨⟨D, B⟩, hx⟩ := hg.raw p hp
      exact ⟨⟨⟨D.toSysShape.with _ _ _ _ _, ⟨D.Ar, D.Ac, D.Br, D.Bc, D.dr⟩⟩, B.with _ _ _ _ _⟩, hx⟩
  | writePhi p M =>
    cases hs
    refine hg.replace rfl fun hp => ?_
    obtain ⟨⟨⟨D, D'⟩, B⟩, hx⟩ := hg.raw p hp
    exact ⟨⟨⟨⟨D.nrU, D.nrX, D.xDim, D.uDim, D.fullX, D.fullU, ho.2.rows, ho.2.cols, D.Psir, D.Psic, D.xir, D.Npos,
      D.fullXle, D.fullUle, D.Nle, D.nle, D.mle⟩, ⟨D'.Ar, D'.Ac, D'.Br, D'.Bc, D'.dr⟩⟩,
      ⟨ho.2.first, B.psi0, B.xi0⟩⟩, hx⟩
  | writePsi p M =>
    cases hs
    refine hg.replace rfl fun hp => ?_
    obtain ⟨⟨⟨D, D'⟩, B⟩, hx⟩ := hg.raw p hp
    exact ⟨⟨⟨⟨D.nrU, D.nrX, D.xDim, D.uDim, D.fullX, D.fullU, D.Phir, D.Phic, ho.2.rows, ho.2.cols, D.xir, D.Npos,
      D.fullXle, D.fullUle, D.Nle, D.nle, D.mle⟩, ⟨D'.Ar, D'.Ac, D'.Br, D'.Bc, D'.dr⟩⟩,
      ⟨B.phi0, ho.2.causal, B.xi0⟩⟩, hx⟩
  | writeXi p v =>
    cases hs
    refine hg.replace rfl fun hp => ?_
    obtain ⟨⟨⟨D, D'⟩, B⟩, hx⟩ := hg.raw p hp
    exact ⟨⟨⟨⟨D.nrU, D.nrX, D.xDim, D.uDim, D.fullX, D.fullU, D.Phir, D.Phic, D.Psir, D.Psic, ho.2.rows, D.Npos,
      D.fullXle, D.fullUle, D.Nle, D.nle, D.mle⟩, ⟨D'.Ar, D'.Ac, D'.Br, D'.Bc, D'.dr⟩⟩,
      ⟨B.phi0, B.psi0, ho.2.first⟩⟩, hx⟩
  | markUpdated p =>
    cases hs
    refine hg.replace rfl fun hp => ?_
    obtain ⟨⟨D, B⟩, hx⟩ := hg.raw p hp
    exact ⟨⟨⟨D.toSysShape.with _ _ _ _ _, ⟨D.Ar, D.Ac, D.Br, D.Bc, D.dr⟩⟩, B.with _ _ _ _ _⟩, hx⟩

theorem GoodRaw.sthrown {d : Dims} {dmax : K} {w w' : World K} {g : Ghost} {op : SOp K} {e : Exn}
    (hg : GoodRaw d dmax w g) (ho : SOpOk d w g op) (hs : w.sstep dmax op = .thrown e w') :
    GoodRaw d dmax w' (g.snext w False op) := by
  cases op with
  | other op =>
    cases op with
    | call op => exact hg.step (ok := False) ho (Or.inr ⟨id, e, hs⟩)
    | _ => cases hs
  | _ => cases hs

/-- The invariant along every program that also assigns members. -/
theorem _root_.Copra.Spec.SHist.raw {d : Dims} {dmax : K} {E : World K → Op K → Prop} {w : World K} {g : Ghost}
    (h : SHist d dmax E w g) : GoodRaw d dmax w g := by
  induction h with
  | start h => exact GoodRaw.start h
  | ok _ ho _ hs ih => exact ih.sok ho hs
  | thrown _ ho _ hs ih => exact ih.sthrown ho hs

/-- One call or assignment keeps the recorded lines current. -/
theorem GoodRaw.slines {d : Dims} {dmax : K} {w w' : World K} {g : Ghost} {op : SOp K} (hg : GoodRaw d dmax w g)
    {E : World K → Op K → Prop} (hE : ∀ w op, E w op → NoBoundSpan w op)
    (ho : SOpOk d w g op) (he : OnSCalls E w op) (hl : ∀ i, LinesCurrent (w.cons i))
    (hs : w.sstep dmax op = .ok w' ∨ ∃ e, w.sstep dmax op = .thrown e w') : ∀ i, LinesCurrent (w'.cons i) := by
  cases op with
  | other op =>
    cases op with
    | call op => exact lines_step hg hl ho (hE _ _ he) hs
    | _ => rcases hs with hs | ⟨e, hs⟩ <;> cases hs; exact hl
  | _ => rcases hs with hs | ⟨e, hs⟩ <;> cases hs; exact hl

/-- The recorded lines along every program that also assigns members. -/
theorem _root_.Copra.Spec.SHist.lines {d : Dims} {dmax : K} {E : World K → Op K → Prop} {w : World K} {g : Ghost}
    (h : SHist d dmax E w g) (hE : ∀ w op, E w op → NoBoundSpan w op) : ∀ i, LinesCurrent (w.cons i) := by
  induction h with
  | start h => exact lines_start h
  | ok hw ho he hs ih => exact hw.raw.slines hE ho he ih (Or.inl hs)
  | thrown hw ho he hs ih => exact hw.raw.slines hE ho he ih (Or.inr ⟨_, hs⟩)

/-- The matrices a solve computes with give the prediction in force. -/
theorem SolvedRaw.predNow {d : Dims} {p : Nat} {env : SolveEnv K} {w w' : World K} {b : Bool} {q : QP K}
    (S : SolvedRaw d p env w w' b q) (x U : Nat → K) :
    ∀ k ≤ d.N, ∀ r < d.n, predC d (w'.pss p) x U k r = Spec.predNow d (w.pss p) x U k r := by
  intro k hk r hr
  unfold Spec.predNow
  cases hu : (w.pss p).isUpdated with
  | true => rw [S.heap.keep hu]; rfl
  | false =>
    rw [predC_eq_sim (S.heap.pred hu) x U k hk r hr, S.heap.A, S.heap.B, S.heap.bias]
    rfl

/-- The matrices a solve computes with suit the registered constraints. -/
theorem SolvedRaw.suits {d : Dims} {dmax : K} {p : Nat} {env : SolveEnv K} {w w' : World K} {g : Ghost} {b : Bool} {q : QP K}
    (hg : GoodRaw d dmax w g) (hp : w.ctl.ps = some p) (S : SolvedRaw d p env w w' b q) (hm : MixedSuits d w p)
    {i : Nat} (hi : i ∈ w.ctl.spConstr) : Constr.Suits d (w'.pss p) (w'.cons i) := by
  obtain ⟨_, f, _⟩ := (S.heap.cons i).1 hi
  rw [f.suits]
  intro hk hf
  cases hu : (w.pss p).isUpdated with
  | false => exact (S.heap.pred hu).shifts
  | true =>
    have hr := (hg.canRaw hp).cons i hi
    unfold Constr.Reg at hr
    rw [hk] at hr
    have D := hr.dims
    rw [hf] at D
    have := hm ⟨i, hi, by unfold Constr.userData; rw [hk]; exact ⟨D.1, D.2.1⟩⟩ hu
    rw [S.heap.keep hu]
    exact ⟨(hg.canRaw hp).sys.base, this⟩

theorem SolvedRaw.rows {d : Dims} {p : Nat} {env : SolveEnv K} {w w' : World K} {b : Bool} {q : QP K}
    (S : SolvedRaw d p env w w' b q) {i : Nat} (hi : i ∈ w.ctl.spConstr) (hs : Constr.Suits d (w'.pss p) (w'.cons i))
    (hk : (w.cons i).kind ≠ .ctrlBound) (U : Nat → K) :
    (∀ r < (w'.cons i).nrConstr, Spec.Rel (w.cons i).ineq
      (∑ j ∈ Finset.range (d.m * d.N), (w'.cons i).A.e r j * U j) ((w'.cons i).b.e r)) ↔
      (w.cons i).Sem d (trajNow d w p U) U := by
  obtain ⟨r, f, u⟩ := (S.heap.cons i).1 hi
  have hk' : (w'.cons i).kind ≠ .ctrlBound := by rw [f.kind]; exact hk
  have hq : (w'.cons i).ineq = (w.cons i).ineq := by
    unfold Constr.ineq; rw [f.kind, f.isIneq]
  rw [← f.sem, ← Constr.rows_sem hk' r, hq]
  refine forall_congr' fun t => forall_congr' fun ht => ?_
  rw [((u hs).rows hk' t ht).rel_b, S.heap.x0]
  rw [Row.lhs_congr (S.predNow _ U)]
  rfl

end World
end Copra
