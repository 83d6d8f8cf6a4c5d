import Verif.Proofs.HistInv
import Verif.Proofs.Frames
import Verif.Proofs.Multi

/-! # What one API call can do to the declared data -/

namespace Copra
open Spec

set_option linter.unusedSectionVars false
set_option linter.unusedSimpArgs false

variable {K : Type} [Field K]

namespace PreviewSystem

/-- The declared part of a preview system. -/
structure SameDecl (a b : PreviewSystem K) : Prop where
  A : b.A = a.A
  B : b.B = a.B
  bias : b.d = a.d
  x0 : b.x0 = a.x0
  nrU : b.nrUStep = a.nrUStep

theorem SameDecl.refl (a : PreviewSystem K) : SameDecl a a := ⟨rfl, rfl, rfl, rfl, rfl⟩

theorem SameDecl.trans {a b c : PreviewSystem K} (h : SameDecl a b) (g : SameDecl b c) : SameDecl a c :=
  ⟨g.A.trans h.A, g.B.trans h.B, g.bias.trans h.bias, g.x0.trans h.x0, g.nrU.trans h.nrU⟩

theorem updateSystem_decl {ps ps' : PreviewSystem K} (h : ps.updateSystem = some ps') : SameDecl ps ps' := by
  unfold updateSystem at h
  simp only [Option.bind_eq_bind, Option.bind_eq_some_iff, Option.pure_def, Option.some.injEq] at h
  obtain ⟨Phi, _, Psi, _, xi, _, ps1, h1, rfl⟩ := h
  have : SameDecl { ps with Phi := Phi, Psi := Psi, xi := xi } ps1 := by
    refine loop_rel SameDecl.refl SameDecl.trans ?_ h1
    intro i s s' hs
    unfold updateStep at hs
    simp only [Option.bind_eq_bind, Option.bind_eq_some_iff, Option.pure_def, Option.some.injEq] at hs
    obtain ⟨_, _, _, _, _, _, _, _, _, _, _, _, _, _, _, _, _, _, _, _, _, _, rfl⟩ := hs
    exact ⟨rfl, rfl, rfl, rfl, rfl⟩
  exact ⟨this.A, this.B, this.bias, this.x0, this.nrU⟩

end PreviewSystem

namespace World

/-- Which calls redeclare the dynamics of preview system `p`. -/
def Redynamics (p : Nat) : Op K → Prop
  | .system q _ _ _ _ _ | .setDynamics q _ _ _ => q = p
  | _ => False

/-- Which calls redeclare the initial state of preview system `p`. -/
def Reinit (p : Nat) : Op K → Prop
  | .system q _ _ _ _ _ | .xInit q _ => q = p
  | _ => False

theorem Steps.pssChange {dmax : K} {w w' : World K} {op : Op K} (h : Steps dmax w op w') (p : Nat) :
    (¬ Redynamics p op → (w'.pss p).A = (w.pss p).A ∧ (w'.pss p).B = (w.pss p).B ∧ (w'.pss p).d = (w.pss p).d) ∧
    (¬ Reinit p op → (w'.pss p).x0 = (w.pss p).x0) := by
  have same : w'.pss = w.pss →
      (¬ Redynamics p op → (w'.pss p).A = (w.pss p).A ∧ (w'.pss p).B = (w.pss p).B ∧ (w'.pss p).d = (w.pss p).d) ∧
      (¬ Reinit p op → (w'.pss p).x0 = (w.pss p).x0) := by
    intro e; rw [e]; exact ⟨fun _ => ⟨rfl, rfl, rfl⟩, fun _ => rfl⟩
  have decl : (w.pss p).SameDecl (w'.pss p) →
      (¬ Redynamics p op → (w'.pss p).A = (w.pss p).A ∧ (w'.pss p).B = (w.pss p).B ∧ (w'.pss p).d = (w.pss p).d) ∧
      (¬ Reinit p op → (w'.pss p).x0 = (w.pss p).x0) :=
    fun e => ⟨fun _ => ⟨e.A, e.B, e.bias⟩, fun _ => e.x0⟩
  have away : ∀ {q : Nat} {s : PreviewSystem K}, q ≠ p → w'.pss = upd w.pss q s → (w.pss p).SameDecl (w'.pss p) := by
    intro q s hq e; rw [e, upd_ne _ _ (Ne.symm hq)]; exact .refl _
  have ofIf : ∀ {q : Nat} {s : PreviewSystem K}, w'.pss = upd w.pss q s →
      (if (w.pss q).isUpdated then some (w.pss q) else (w.pss q).updateSystem) = some s →
      (w.pss p).SameDecl (w'.pss p) := by
    intro q s e h
    by_cases hq : q = p
    · subst hq
      rw [e, upd_same]
      split at h
      · injection h with h; rw [← h]; exact .refl _
      · exact PreviewSystem.updateSystem_decl h
    · exact away hq e
  have O : ∃ ok, Out dmax w op ok w' := by
    rcases h with h | h
    · exact ⟨True, Or.inl ⟨trivial, h⟩⟩
    · exact ⟨False, Or.inr ⟨id, h⟩⟩
  obtain ⟨ok, O⟩ := O
  cases op with
  | addCost i junk => obtain ⟨_, _, _, _, a, _⟩ := addCost_inv O; exact same a
  | addConstraint i junk => obtain ⟨_, _, _, _, a, _⟩ := addConstraint_inv O; exact same a
  | solve env =>
    obtain ⟨_, b, q, hs⟩ := solve_out O
    obtain ⟨q, ps, _, hps, e, _⟩ := solve_withHeap hs
    exact decl (ofIf e hps)
  | clearConstraints =>
    rcases h with h | ⟨e, h⟩ <;> simp only [step, Res.ofOption_ok] at h
    · exact same (clearConstraints_heap h).1
    · exact absurd h Res.ofOption_ne_thrown
  | system q A B v x N =>
    by_cases hq : q = p
    · exact ⟨fun hn => absurd hq hn, fun hn => absurd hq hn⟩
    · rcases h with h | ⟨e, h⟩ <;> simp only [step, Res.map_ok, Res.map_thrown] at h <;> obtain ⟨s, _, rfl⟩ := h <;>
      exact decl (away hq rfl)
  | xInit q x =>
    rcases h with h | ⟨e, h⟩ <;> simp only [step, Res.ok.injEq, reduceCtorEq] at h
    subst h
    by_cases hq : q = p
    · subst hq
      refine ⟨fun _ => ?_, fun hn => absurd rfl hn⟩
      simp only [upd_same]
      exact ⟨rfl, rfl, rfl⟩
    · exact decl (away hq rfl)
  | setDynamics q A B v =>
    rcases h with h | ⟨e, h⟩ <;> simp only [step, Res.ok.injEq, reduceCtorEq] at h
    subst h
    by_cases hq : q = p
    · subst hq
      refine ⟨fun hn => absurd rfl hn, fun _ => ?_⟩
      simp only [upd_same]
      rfl
    · exact decl (away hq rfl)
  | updatePs q =>
    rcases h with h | ⟨e, h⟩ <;> simp only [step, Res.map_ok, Res.map_thrown, Res.ofOption_ok] at h
    · obtain ⟨s, hs, rfl⟩ := h
      by_cases hq : q = p
      · subst hq
        refine decl ?_
        simp only [upd_same]
        exact PreviewSystem.updateSystem_decl hs
      · exact decl (away hq rfl)
    · obtain ⟨s, hs, rfl⟩ := h
      exact absurd hs Res.ofOption_ne_thrown
  | _ =>
    rcases h with h | ⟨e, h⟩ <;>
      simp only [step, Res.map_ok, Res.map_thrown, Res.ok.injEq, reduceCtorEq] at h <;>
      first
      | (subst h; exact same rfl)
      | (obtain ⟨_, _, rfl⟩ := h; exact same rfl)

theorem _root_.Copra.Constr.update_userData {ps : PreviewSystem K} {c c' : Constr K} (h : c.update ps = some c') :
    c'.userData = c.userData := by
  have k := Constr.update_keeps h
  have moved : (c.kind = .control ∨ c.kind = .ctrlBound) → c.fullSizeEntry = true → c' = c := by
    rintro (hk | hk) hf <;> unfold Constr.update at h <;> rw [hk] at h <;> simp only at h
    · unfold Constr.updateControl at h; rw [if_pos hf] at h; injection h with h; exact h.symm
    · unfold Constr.updateCtrlBound at h; rw [if_pos hf] at h; injection h with h; exact h.symm
  by_cases hm : (c.kind = .control ∨ c.kind = .ctrlBound) ∧ c.fullSizeEntry = true
  · rw [moved hm.1 hm.2]
  · unfold Constr.userData
    rw [k.kind, k.isIneq, k.E, k.G, k.f, k.lower, k.upper, k.full]
    cases hk : c.kind <;> rw [hk] at hm <;> simp only
    all_goals (rw [if_neg (by tauto), if_neg (by tauto)])

theorem _root_.Copra.Constr.update_chain_userData {ps : PreviewSystem K} {c c' : Constr K}
    (h : Relation.ReflTransGen (fun a b : Constr K => a.update ps = some b) c c') : c'.userData = c.userData := by
  induction h with
  | refl => rfl
  | tail _ h ih => exact (Constr.update_userData h).trans ih

variable [LinearOrder K] [IsStrictOrderedRing K]

/-- What a call does to the declared data of a constraint. -/
theorem Good.constrDecl {d : Dims} {dmax : K} {w w' : World K} {g : Ghost} {op : Op K} (hg : Good d dmax w g)
    (ho : OpOk d w g op) (h : Steps dmax w op w') (i : Nat)
    (hc : (∀ junk, op ≠ .spanConstr i junk) ∨ g.constr i) : (w'.cons i).userData = (w.cons i).userData := by
  cases h.constrChange i with
  | same e => rw [e]
  | span junk e hsp =>
    rcases hc with hc | hc
    · exact absurd e (hc junk)
    · have := Constr.autoSpan_rowsAgree junk (hg.consReg i hc).rowsAgree
      rw [this] at hsp
      rcases hsp with hsp | ⟨_, hsp⟩
      · injection hsp with hsp; rw [← hsp]
      · cases hsp
  | init p junk hop hi => exact (hg.init_keeps (hg.initSys ho hop) hi).1
  | update p hop hch =>
    exact Constr.update_chain_userData hch

theorem userData_sameData {c c' : Cost K} (h : Cost.SameData c c') : c'.userData = c.userData := by
  unfold Cost.userData; rw [h.kind, h.M, h.N, h.p, h.weights]

/-- What a call does to the declared data of a cost. -/
theorem Good.costDecl {d : Dims} {dmax : K} {w w' : World K} {g : Ghost} {op : Op K} (hg : Good d dmax w g)
    (ho : OpOk d w g op) (h : Steps dmax w op w') (i : Nat)
    (hc : (∀ junk, op ≠ .spanCost i junk) ∨ g.cost i) (hw : ∀ v, op ≠ .weights i v) (hx : ∀ x, op ≠ .weight i x) :
    (w'.costs i).userData = (w.costs i).userData := by
  cases h.costChange i with
  | same e => rw [e]
  | span junk e hsp =>
    rcases hc with hc | hc
    · exact absurd e (hc junk)
    · have := Cost.autoSpan_rowsAgree junk (hg.costReg i hc).rowsAgree
      rw [this] at hsp
      rcases hsp with hsp | ⟨_, hsp⟩
      · injection hsp with hsp; rw [← hsp]
      · cases hsp
  | weights v e _ => exact absurd e (hw v)
  | weight x e _ => exact absurd e (hx x)
  | init p junk hop hi =>
    have S := (hg.sys p (hg.initSysCost ho hop)).1.dims.toSysShape
    have H : (Cost.Fits d (w.costs i) → ∃ c1, (w.costs i).initializeCost junk (w.pss p) = .ok c1 ∧ Cost.Reg d c1 ∧
          Cost.Clean d c1 ∧ Cost.SameData (w.costs i) c1) ∧
        (¬ Cost.Fits d (w.costs i) → ∃ c1, (w.costs i).initializeCost junk (w.pss p) = .thrown .domainError c1 ∧
          Cost.SameData (w.costs i) c1 ∧ c1.fullSizeEntry = (w.costs i).fullSizeEntry) := by
      by_cases hk : g.cost i
      · exact Cost.init_spec junk S (hg.costReg i hk).wr (Or.inr (hg.costReg i hk).data)
      · exact Cost.init_spec junk S (hg.costUn i hk).2 (Or.inl (hg.costUn i hk).1)
    by_cases hf : Cost.Fits d (w.costs i)
    · obtain ⟨c1, e, _, _, sd⟩ := H.1 hf
      rw [e] at hi
      rcases hi with hi | ⟨_, hi⟩
      · injection hi with hi; rw [← hi]; exact userData_sameData sd
      · cases hi
    · obtain ⟨c1, e, sd, _⟩ := H.2 hf
      rw [e] at hi
      rcases hi with hi | ⟨_, hi⟩
      · cases hi
      · injection hi with _ hi; rw [← hi]; exact userData_sameData sd
  | update p hop hch =>
    have s := Cost.update_chain_same hch
    unfold Cost.userData; rw [s.kind, s.M, s.N, s.p, s.weights]

end World
end Copra
