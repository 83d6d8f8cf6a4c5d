import Verif.Proofs.Compat

/-! # What one API call can do to one constraint or cost object -/

namespace Copra
open Spec

set_option linter.unusedSectionVars false
set_option linter.unusedSimpArgs false

variable {K : Type} [Field K]

namespace World

/-- What one call can do to constraint `i`. -/
inductive ConstrChange (w w' : World K) (op : Op K) (i : Nat) : Prop
  | same : w'.cons i = w.cons i → ConstrChange w w' op i
  | span (junk : Junk K) : op = .spanConstr i junk →
      ((w.cons i).autoSpan junk = .ok (w'.cons i) ∨ ∃ e, (w.cons i).autoSpan junk = .thrown e (w'.cons i)) →
      ConstrChange w w' op i
  | init (p : Nat) (junk : Junk K) : (op = .initConstr i p junk ∨ (op = .addConstraint i junk ∧ w.ctl.ps = some p)) →
      (w.cons i).initializeConstraint junk (w.pss p) = .ok (w'.cons i) → ConstrChange w w' op i
  | update (p : Nat) : (op = .updateConstr i p ∨ ((∃ env, op = .solve env) ∧ w.ctl.ps = some p)) →
      Relation.ReflTransGen (fun a b : Constr K => a.update (w'.pss p) = some b) (w.cons i) (w'.cons i) →
      ConstrChange w w' op i

/-- What one call can do to cost `i`. -/
inductive CostChange (w w' : World K) (op : Op K) (i : Nat) : Prop
  | same : w'.costs i = w.costs i → CostChange w w' op i
  | span (junk : Junk K) : op = .spanCost i junk →
      ((w.costs i).autoSpan junk = .ok (w'.costs i) ∨ ∃ e, (w.costs i).autoSpan junk = .thrown e (w'.costs i)) →
      CostChange w w' op i
  | weights (v : Vec K) : op = .weights i v →
      ((w.costs i).setWeights v = .ok (w'.costs i) ∨ ∃ e, (w.costs i).setWeights v = .thrown e (w'.costs i)) →
      CostChange w w' op i
  | weight (x : K) : op = .weight i x → w'.costs i = (w.costs i).setWeight x → CostChange w w' op i
  | init (p : Nat) (junk : Junk K) : (op = .initCost i p junk ∨ (op = .addCost i junk ∧ w.ctl.ps = some p)) →
      ((w.costs i).initializeCost junk (w.pss p) = .ok (w'.costs i) ∨
        ∃ e, (w.costs i).initializeCost junk (w.pss p) = .thrown e (w'.costs i)) → CostChange w w' op i
  | update (p : Nat) : (op = .updateCost i p ∨ ((∃ env, op = .solve env) ∧ w.ctl.ps = some p)) →
      Relation.ReflTransGen (fun a b : Cost K => a.update (w'.pss p) = some b) (w.costs i) (w'.costs i) →
      CostChange w w' op i

theorem updateConstrs_chain {ps : PreviewSystem K} {cons cons' : Nat → Constr K} {L : List Nat}
    (h : L.foldlM (updateConstr ps) cons = some cons') (j : Nat) :
    Relation.ReflTransGen (fun a b : Constr K => a.update ps = some b) (cons j) (cons' j) :=
  foldlM_rel (R := fun (a b : Nat → Constr K) => ∀ j, Relation.ReflTransGen (fun a b : Constr K => a.update ps = some b) (a j) (b j))
    (fun s j => Relation.ReflTransGen.refl)
    (fun h g j => (h j).trans (g j)) (fun s a s' h j => by
      unfold updateConstr at h
      simp only [Option.bind_eq_bind, Option.bind_eq_some_iff, Option.pure_def, Option.some.injEq] at h
      obtain ⟨c, h, rfl⟩ := h
      exact upd_rel (fun _ => Relation.ReflTransGen.refl) (Relation.ReflTransGen.single h) j) L h j

theorem updateCosts_chain {ps : PreviewSystem K} {costs costs' : Nat → Cost K} {L : List Nat}
    (h : L.foldlM (updateCost ps) costs = some costs') (j : Nat) :
    Relation.ReflTransGen (fun a b : Cost K => a.update ps = some b) (costs j) (costs' j) :=
  foldlM_rel (R := fun (a b : Nat → Cost K) => ∀ j, Relation.ReflTransGen (fun a b : Cost K => a.update ps = some b) (a j) (b j))
    (fun s j => Relation.ReflTransGen.refl)
    (fun h g j => (h j).trans (g j)) (fun s a s' h j => by
      unfold updateCost at h
      simp only [Option.bind_eq_bind, Option.bind_eq_some_iff, Option.pure_def, Option.some.injEq] at h
      obtain ⟨c, h, rfl⟩ := h
      exact upd_rel (fun _ => Relation.ReflTransGen.refl) (Relation.ReflTransGen.single h) j) L h j

theorem solve_chain {env : SolveEnv K} {w w' : World K} {b : Bool} {q : QP K} (h : w.solve env = some (w', b, q)) :
    ∃ p, w.ctl.ps = some p ∧
      (∀ i, Relation.ReflTransGen (fun a b : Constr K => a.update (w'.pss p) = some b) (w.cons i) (w'.cons i)) ∧
      (∀ i, Relation.ReflTransGen (fun a b : Cost K => a.update (w'.pss p) = some b) (w.costs i) (w'.costs i)) := by
  obtain ⟨w1, p, l, s, l', h1, hp, hl, hs, rfl, rfl, hl', rfl⟩ := solve_inv h
  obtain ⟨p1, ps, l1, l2, cons, costs, hp1, hps, e1, e2, hc, hk, rfl, f⟩ := updateSystem_inv h1
  refine ⟨p1, hp1, ?_, ?_⟩
  · simp only [upd_same]; exact fun i => updateConstrs_chain hc i
  · simp only [upd_same]; exact fun i => updateCosts_chain hk i

theorem Steps.constrChange {dmax : K} {w w' : World K} {op : Op K} (h : Steps dmax w op w') (i : Nat) :
    ConstrChange w w' op i := by
  have case_upd : ∀ {j : Nat} {c : Constr K}, (i = j → w' = { w with cons := upd w.cons j c } → ConstrChange w w' op i) →
      w' = { w with cons := upd w.cons j c } → ConstrChange w w' op i := by
    intro j c h1 h2
    by_cases e : i = j
    · exact h1 e h2
    · refine .same ?_
      rw [h2]; exact upd_ne _ _ e
  rcases h with h | ⟨e, h⟩ <;> cases op <;> simp only [step, Res.map_ok, Res.map_thrown, Res.ofOption_ok] at h
  case inl.spanConstr j junk =>
    obtain ⟨c, h, h'⟩ := h
    refine case_upd (fun e e' => ?_) h'.symm
    subst e; subst e'
    exact .span junk rfl (Or.inl (by simp only [upd_same]; exact h))
  case inr.spanConstr j junk =>
    obtain ⟨c, h, h'⟩ := h
    refine case_upd (fun e e' => ?_) h'.symm
    subst e; subst e'
    exact .span junk rfl (Or.inr ⟨_, by simp only [upd_same]; exact h⟩)
  case inl.initConstr j p junk =>
    obtain ⟨c, h, h'⟩ := h
    refine case_upd (fun e e' => ?_) h'.symm
    subst e; subst e'
    exact .init p junk (Or.inl rfl) (by simp only [upd_same]; exact h)
  case inr.initConstr j p junk =>
    obtain ⟨c, h, h'⟩ := h
    refine case_upd (fun e e' => ?_) h'.symm
    subst e; subst e'
    exact .same (by simp only [upd_same]; exact Constr.init_thrown h)
  case inl.updateConstr j p =>
    obtain ⟨c, h, h'⟩ := h
    refine case_upd (fun e e' => ?_) h'.symm
    subst e; subst e'
    exact .update p (Or.inl rfl) (by simp only [upd_same]; exact Relation.ReflTransGen.single h)
  case inl.addCost j junk =>
    unfold addCost at h
    split at h
    · cases h
    · split at h <;> cases h
      exact .same rfl
  case inr.addCost j junk =>
    unfold addCost at h
    split at h
    · cases h
    · split at h <;> cases h
      exact .same rfl
  case inl.addConstraint j junk =>
    unfold addConstraint at h
    split at h
    · cases h
    · rename_i p hp
      split at h
      · split at h <;> cases h
        rename_i c hc _ l hl
        by_cases e : i = j
        · subst e
          exact .init p junk (Or.inr ⟨rfl, hp⟩) (by simp only [upd_same]; exact hc)
        · exact .same (upd_ne _ _ e)
      · cases h
      · cases h
  case inr.addConstraint j junk =>
    unfold addConstraint at h
    split at h
    · cases h
    · split at h
      · split at h <;> cases h
      · rename_i x c hc
        cases h
        rw [Constr.init_thrown hc]
        refine .same ?_
        by_cases e : i = j
        · subst e; simp only [upd_same]
        · exact upd_ne _ _ e
      · cases h
  case inl.clearConstraints =>
    obtain ⟨_, _, _, _, rfl⟩ := clearConstraints_inv h
    exact .same rfl
  case inl.solve env =>
    obtain ⟨⟨w1, b, q⟩, hs, rfl⟩ := Option.map_eq_some_iff.1 h
    obtain ⟨p, hp, h1, _⟩ := solve_chain hs
    exact .update p (Or.inr ⟨⟨env, rfl⟩, hp⟩) (h1 i)
  case inr.updateConstr | inr.updatePs | inr.updateCost | inr.constructPs | inr.initializeController | inr.removeConstraint =>
    obtain ⟨_, h, _⟩ := h
    exact absurd h Res.ofOption_ne_thrown
  case inr.clearConstraints | inr.solve => exact absurd h Res.ofOption_ne_thrown
  all_goals first
    | (cases h <;> exact .same rfl)
    | (obtain ⟨_, _, rfl⟩ := h; exact .same rfl)

theorem Steps.costChange {dmax : K} {w w' : World K} {op : Op K} (h : Steps dmax w op w') (i : Nat) :
    CostChange w w' op i := by
  have case_upd : ∀ {j : Nat} {c : Cost K}, (i = j → w' = { w with costs := upd w.costs j c } → CostChange w w' op i) →
      w' = { w with costs := upd w.costs j c } → CostChange w w' op i := by
    intro j c h1 h2
    by_cases e : i = j
    · exact h1 e h2
    · refine .same ?_
      rw [h2]; exact upd_ne _ _ e
  rcases h with h | ⟨e, h⟩ <;> cases op <;> simp only [step, Res.map_ok, Res.map_thrown, Res.ofOption_ok] at h
  case inl.spanCost j junk =>
    obtain ⟨c, h, h'⟩ := h
    refine case_upd (fun e e' => ?_) h'.symm
    subst e; subst e'
    exact .span junk rfl (Or.inl (by simp only [upd_same]; exact h))
  case inr.spanCost j junk =>
    obtain ⟨c, h, h'⟩ := h
    refine case_upd (fun e e' => ?_) h'.symm
    subst e; subst e'
    exact .span junk rfl (Or.inr ⟨_, by simp only [upd_same]; exact h⟩)
  case inl.weights j v =>
    obtain ⟨c, h, h'⟩ := h
    refine case_upd (fun e e' => ?_) h'.symm
    subst e; subst e'
    exact .weights v rfl (Or.inl (by simp only [upd_same]; exact h))
  case inr.weights j v =>
    obtain ⟨c, h, h'⟩ := h
    refine case_upd (fun e e' => ?_) h'.symm
    subst e; subst e'
    exact .weights v rfl (Or.inr ⟨_, by simp only [upd_same]; exact h⟩)
  case inl.weight j v =>
    cases h
    by_cases e : i = j
    · subst e
      exact .weight v rfl (by simp only [upd_same])
    · exact .same (upd_ne _ _ e)
  case inl.initCost j p junk =>
    obtain ⟨c, h, h'⟩ := h
    refine case_upd (fun e e' => ?_) h'.symm
    subst e; subst e'
    exact .init p junk (Or.inl rfl) (Or.inl (by simp only [upd_same]; exact h))
  case inr.initCost j p junk =>
    obtain ⟨c, h, h'⟩ := h
    refine case_upd (fun e e' => ?_) h'.symm
    subst e; subst e'
    exact .init p junk (Or.inl rfl) (Or.inr ⟨_, by simp only [upd_same]; exact h⟩)
  case inl.updateCost j p =>
    obtain ⟨c, h, h'⟩ := h
    refine case_upd (fun e e' => ?_) h'.symm
    subst e; subst e'
    exact .update p (Or.inl rfl) (by simp only [upd_same]; exact Relation.ReflTransGen.single h)
  case inl.addCost j junk =>
    unfold addCost at h
    split at h
    · cases h
    · rename_i p hp
      split at h <;> cases h
      rename_i c hc
      by_cases e : i = j
      · subst e
        exact .init p junk (Or.inr ⟨rfl, hp⟩) (Or.inl (by simp only [upd_same]; exact hc))
      · exact .same (upd_ne _ _ e)
  case inr.addCost j junk =>
    unfold addCost at h
    split at h
    · cases h
    · rename_i p hp
      split at h <;> cases h
      rename_i c hc
      by_cases e : i = j
      · subst e
        exact .init p junk (Or.inr ⟨rfl, hp⟩) (Or.inr ⟨_, by simp only [upd_same]; exact hc⟩)
      · exact .same (upd_ne _ _ e)
  case inl.addConstraint j junk =>
    unfold addConstraint at h
    split at h
    · cases h
    · split at h
      · split at h <;> cases h
        exact .same rfl
      · cases h
      · cases h
  case inr.addConstraint j junk =>
    unfold addConstraint at h
    split at h
    · cases h
    · split at h
      · split at h <;> cases h
      · cases h; exact .same rfl
      · cases h
  case inl.clearConstraints =>
    obtain ⟨_, _, _, _, rfl⟩ := clearConstraints_inv h
    exact .same rfl
  case inl.solve env =>
    obtain ⟨⟨w1, b, q⟩, hs, rfl⟩ := Option.map_eq_some_iff.1 h
    obtain ⟨p, hp, _, h1⟩ := solve_chain hs
    exact .update p (Or.inr ⟨⟨env, rfl⟩, hp⟩) (h1 i)
  case inr.updateConstr | inr.updatePs | inr.updateCost | inr.constructPs | inr.initializeController | inr.removeConstraint =>
    obtain ⟨_, h, _⟩ := h
    exact absurd h Res.ofOption_ne_thrown
  case inr.clearConstraints | inr.solve => exact absurd h Res.ofOption_ne_thrown
  all_goals first
    | (cases h <;> exact .same rfl)
    | (obtain ⟨_, _, rfl⟩ := h; exact .same rfl)

end World
end Copra
