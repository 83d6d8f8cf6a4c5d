import Verif.Proofs.Declared
import Verif.Props.Same
import Verif.Props.ExWorld

/-! # Declared data and rejected calls: C64, C65 -/

namespace Copra
open Spec

set_option linter.unusedSectionVars false
set_option maxRecDepth 100000

section
variable {K : Type} [Field K] [LinearOrder K] [IsStrictOrderedRing K]

theorem Spec.ConstrData.Eqv.refl (D : ConstrData K) : D.Eqv D := by
  cases D with
  | trajectory | control => exact ⟨rfl, ⟨rfl, rfl, fun _ _ _ _ => rfl⟩, rfl, fun _ _ => rfl⟩
  | mixed => exact ⟨rfl, ⟨rfl, rfl, fun _ _ _ _ => rfl⟩, ⟨rfl, rfl, fun _ _ _ _ => rfl⟩, rfl, fun _ _ => rfl⟩
  | trajBound | ctrlBound => exact ⟨⟨rfl, fun _ _ => rfl⟩, rfl, fun _ _ => rfl⟩

namespace World
variable {d : Dims} {dmax : K} {E : World K → Op K → Prop} {w w' : World K} {g : Ghost} {op : Op K}

/-- **C64**: what the user declared changes only when the user redeclares it.  In every history, whatever a call does
and whether it returns or throws: the data of a constraint changes only through its own `autoSpan`; the data of a cost
only through its own `autoSpan`, `weights` and `weight`; the dynamics of a system only through its `system` and
assignments to `A`, `B`, `d`; its initial state only through `system` and `xInit`.  In particular adding, removing,
initialising, updating and solving never do. -/
theorem c64_declared (h : Hist d dmax E w g) (ho : OpOk d w g op)
    (hs : w.step dmax op = .ok w' ∨ ∃ e, w.step dmax op = .thrown e w') :
    (∀ i, (∀ junk, op ≠ .spanConstr i junk) → (w'.cons i).userData = (w.cons i).userData) ∧
    (∀ i, (∀ junk, op ≠ .spanCost i junk) → (∀ v, op ≠ .weights i v) → (∀ x, op ≠ .weight i x) →
      (w'.costs i).userData = (w.costs i).userData) ∧
    (∀ p, (∀ A B v x N, op ≠ .system p A B v x N) → (∀ A B v, op ≠ .setDynamics p A B v) →
      (w'.pss p).A = (w.pss p).A ∧ (w'.pss p).B = (w.pss p).B ∧ (w'.pss p).d = (w.pss p).d) ∧
    (∀ p, (∀ A B v x N, op ≠ .system p A B v x N) → (∀ x, op ≠ .xInit p x) → (w'.pss p).x0 = (w.pss p).x0) := by
  refine ⟨fun i hi => h.good.constrDecl ho hs i (Or.inl hi), fun i hi hw hx => h.good.costDecl ho hs i (Or.inl hi) hw hx,
    fun p h1 h2 => (Steps.pssChange hs p).1 ?_, fun p h1 h2 => (Steps.pssChange hs p).2 ?_⟩
  · intro hr
    cases op <;> try exact hr.elim
    case system q A B v x N => cases hr; exact h1 A B v x N rfl
    case setDynamics q A B v => cases hr; exact h2 A B v rfl
  · intro hr
    cases op <;> try exact hr.elim
    case system q A B v x N => cases hr; exact h1 A B v x N rfl
    case xInit q x => cases hr; exact h2 x rfl

/-- **C64** (accepted objects): once a controller accepted them, not even `autoSpan` changes the data of a constraint
or cost. -/
theorem c64_accepted (h : Hist d dmax E w g) (ho : OpOk d w g op)
    (hs : w.step dmax op = .ok w' ∨ ∃ e, w.step dmax op = .thrown e w') :
    (∀ i, g.constr i → (w'.cons i).userData = (w.cons i).userData) ∧
    (∀ i, g.cost i → (∀ v, op ≠ .weights i v) → (∀ x, op ≠ .weight i x) →
      (w'.costs i).userData = (w.costs i).userData) :=
  ⟨fun i hi => h.good.constrDecl ho hs i (Or.inr hi), fun i hi hw hx => h.good.costDecl ho hs i (Or.inr hi) hw hx⟩

/-- What a throwing call leaves alone. -/
theorem thrown_inv {e : Exn} (hs : w.step dmax op = .thrown e w') :
    w'.ctl = w.ctl ∧ w'.extCons = w.extCons ∧ w'.extCosts = w.extCosts ∧ w'.pss = w.pss := by
  have O : Out dmax w op False w' := Or.inr ⟨id, e, hs⟩
  cases op with
  | addCost i junk =>
    simp only [step] at hs
    unfold addCost at hs
    split at hs
    · cases hs
    · split at hs
      · cases hs
      · injection hs with _ hs; subst hs; exact ⟨rfl, rfl, rfl, rfl⟩
      · cases hs
  | addConstraint i junk =>
    simp only [step] at hs
    unfold addConstraint at hs
    split at hs
    · cases hs
    · split at hs
      · split at hs <;> cases hs
      · injection hs with _ hs; subst hs; exact ⟨rfl, rfl, rfl, rfl⟩
      · cases hs
  | solve env => exact (solve_out O).1.elim
  | clearConstraints => simp only [step] at hs; exact absurd hs Res.ofOption_ne_thrown
  | system q A B v x N =>
    simp only [step, Res.map_thrown] at hs
    obtain ⟨s, hs, rfl⟩ := hs
    have : s = w.pss q := by
      unfold PreviewSystem.system at hs
      split at hs
      · injection hs with _ hs; exact hs.symm
      split at hs
      · injection hs with _ hs; exact hs.symm
      split at hs
      · injection hs with _ hs; exact hs.symm
      split at hs
      · injection hs with _ hs; exact hs.symm
      split at hs
      · injection hs with _ hs; exact hs.symm
      exact absurd hs Res.ofOption_ne_thrown
    subst this
    exact ⟨rfl, rfl, rfl, upd_self _ _⟩
  | updatePs q =>
    simp only [step, Res.map_thrown] at hs
    obtain ⟨s, hs, rfl⟩ := hs
    exact absurd hs Res.ofOption_ne_thrown
  | _ =>
    simp only [step, Res.map_thrown, reduceCtorEq] at hs
    all_goals (obtain ⟨s, hs, rfl⟩ := hs; first | exact ⟨rfl, rfl, rfl, rfl⟩ | exact absurd hs Res.ofOption_ne_thrown)

/-- **C65** (part): a call that throws leaves the controller, the systems and the reference counts exactly as they
were, and the declared data of every constraint and cost, except that a rejected `autoSpan` may have spanned a part of
the data of its own, not yet accepted, object (see `c65_false`). -/
theorem c65_rejected_partial {e : Exn} (h : Hist d dmax E w g) (ho : OpOk d w g op)
    (hs : w.step dmax op = .thrown e w') :
    w'.ctl = w.ctl ∧ w'.extCons = w.extCons ∧ w'.extCosts = w.extCosts ∧ w'.pss = w.pss ∧
    (∀ i, ((∀ junk, op ≠ .spanConstr i junk) ∨ g.constr i) → (w'.cons i).userData = (w.cons i).userData) ∧
    (∀ i, ((∀ junk, op ≠ .spanCost i junk) ∨ g.cost i) → (w'.costs i).userData = (w.costs i).userData) := by
  obtain ⟨a, b, c, dd⟩ := thrown_inv hs
  refine ⟨a, b, c, dd, fun i hi => h.good.constrDecl ho (Or.inr ⟨e, hs⟩) i hi, fun i hi => ?_⟩
  by_cases hw : ∃ v, op = .weights i v
  · obtain ⟨v, rfl⟩ := hw
    simp only [step, Res.map_thrown] at hs
    obtain ⟨s, hs, rfl⟩ := hs
    have : s = w.costs i := by
      unfold Cost.setWeights at hs
      split at hs
      · cases hs
      split at hs
      · cases hs
      split at hs
      · exact absurd hs Res.ofOption_ne_thrown
      · injection hs with _ hs; exact hs.symm
    simp only [upd_same, this]
  · by_cases hx : ∃ x, op = .weight i x
    · obtain ⟨x, rfl⟩ := hx
      simp only [step, reduceCtorEq] at hs
    · exact h.good.costDecl ho (Or.inr ⟨e, hs⟩) i hi (fun v hv => hw ⟨v, hv⟩) (fun x hv => hx ⟨x, hv⟩)

/-- Unchanged declarations are the same declarations. -/
theorem sameDeclared_of {p : Nat} (h1 : w'.ctl.spConstr = w.ctl.spConstr) (h2 : w'.ctl.spCost = w.ctl.spCost)
    (hA : (w'.pss p).A = (w.pss p).A) (hB : (w'.pss p).B = (w.pss p).B) (hd : (w'.pss p).d = (w.pss p).d)
    (hx : (w'.pss p).x0 = (w.pss p).x0)
    (hc : ∀ i ∈ w.ctl.spConstr, (w'.cons i).userData = (w.cons i).userData)
    (hk : ∀ i ∈ w.ctl.spCost, (w'.costs i).userData = (w.costs i).userData) : SameDeclared w p w' p := by
  refine ⟨hA.symm, hB.symm, hd.symm, ?_, ?_, ?_⟩
  · rw [hx]; exact ⟨rfl, fun _ _ => rfl⟩
  · rw [h1, List.forall₂_same]
    intro i hi
    rw [hc i hi]
    exact ConstrData.Eqv.refl _
  · rw [h2, List.forall₂_same]
    intro i hi
    rw [hk i hi]
    exact CostData.Eqv.refl _

/-- **C65** (the next problem): after a call that throws, the next `solve` hands the solver the problem it would have
handed over without that call.  (`inv`: an `InitialStateLMPC` also asks for a matrix inverse, from the same function.) -/
theorem c65_same_problem {e : Exn} {env env' : SolveEnv K} {v v' : World K} {b b' : Bool} {q q' : QP K}
    (h : Hist d dmax E w g) (hE : ∀ w op, E w op → NoBoundSpan w op) (ho : OpOk d w g op) (he : E w op)
    (hs : w.step dmax op = .thrown e w') (inv : w.ctl.isInit = true → SameInverse d env env')
    (hf : CostsFresh d w g) (hb : w.ctl.spBoundConstr = [] → g.clean)
    (o1 : OpOk d w g (.solve env)) (o2 : SolveContract d env' w.ctl)
    (s1 : w.solve env = some (v, b, q)) (s2 : w'.solve env' = some (v', b', q')) : QPEq q q' := by
  obtain ⟨a1, _, _, a4, a5, a6⟩ := c65_rejected_partial h ho hs
  obtain ⟨p, hp⟩ := Option.ne_none_iff_exists'.1 o1.1
  have hC := h.good.subC
  have hK := h.good.subK
  have same : SameDeclared w p w' p := by
    refine sameDeclared_of (by rw [a1]) (by rw [a1]) ?_ ?_ ?_ ?_ (fun i hi => a5 i (Or.inr (hC i hi)))
      (fun i hi => a6 i (Or.inr (hK i hi))) <;> rw [a4]
  have gc : (g.next w False op).clean = g.clean ∧ ∀ j, g.fresh j → (g.next w False op).fresh j := by
    cases op <;> first
      | exact ⟨rfl, fun j hj => hj⟩
      | exact ⟨rfl, fun j hj => Or.inl hj⟩
      | (exfalso; simp only [step, reduceCtorEq] at hs; done)
      | (exfalso; simp only [step, Res.map_thrown] at hs
         first
         | (obtain ⟨s, hs, _⟩ := hs; exact absurd hs Res.ofOption_ne_thrown)
         | exact absurd hs Res.ofOption_ne_thrown)
  have f2 : CostsFresh d w' (g.next w False op) := by
    intro i hm hps
    rw [a1] at hm ⊢
    rw [a6 i (Or.inr (hK i hm))] at hps
    exact ⟨gc.2 i (hf i hm hps).1, (hf i hm hps).2⟩
  exact c57_problem_determined_any h (Hist.thrown h ho he hs) hE hE o1 ⟨by rw [a1]; exact o1.1, by rw [a1]; exact o2⟩ hp
    (by rw [a1]; exact hp) (by rw [a1]) same (fun _ => by rw [a1]; exact SameInitData.refl _ _) inv hf f2 hb
    (by rw [a1, gc.1]; exact hb) s1 s2

end World
end

/-! ## Examples -/

namespace Ex.Frame
open World

/-- A world whose only constraint data is a mixed constraint with 1, 2 and 3 rows. -/
def f0 : World ℚ := { w0 with
  cons := fun _ => Constr.mkMixed (mat 1 2 [[1, 0]]) (mat 2 1 [[1], [2]]) (evec [.fin 1, .fin 2, .fin 3]) true }

theorem f0_init : World.Init f0 :=
  ⟨fun _ => rfl, fun _ => .inr (.inr (.inl ⟨_, _, _, _, rfl⟩)), w0_init.2.2.1, false, solver, rfl⟩

def f1 := after 1000 f0 (.spanConstr 0 jk)

/-- The whole of C65 is false: a rejected `autoSpan` leaves its object half spanned (here `E` has grown from one to
three rows, while `G` still has two). -/
theorem c65_false : ¬ ∀ (w w' : World ℚ) (g : Ghost) (op : Op ℚ) (e : Exn), Hist d 1000 AnyOp w g → OpOk d w g op →
    w.step 1000 op = .thrown e w' → ∀ i, (w'.cons i).userData = (w.cons i).userData := by
  intro H
  have ht : f0.step 1000 (.spanConstr 0 jk) = .thrown .domainError f1 := by
    have a : (match f0.step 1000 (.spanConstr 0 jk) with | .thrown .domainError _ => true | _ => false) = true := by
      decide +kernel
    unfold f1 after
    cases hs : f0.step 1000 (.spanConstr 0 jk) with
    | ok x => rw [hs] at a; cases a
    | thrown e x =>
      rw [hs] at a
      cases e <;> first | rfl | cases a
    | ub => rw [hs] at a; cases a
  have := H f0 f1 Ghost.start (.spanConstr 0 jk) _ (.start f0_init) trivial ht 0
  have e1 : (match (f1.cons 0).userData with | .mixed _ E _ _ => E.rows | _ => 0) = 3 := by decide +kernel
  have e2 : (match (f0.cons 0).userData with | .mixed _ E _ _ => E.rows | _ => 0) = 1 := by decide +kernel
  rw [this, e2] at e1
  cases e1

/-- A rejected call in the example program: constraint 6 has the wrong number of columns. -/
example : ∃ e w', w12.step 1000 (.addConstraint 6 jk) = .thrown e w' ∧ w'.ctl = w12.ctl ∧
    (∀ i, (w'.cons i).userData = (w12.cons i).userData) := by
  have a : (match w12.step 1000 (.addConstraint 6 jk) with | .thrown _ _ => true | _ => false) = true := by decide +kernel
  cases hs : w12.step 1000 (.addConstraint 6 jk) with
  | ok x => rw [hs] at a; cases a
  | thrown e x =>
    have := c65_rejected_partial h12 (op := .addConstraint 6 jk) (fun h => absurd h (by decide +kernel)) hs
    exact ⟨e, x, rfl, this.1, fun i => this.2.2.2.2.1 i (Or.inl fun j => by intro h; cases h)⟩
  | ub => rw [hs] at a; cases a

end Ex.Frame
end Copra
