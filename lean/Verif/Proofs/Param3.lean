import Verif.Proofs.Param2

/-! # The controller and the client on two scalar types -/

set_option linter.unusedSectionVars false

namespace Copra.Spec
variable {K L : Type} [Zero K] [One K] [Add K] [Sub K] [Neg K] [Mul K] [Arith K]
  [Zero L] [One L] [Add L] [Sub L] [Neg L] [Mul L] [Arith L] {rel : K → L → Prop}

/-! ## The controller -/

/-- The state of the row-placing loops. -/
structure RowsR (rel : K → L → Prop) (s : Nat × Mat K × Vec (Ext K)) (t : Nat × Mat L × Vec (Ext L)) : Prop where
  n : s.1 = t.1
  A : MatR rel s.2.1 t.2.1
  b : VecR (ExtR rel) s.2.2 t.2.2

/-- The state of the bound-placing loops. -/
structure BndsR (rel : K → L → Prop) (s : Nat × Vec (Ext K) × Vec (Ext K)) (t : Nat × Vec (Ext L) × Vec (Ext L)) : Prop where
  n : s.1 = t.1
  lb : VecR (ExtR rel) s.2.1 t.2.1
  ub : VecR (ExtR rel) s.2.2 t.2.2

namespace CtlR
variable {l : LMPC K} {l' : LMPC L} {p : PreviewSystem K} {p' : PreviewSystem L} {j : Junk K} {j' : Junk L}
  {cons : Nat → Constr K} {cons' : Nat → Constr L} {costs : Nat → Cost K} {costs' : Nat → Cost L} {dm : K} {dm' : L}

theorem construct (S : ScalarRel rel) (b : Bool) {s : Solver K} {s' : Solver L} (hs : SolverR rel s s') :
    CtlR rel (LMPC.construct b s) (LMPC.construct b s') :=
  ⟨rfl, rfl, hs, rfl, rfl, rfl, rfl, rfl, rfl, rfl, .empty S, .zero S rfl, .empty S, .nil, .empty S, .nil, .nil, .nil,
    .zero S rfl, .zero S rfl, rfl, rfl, .empty S, .zero S rfl, .nil, .nil⟩

theorem optSize (h : CtlR rel l l') (hp : PsR rel p p') : OptR Eq (l.optSize p) (l'.optSize p') :=
  OptR.of_eq (by unfold LMPC.optSize; rw [h.isInit, hp.xDim, hp.fullUDim])

theorem clearConstraintMatrices (S : ScalarRel rel) (hd : rel dm dm') (h : CtlR rel l l') (hp : PsR rel p p') :
    OptR (CtlR rel) (l.clearConstraintMatrices dm p) (l'.clearConstraintMatrices dm' p') :=
  OptR.bind (h.optSize hp) fun _ _ e => OptR.pure { h with
    Aineq := .zero S rfl e, Aeq := .zero S rfl e, bineq := .nil, beq := .nil, lb := .const e (S.neg hd), ub := .const e hd }

theorem updateQPMatrixSize (h : CtlR rel l l') (hj : JunkR rel j j') (hp : PsR rel p p') :
    OptR (CtlR rel) (l.updateQPMatrixSize j p) (l'.updateQPMatrixSize j' p') :=
  OptR.bind (h.optSize hp) fun _ _ e => OptR.pure { h with Q := .resize e e (hj.m 0), c := .resize e (hj.v 0) }

theorem initializeController (S : ScalarRel rel) (hd : rel dm dm') (h : CtlR rel l l') (hj : JunkR rel j j') (i : Nat) (hp : PsR rel p p') :
    OptR (CtlR rel) (l.initializeController dm j i p) (l'.initializeController dm' j' i p') := by
  have h1 : CtlR rel { l with ps := some i } { l' with ps := some i } := { h with ps := rfl }
  exact OptR.bind (h1.clearConstraintMatrices S hd hp) fun _ _ h2 => h2.updateQPMatrixSize hj hp

theorem updateConstraintMatrixSize (h : CtlR rel l l') (hj : JunkR rel j j') (hp : PsR rel p p') :
    OptR (CtlR rel) (l.updateConstraintMatrixSize j p) (l'.updateConstraintMatrixSize j' p') :=
  OptR.bind (h.optSize hp) fun _ _ e => OptR.pure { h with
    Aeq := .resize h.nrEqConstr e (hj.m 0), beq := .resize h.nrEqConstr (hj.x 0)
    Aineq := .resize h.nrIneqConstr e (hj.m 1), bineq := .resize h.nrIneqConstr (hj.x 1) }

theorem countConstr (hc : ∀ i, ConstrR rel (cons i) (cons' i)) {s s' : List Nat} (hs : s = s') :
    OptR Eq (LMPC.countConstr cons s) (LMPC.countConstr cons' s') := by
  subst hs
  exact OptR.foldlM _ (fun a b i e => chkIntR (by rw [e, (hc i).nrConstr])) rfl

theorem updateNr (h : CtlR rel l l') (hc : ∀ i, ConstrR rel (cons i) (cons' i)) :
    OptR (CtlR rel) (l.updateNr cons) (l'.updateNr cons') :=
  OptR.bind (countConstr hc h.spEqConstr) fun _ _ e1 => OptR.bind (countConstr hc h.spIneqConstr) fun _ _ e2 =>
  OptR.pure { h with nrEqConstr := e1, nrIneqConstr := e2 }

theorem addConstraintByType (h : CtlR rel l l') (i : Nat) {c : Constr K} {c' : Constr L} (hc : ConstrR rel c c') :
    OptR (CtlR rel) (l.addConstraintByType i c) (l'.addConstraintByType i c') := by
  unfold LMPC.addConstraintByType
  rw [← hc.constraintType]
  cases c.constraintType
  · exact OptR.bind (chkIntR (by rw [h.nrEqConstr, hc.nrConstr])) fun _ _ e => OptR.pure { h with
      nrEqConstr := e, spEqConstr := by rw [h.spEqConstr], spConstr := by rw [h.spConstr] }
  · exact OptR.bind (chkIntR (by rw [h.nrIneqConstr, hc.nrConstr])) fun _ _ e => OptR.pure { h with
      nrIneqConstr := e, spIneqConstr := by rw [h.spIneqConstr], spConstr := by rw [h.spConstr] }
  · exact OptR.pure { h with spBoundConstr := by rw [h.spBoundConstr], spConstr := by rw [h.spConstr] }

theorem removeConstraint (h : CtlR rel l l') (i : Nat) {c : Constr K} {c' : Constr L} (hc : ConstrR rel c c') :
    OptR (CtlR rel) (l.removeConstraint i c) (l'.removeConstraint i c') := by
  refine OptR.ite (by rw [h.spConstr]) (fun _ _ => ?_) fun _ _ => OptR.pure h
  dsimp only
  rw [← hc.constraintType]
  cases c.constraintType
  · exact OptR.bind (OptR.of_eq (by rw [h.spEqConstr])) fun _ _ e => OptR.pure { h with
      spEqConstr := e, spConstr := by rw [h.spConstr] }
  · exact OptR.bind (OptR.of_eq (by rw [h.spIneqConstr])) fun _ _ e => OptR.pure { h with
      spIneqConstr := e, spConstr := by rw [h.spConstr] }
  · exact OptR.bind (OptR.of_eq (by rw [h.spBoundConstr])) fun _ _ e => OptR.pure { h with
      spBoundConstr := e, spConstr := by rw [h.spConstr] }

theorem addCostTerms (S : ScalarRel rel) (hk : ∀ i, CostR rel (costs i) (costs' i)) (i : Nat) (h : CtlR rel l l') :
    OptR (CtlR rel) (l.addCostTerms costs i) (l'.addCostTerms costs' i) :=
  OptR.bind (h.Q.add? S (hk i).Q) fun _ _ hQ => OptR.bind (h.c.add? S (hk i).c) fun _ _ hc => OptR.pure { h with Q := hQ, c := hc }

theorem putRows (hp : PsR rel p p') (hc : ∀ i, ConstrR rel (cons i) (cons' i)) (i : Nat) {s : Nat × Mat K × Vec (Ext K)}
    {t : Nat × Mat L × Vec (Ext L)} (h : RowsR rel s t) : OptR (RowsR rel) (LMPC.putRows cons p s i) (LMPC.putRows cons' p' t i) :=
  OptR.bind (h.A.setBlock? h.n rfl (hc i).nrConstr hp.fullUDim (hc i).A) fun _ _ hA =>
  OptR.bind (h.b.setSegment? h.n (hc i).nrConstr (hc i).b) fun _ _ hb =>
  OptR.pure ⟨by show s.1 + _ = t.1 + _; rw [h.n, (hc i).nrConstr], hA, hb⟩

theorem putRowsInit (hp : PsR rel p p') (hc : ∀ i, ConstrR rel (cons i) (cons' i)) (i : Nat) {s : Nat × Mat K × Vec (Ext K)}
    {t : Nat × Mat L × Vec (Ext L)} (h : RowsR rel s t) :
    OptR (RowsR rel) (LMPC.putRowsInit cons p s i) (LMPC.putRowsInit cons' p' t i) :=
  OptR.bind (h.A.setBlock? h.n rfl (hc i).nrConstr hp.xDim (hc i).Y) fun _ _ hA =>
  OptR.bind (hA.setBlock? h.n hp.xDim (hc i).nrConstr hp.fullUDim (hc i).A) fun _ _ hA =>
  OptR.bind (h.b.setSegment? h.n (hc i).nrConstr (hc i).z) fun _ _ hb =>
  OptR.pure ⟨by show s.1 + _ = t.1 + _; rw [h.n, (hc i).nrConstr], hA, hb⟩

theorem putBounds (hc : ∀ i, ConstrR rel (cons i) (cons' i)) (i : Nat) {s : Nat × Vec (Ext K) × Vec (Ext K)}
    {t : Nat × Vec (Ext L) × Vec (Ext L)} (h : BndsR rel s t) :
    OptR (BndsR rel) (LMPC.putBounds cons s i) (LMPC.putBounds cons' t i) :=
  OptR.bind (h.lb.setSegment? h.n (hc i).nrConstr (hc i).lb) fun _ _ hA =>
  OptR.bind (h.ub.setSegment? h.n (hc i).nrConstr (hc i).ub) fun _ _ hb =>
  OptR.pure ⟨by show s.1 + _ = t.1 + _; rw [h.n, (hc i).nrConstr], hA, hb⟩

theorem foldlM_list {α β γ : Type} {r : α → β → Prop} {f : α → γ → Option α} {g : β → γ → Option β} {s t : List γ} (e : s = t)
    (h : ∀ a b i, r a b → OptR r (f a i) (g b i)) {a : α} {b : β} (hab : r a b) : OptR r (s.foldlM f a) (t.foldlM g b) := by
  subst e; exact OptR.foldlM _ h hab

theorem makeQPFormBase (S : ScalarRel rel) (hp : PsR rel p p') (hc : ∀ i, ConstrR rel (cons i) (cons' i))
    (hk : ∀ i, CostR rel (costs i) (costs' i)) (h : CtlR rel l l') :
    OptR (CtlR rel) (l.makeQPFormBase cons costs p) (l'.makeQPFormBase cons' costs' p') :=
  OptR.bind (foldlM_list h.spCost (fun _ _ i h => addCostTerms S hk i h) h) fun _ _ h =>
  OptR.bind (foldlM_list (r := RowsR rel) h.spEqConstr (fun _ _ i h => putRows hp hc i h) ⟨rfl, h.Aeq, h.beq⟩) fun _ _ he =>
  OptR.bind (foldlM_list (r := RowsR rel) h.spIneqConstr (fun _ _ i h => putRows hp hc i h) ⟨rfl, h.Aineq, h.bineq⟩) fun _ _ hi =>
  OptR.bind (foldlM_list (r := BndsR rel) h.spBoundConstr (fun _ _ i h => putBounds hc i h) ⟨rfl, h.lb, h.ub⟩) fun _ _ hb =>
  OptR.pure { h with Aeq := he.A, beq := he.b, Aineq := hi.A, bineq := hi.b, lb := hb.lb, ub := hb.ub }

theorem cornerOff {d n d' n' : Nat} (hd : d = d') (hn : n = n') : OptR Eq (LMPC.cornerOff d n) (LMPC.cornerOff d' n') :=
  OptR.of_eq (by rw [hd, hn])

theorem addCostTermsInit (S : ScalarRel rel) (hp : PsR rel p p') (hk : ∀ i, CostR rel (costs i) (costs' i)) (i : Nat)
    (h : CtlR rel l l') : OptR (CtlR rel) (l.addCostTermsInit costs p i) (l'.addCostTermsInit costs' p' i) :=
  OptR.bind (cornerOff h.Q.rows hp.fullUDim) fun _ _ e1 => OptR.bind (cornerOff h.Q.cols hp.fullUDim) fun _ _ e2 =>
  OptR.bind (h.Q.addBlock? S e1 e2 hp.fullUDim hp.fullUDim (hk i).Q) fun _ _ hQ =>
  OptR.bind (hQ.addBlock? S rfl e2 hp.xDim hp.fullUDim (hk i).E) fun _ _ hQ =>
  OptR.bind (cornerOff h.c.rows hp.fullUDim) fun _ _ e3 => OptR.bind (h.c.addSegment? S e3 hp.fullUDim (hk i).f) fun _ _ hc =>
  OptR.pure { h with Q := hQ, c := hc }

theorem block?_size {A B : Mat K} {i j m n : Nat} (h : A.block? i j m n = some B) : B.rows = m ∧ B.cols = n := by
  unfold Mat.block? at h
  split at h
  · injection h with h; subst h; exact ⟨rfl, rfl⟩
  · cases h

theorem _root_.Copra.Spec.OptR.bind' {α β γ δ : Type} {r : α → β → Prop} {s : γ → δ → Prop} {x : Option α} {y : Option β}
    {f : α → Option γ} {g : β → Option δ} (h : OptR r x y) (hf : ∀ a b, x = some a → y = some b → r a b → OptR s (f a) (g b)) :
    OptR s (x >>= f) (y >>= g) := by
  cases x <;> cases y <;> first | exact hf _ _ rfl rfl h | exact h.elim | trivial

theorem finishQ (S : ScalarRel rel) (hp : PsR rel p p') {inv : Mat K → Mat K} {inv' : Mat L → Mat L}
    (hi : ∀ M M', MatR rel M M' → M.rows = p.fullUDim → M.cols = p.fullUDim → MatR rel (inv M) (inv' M')) (h : CtlR rel l l') :
    OptR (CtlR rel) (l.finishQ inv p) (l'.finishQ inv' p') :=
  OptR.bind (cornerOff h.Q.rows hp.fullUDim) fun _ _ e1 => OptR.bind (cornerOff h.Q.cols hp.fullUDim) fun _ _ e2 =>
  OptR.bind (h.Q.block? rfl e2 hp.xDim hp.fullUDim) fun _ _ hE =>
  OptR.bind' (h.Q.block? e1 e2 hp.fullUDim hp.fullUDim) fun _ _ eq _ hQ =>
  OptR.bind (h.Q.setBlock? e1 rfl hp.fullUDim hp.xDim hE.transpose) fun _ _ hQ1 =>
  OptR.bind (hE.mul? S (hi _ _ hQ (block?_size eq).1 (block?_size eq).2)) fun _ _ h1 =>
  OptR.bind (h1.mul? S hE.transpose) fun _ _ h2 => OptR.bind (h.R.add? S h2) fun _ _ h3 =>
  OptR.bind (hQ1.setBlock? rfl rfl hp.xDim hp.xDim h3) fun _ _ hQ2 => OptR.pure { h with Q := hQ2 }

theorem makeQPFormInit (S : ScalarRel rel) (hp : PsR rel p p') (hc : ∀ i, ConstrR rel (cons i) (cons' i))
    (hk : ∀ i, CostR rel (costs i) (costs' i)) {inv : Mat K → Mat K} {inv' : Mat L → Mat L}
    (hi : ∀ M M', MatR rel M M' → M.rows = p.fullUDim → M.cols = p.fullUDim → MatR rel (inv M) (inv' M')) (h : CtlR rel l l') :
    OptR (CtlR rel) (l.makeQPFormInit inv cons costs p) (l'.makeQPFormInit inv' cons' costs' p') :=
  OptR.bind (foldlM_list h.spCost (fun _ _ i h => addCostTermsInit S hp hk i h) h) fun _ _ h =>
  OptR.bind (foldlM_list (r := RowsR rel) h.spEqConstr (fun _ _ i h => putRowsInit hp hc i h) ⟨rfl, h.Aeq, h.beq⟩) fun _ _ he =>
  OptR.bind (foldlM_list (r := RowsR rel) h.spIneqConstr (fun _ _ i h => putRowsInit hp hc i h) ⟨rfl, h.Aineq, h.bineq⟩)
    fun _ _ hq =>
  OptR.bind (foldlM_list (r := BndsR rel) h.spBoundConstr (fun _ _ i h => putBounds hc i h) ⟨hp.xDim, h.lb, h.ub⟩) fun _ _ hb =>
  OptR.bind (finishQ S hp hi h) fun _ _ h => OptR.bind (h.c.setSegment? rfl hp.xDim h.r) fun _ _ hcc =>
  OptR.bind (hb.lb.setSegment? rfl hp.xDim h.x0lb) fun _ _ hlb => OptR.bind (hb.ub.setSegment? rfl hp.xDim h.x0ub) fun _ _ hub =>
  OptR.pure { h with Aeq := he.A, beq := he.b, Aineq := hq.A, bineq := hq.b, lb := hlb, ub := hub, c := hcc }

theorem makeQPForm (S : ScalarRel rel) (hp : PsR rel p p') (hc : ∀ i, ConstrR rel (cons i) (cons' i))
    (hk : ∀ i, CostR rel (costs i) (costs' i)) {inv : Mat K → Mat K} {inv' : Mat L → Mat L} (h : CtlR rel l l')
    (hi : l.isInit = true → ∀ M M', MatR rel M M' → M.rows = p.fullUDim → M.cols = p.fullUDim → MatR rel (inv M) (inv' M')) :
    OptR (CtlR rel) (l.makeQPForm inv cons costs p) (l'.makeQPForm inv' cons' costs' p') :=
  OptR.ite (by rw [h.isInit]) (fun e _ => makeQPFormInit S hp hc hk (hi e) h) fun _ _ => makeQPFormBase S hp hc hk h

theorem initialState (h : CtlR rel l l') (hp : PsR rel p p') : OptR (VecR rel) (l.initialState p) (l'.initialState p') :=
  OptR.bind h.sol fun _ _ hs => hs.result.segment? rfl hp.xDim

theorem predict (S : ScalarRel rel) (hp : PsR rel p p') {x u : Vec K} {x' u' : Vec L} (hx : VecR rel x x') (hu : VecR rel u u') :
    OptR (VecR rel) (LMPC.predict p x u) (LMPC.predict p' x' u') :=
  OptR.bind (hp.Phi.mulVec? S hx) fun _ _ h1 => OptR.bind (hp.Psi.mulVec? S hu) fun _ _ h2 =>
  OptR.bind (h1.add? S h2) fun _ _ h3 => h3.add? S hp.xi

theorem updateResults (S : ScalarRel rel) (hp : PsR rel p p') (h : CtlR rel l l') :
    OptR (CtlR rel) (l.updateResults p) (l'.updateResults p') :=
  OptR.bind h.sol fun _ _ hs => OptR.ite (by rw [h.isInit])
    (fun _ _ => OptR.bind (cornerOff hs.result.rows hp.fullUDim) fun _ _ e =>
      OptR.bind (hs.result.segment? e hp.fullUDim) fun _ _ hu => OptR.bind (h.initialState hp) fun _ _ hx =>
      OptR.bind (predict S hp hx hu) fun _ _ ht => OptR.pure { h with control := hu, trajectory := ht })
    fun _ _ => OptR.bind (predict S hp hp.x0 hs.result) fun _ _ ht => OptR.pure { h with control := hs.result, trajectory := ht }

theorem qp (h : CtlR rel l l') : QPR rel l.qp l'.qp :=
  ⟨h.c.rows, h.nrEqConstr, h.nrIneqConstr, h.Q, h.c, h.Aeq, h.beq, h.Aineq, h.bineq, h.lb, h.ub⟩

theorem checkDelete (h : CtlR rel l l') {x y x' y' : Nat → Nat} (hx : x = x') (hy : y = y') :
    CtlR rel (l.checkDelete x y) (l'.checkDelete x' y') := by
  subst hx; subst hy
  cases l; cases l'
  rcases h with ⟨h1, h2, h3, h4, h5, h6, h7, h8, h9, h10, h11, h12, h13, h14, h15, h16, h17, h18, h19, h20, h21, h22, h23, h24, h25, h26⟩
  dsimp only at *
  subst h4; subst h7; subst h8; subst h9; subst h10
  exact ⟨h1, h2, h3, rfl, h5, h6, rfl, rfl, rfl, rfl, h11, h12, h13, h14, h15, h16, h17, h18, h19, h20, h21, h22, h23, h24, h25, h26⟩

theorem seedInit (S : ScalarRel rel) (h : CtlR rel l l') (hp : PsR rel p p') : CtlR rel (World.seedInit l p) (World.seedInit l' p') := by
  unfold World.seedInit
  by_cases e : l.isInit = true
  · rw [if_pos e, if_pos (h.isInit ▸ e)]
    exact { h with R := .zero S hp.xDim hp.xDim, r := .zero S hp.xDim, x0lb := hp.x0.toExt, x0ub := hp.x0.toExt }
  · rw [if_neg e, if_neg (h.isInit ▸ e)]
    exact h

end CtlR

/-! ## The client -/

theorem updR {α β : Type} {r : α → β → Prop} {f : Nat → α} {g : Nat → β} (h : ∀ i, r (f i) (g i)) (i : Nat) {a : α} {b : β}
    (hab : r a b) (k : Nat) : r (World.upd f i a k) (World.upd g i b k) := by
  unfold World.upd
  split
  · exact hab
  · exact h k

namespace WorldR
variable {w : World K} {v : World L} {dm : K} {dm' : L}

theorem updateConstr (S : ScalarRel rel) {p : PreviewSystem K} {p' : PreviewSystem L} (hp : PsR rel p p') {f : Nat → Constr K}
    {g : Nat → Constr L} (h : ∀ i, ConstrR rel (f i) (g i)) (i : Nat) :
    OptR (fun (f : Nat → Constr K) (g : Nat → Constr L) => ∀ i, ConstrR rel (f i) (g i)) (World.updateConstr p f i) (World.updateConstr p' g i) :=
  OptR.bind ((h i).update S hp) fun _ _ hc => OptR.pure (r := fun (f : Nat → Constr K) (g : Nat → Constr L) => ∀ i, ConstrR rel (f i) (g i)) (updR h i hc)

theorem updateCost (S : ScalarRel rel) {p : PreviewSystem K} {p' : PreviewSystem L} (hp : PsR rel p p') {f : Nat → Cost K}
    {g : Nat → Cost L} (h : ∀ i, CostR rel (f i) (g i)) (i : Nat) :
    OptR (fun (f : Nat → Cost K) (g : Nat → Cost L) => ∀ i, CostR rel (f i) (g i)) (World.updateCost p f i) (World.updateCost p' g i) :=
  OptR.bind ((h i).update S hp) fun _ _ hc => OptR.pure (r := fun (f : Nat → Cost K) (g : Nat → Cost L) => ∀ i, CostR rel (f i) (g i)) (updR h i hc)

theorem updateSystem (S : ScalarRel rel) (h : WorldR rel w v) {j : Junk K} {j' : Junk L} (hj : JunkR rel j j') :
    OptR (WorldR rel) (w.updateSystem j) (v.updateSystem j') := by
  unfold World.updateSystem
  refine OptR.bind (OptR.of_eq h.ctl.ps) fun p p' e => ?_
  subst e
  have h1 : CtlR rel { w.ctl with Q := (Mat.identity w.ctl.Q.rows w.ctl.Q.cols).scale Arith.micro, c := Vec.zero w.ctl.c.rows }
      { v.ctl with Q := (Mat.identity v.ctl.Q.rows v.ctl.Q.cols).scale Arith.micro, c := Vec.zero v.ctl.c.rows } :=
    { h.ctl with Q := (MatR.identity S h.ctl.Q.rows h.ctl.Q.cols).scale S S.micro, c := .zero S h.ctl.c.rows }
  dsimp only
  refine OptR.ite (by rw [(h.pss p).isUpdated]) (fun _ _ => ?_) (fun _ _ => ?_)
  all_goals
    refine OptR.bind (r := PsR rel) (by first | exact OptR.pure (h.pss p) | exact updateSystemR S (h.pss p)) fun _ _ hp => ?_
    exact OptR.bind (h1.updateNr h.cons) fun _ _ h2 => OptR.bind (h2.updateConstraintMatrixSize hj hp) fun _ _ h3 =>
    OptR.bind (CtlR.foldlM_list (r := fun (f : Nat → Constr K) (g : Nat → Constr L) => ∀ i, ConstrR rel (f i) (g i)) h3.spConstr
      (fun _ _ i hfg => updateConstr S hp hfg i) h.cons) fun _ _ hc =>
    OptR.bind (CtlR.foldlM_list (r := fun (f : Nat → Cost K) (g : Nat → Cost L) => ∀ i, CostR rel (f i) (g i)) h3.spCost
      (fun _ _ i hfg => updateCost S hp hfg i) h.costs) fun _ _ hk =>
    OptR.pure (r := WorldR rel) ⟨updR h.pss p hp, hc, hk, h.extCons, h.extCosts, h3⟩

theorem loop_relP {σ : Type} {R : σ → σ → Prop} (hr : ∀ s, R s s) (ht : ∀ {a b c}, R a b → R b c → R a c)
    {f : Nat → σ → Option σ} (hf : ∀ i s s', f i s = some s' → R s s') {a b : Nat} {s s' : σ}
    (h : loop a b f s = some s') : R s s' := by
  unfold loop at h
  generalize List.range' a (b - a) = l at h
  induction l generalizing s with
  | nil => cases h; exact hr _
  | cons i l ih =>
    rw [List.foldlM_cons, Option.bind_eq_bind, Option.bind_eq_some_iff] at h
    obtain ⟨t, h1, h2⟩ := h
    exact ht (hf _ _ _ h1) (ih h2)

theorem updateSystem_dims {ps ps' : PreviewSystem K} (h : ps.updateSystem = some ps') : ps.fullUDim = ps'.fullUDim := by
  unfold PreviewSystem.updateSystem at h
  simp only [Option.bind_eq_bind, Option.bind_eq_some_iff, Option.pure_def, Option.some.injEq] at h
  obtain ⟨Phi, _, Psi, _, xi, _, ps1, h1, rfl⟩ := h
  show ({ ps with Phi := Phi, Psi := Psi, xi := xi } : PreviewSystem K).fullUDim = ps1.fullUDim
  refine loop_relP (R := fun a b : PreviewSystem K => a.fullUDim = b.fullUDim) (fun _ => rfl) (fun h g => h.trans g) ?_ h1
  intro i s s' hs
  unfold PreviewSystem.updateStep at hs
  simp only [Option.bind_eq_bind, Option.bind_eq_some_iff, Option.pure_def, Option.some.injEq] at hs
  obtain ⟨_, _, _, _, _, _, _, _, _, _, _, _, _, _, _, _, _, _, _, _, _, _, rfl⟩ := hs
  rfl

theorem updateSystem_keeps {j : Junk K} {w1 : World K} (h : w.updateSystem j = some w1) :
    w1.ctl.isInit = w.ctl.isInit ∧ w1.ctl.ps = w.ctl.ps ∧ w1.ctl.sol = w.ctl.sol ∧
      (∀ p, w.ctl.ps = some p → (w1.pss p).fullUDim = (w.pss p).fullUDim) ∧
      w1.ctl.control = w.ctl.control ∧ w1.ctl.trajectory = w.ctl.trajectory := by
  unfold World.updateSystem at h
  cases e : w.ctl.ps with
  | none => rw [e] at h; cases h
  | some p =>
    rw [e] at h
    dsimp only [Option.bind_eq_bind, Option.bind_some] at h
    have key : ∀ ps : PreviewSystem K, ps.fullUDim = (w.pss p).fullUDim →
        (do
          let l ← LMPC.updateNr w.cons { w.ctl with
            Q := (Mat.identity w.ctl.Q.rows w.ctl.Q.cols).scale Arith.micro, c := Vec.zero w.ctl.c.rows }
          let l ← l.updateConstraintMatrixSize j ps
          let cons ← l.spConstr.foldlM (World.updateConstr ps) w.cons
          let costs ← l.spCost.foldlM (World.updateCost ps) w.costs
          return { w with pss := World.upd w.pss p ps, cons := cons, costs := costs, ctl := l } : Option (World K)) = some w1 →
        w1.ctl.isInit = w.ctl.isInit ∧ w1.ctl.ps = w.ctl.ps ∧ w1.ctl.sol = w.ctl.sol ∧
          (∀ q, w.ctl.ps = some q → (w1.pss q).fullUDim = (w.pss q).fullUDim) ∧
          w1.ctl.control = w.ctl.control ∧ w1.ctl.trajectory = w.ctl.trajectory := by
      intro ps hps k
      unfold LMPC.updateNr LMPC.updateConstraintMatrixSize at k
      simp only [Option.bind_eq_bind, Option.bind_eq_some_iff, Option.pure_def, Option.some.injEq] at k
      obtain ⟨l, ⟨_, _, _, _, rfl⟩, _, ⟨_, _, rfl⟩, _, _, _, _, rfl⟩ := k
      refine ⟨rfl, rfl, rfl, fun q hq => ?_, rfl, rfl⟩
      rw [e] at hq
      injection hq with hq
      subst hq
      show (World.upd w.pss p ps p).fullUDim = _
      unfold World.upd
      rw [if_pos rfl]
      exact hps
    rw [← e]
    split at h
    · exact key _ rfl h
    · obtain ⟨ps, h1, h2⟩ := Option.bind_eq_some_iff.1 h
      refine key ps ?_ h2
      exact (updateSystem_dims h1).symm

/-- What a `solve` returns. -/
structure SolvedR (rel : K → L → Prop) (s : World K × Bool × QP K) (t : World L × Bool × QP L) : Prop where
  world : WorldR rel s.1 t.1
  flag : s.2.1 = t.2.1
  qp : QPR rel s.2.2 t.2.2

theorem solve (S : ScalarRel rel) (h : WorldR rel w v) {env : SolveEnv K} {env' : SolveEnv L} (he : EnvR rel w env env') :
    OptR (SolvedR rel) (w.solve env) (v.solve env') := by
  unfold World.solve
  refine OptR.bind' (updateSystem S h he.junk) fun w1 v1 ew ev h1 => ?_
  refine OptR.bind' (OptR.of_eq h1.ctl.ps) fun p p' ep ep' e => ?_
  subst e
  obtain ⟨k1, k2, -, k4, -, -⟩ := updateSystem_keeps ew
  rw [k2] at ep
  refine OptR.bind' (h1.ctl.makeQPForm S (h1.pss p) h1.cons h1.costs fun i M M' hM a b =>
    he.inverse (k1 ▸ i) p ep M M' hM (a.trans (k4 p ep)) (b.trans (k4 p ep))) fun l l' el el' hl => ?_
  refine OptR.bind hl.sol fun s s' hs => ?_
  obtain ⟨a1, a2⟩ := he.answer l.qp l'.qp ⟨w1, p, l, ew, k2.trans ep, el, rfl⟩ hl.qp
  obtain ⟨t0, t1, t2, t3⟩ := he.times
  have h2 : CtlR rel { l with sol := some { s with result := (env.answer l.qp).2 }, solveTime := some (env.t2 - env.t1) }
      { l' with sol := some { s' with result := (env'.answer l'.qp).2 }, solveTime := some (env'.t2 - env'.t1) } :=
    { hl with sol := ⟨hs.kind, a2⟩, solveTime := by rw [t1, t2] }
  have h3 := h2.checkDelete h1.extCons h1.extCosts
  refine OptR.ite (P := (env.answer l.qp).1 = true) (Q := (env'.answer l'.qp).1 = true) (by rw [a1]) (fun _ _ => ?_) (fun _ _ => ?_)
  · refine OptR.bind (r := CtlR rel) (h3.updateResults S (h1.pss p)) fun _ _ h4 => ?_
    exact OptR.pure (r := SolvedR rel) ⟨{ h1 with ctl := { h4 with solveAndBuildTime := by rw [t3, t0] } }, a1, hl.qp⟩
  · exact OptR.pure (r := SolvedR rel) ⟨{ h1 with ctl := { h3 with solveAndBuildTime := by rw [t3, t0] } }, a1, hl.qp⟩

theorem addCost (S : ScalarRel rel) (h : WorldR rel w v) {j : Junk K} {j' : Junk L} (hj : JunkR rel j j') (i : Nat) :
    ResR (WorldR rel) (w.addCost j i) (v.addCost j' i) := by
  unfold World.addCost
  rw [← h.ctl.ps]
  cases w.ctl.ps with
  | none => trivial
  | some p =>
    have k := (h.costs i).initializeCost S hj (h.pss p)
    revert k
    dsimp only
    cases (w.costs i).initializeCost j (w.pss p) <;> cases (v.costs i).initializeCost j' (v.pss p) <;> intro k <;>
      try exact k.elim
    · exact ResR.ok { h with costs := updR h.costs i k, ctl := { h.ctl with spCost := by rw [h.ctl.spCost] } }
    · obtain ⟨rfl, k⟩ := k
      exact ResR.thrown { h with costs := updR h.costs i k }
    · trivial

theorem addConstraint (S : ScalarRel rel) (h : WorldR rel w v) {j : Junk K} {j' : Junk L} (hj : JunkR rel j j') (i : Nat) :
    ResR (WorldR rel) (w.addConstraint j i) (v.addConstraint j' i) := by
  unfold World.addConstraint
  rw [← h.ctl.ps]
  cases w.ctl.ps with
  | none => trivial
  | some p =>
    have k := (h.cons i).initializeConstraint S hj (h.pss p)
    revert k
    dsimp only
    cases (w.cons i).initializeConstraint j (w.pss p) with
    | ok c => cases (v.cons i).initializeConstraint j' (v.pss p) with
      | ok c' =>
        intro k
        have m := h.ctl.addConstraintByType i k
        revert m
        dsimp only
        cases w.ctl.addConstraintByType i c <;> cases v.ctl.addConstraintByType i c' <;> intro m <;>
          first | exact m.elim | trivial | exact ResR.ok { h with cons := updR h.cons i k, ctl := m }
      | thrown => exact False.elim
      | ub => exact False.elim
    | thrown e c => cases (v.cons i).initializeConstraint j' (v.pss p) with
      | ok c' => exact False.elim
      | thrown => intro k; obtain ⟨rfl, k⟩ := k; exact ResR.thrown { h with cons := updR h.cons i k }
      | ub => exact False.elim
    | ub => cases (v.cons i).initializeConstraint j' (v.pss p) with
      | ok c' => exact False.elim
      | thrown => exact False.elim
      | ub => intro; trivial

theorem clearConstraints (S : ScalarRel rel) (hd : rel dm dm') (h : WorldR rel w v) :
    OptR (WorldR rel) (w.clearConstraints dm) (v.clearConstraints dm') := by
  unfold World.clearConstraints
  refine OptR.bind (OptR.of_eq h.ctl.ps) fun p p' e => ?_
  subst e
  have h1 : CtlR rel w.ctl.clearRegistry v.ctl.clearRegistry := { h.ctl with
    nrEqConstr := rfl, nrIneqConstr := rfl, spConstr := rfl, spEqConstr := rfl, spIneqConstr := rfl, spBoundConstr := rfl }
  exact OptR.bind (h1.clearConstraintMatrices S hd (h.pss p)) fun _ _ h2 => OptR.pure (r := WorldR rel) { h with ctl := h2 }

theorem step (S : ScalarRel rel) (hd : rel dm dm') (h : WorldR rel w v) {op : Op K} {op' : Op L} (ho : OpR rel w op op') :
    ResR (WorldR rel) (w.step dm op) (v.step dm' op') := by
  cases op <;> cases op' <;> first | exact ho.elim | skip
  case system.system => obtain ⟨rfl, hA, hB, hd, hx, rfl⟩ := ho; exact ResR.map (systemR S (h.pss _) hA hB hd hx) fun _ _ k => { h with pss := updR h.pss _ k }
  case xInit.xInit =>
    obtain ⟨rfl, hx⟩ := ho
    exact ResR.ok { h with pss := updR h.pss _ { h.pss _ with x0 := hx } }
  case setDynamics.setDynamics =>
    obtain ⟨rfl, hA, hB, hd⟩ := ho
    exact ResR.ok { h with pss := updR h.pss _ { h.pss _ with A := hA, B := hB, d := hd, isUpdated := rfl } }
  case updatePs.updatePs =>
    cases ho
    exact ResR.map (ResR.ofOption (updateSystemR S (h.pss _))) fun _ _ k => { h with pss := updR h.pss _ k }
  case spanConstr.spanConstr =>
    obtain ⟨rfl, hj⟩ := ho
    exact ResR.map ((h.cons _).autoSpan S hj) fun _ _ k => { h with cons := updR h.cons _ k }
  case initConstr.initConstr =>
    obtain ⟨rfl, rfl, hj⟩ := ho
    exact ResR.map ((h.cons _).initializeConstraint S hj (h.pss _)) fun _ _ k => { h with cons := updR h.cons _ k }
  case updateConstr.updateConstr =>
    obtain ⟨rfl, rfl⟩ := ho
    exact ResR.map (ResR.ofOption ((h.cons _).update S (h.pss _))) fun _ _ k => { h with cons := updR h.cons _ k }
  case spanCost.spanCost =>
    obtain ⟨rfl, hj⟩ := ho
    exact ResR.map ((h.costs _).autoSpan S hj) fun _ _ k => { h with costs := updR h.costs _ k }
  case weights.weights =>
    obtain ⟨rfl, hw⟩ := ho
    exact ResR.map ((h.costs _).setWeights hw) fun _ _ k => { h with costs := updR h.costs _ k }
  case weight.weight =>
    obtain ⟨rfl, hw⟩ := ho
    exact ResR.ok { h with costs := updR h.costs _ ((h.costs _).setWeight hw) }
  case initCost.initCost =>
    obtain ⟨rfl, rfl, hj⟩ := ho
    exact ResR.map ((h.costs _).initializeCost S hj (h.pss _)) fun _ _ k => { h with costs := updR h.costs _ k }
  case updateCost.updateCost =>
    obtain ⟨rfl, rfl⟩ := ho
    exact ResR.map (ResR.ofOption ((h.costs _).update S (h.pss _))) fun _ _ k => { h with costs := updR h.costs _ k }
  case refsConstr.refsConstr =>
    obtain ⟨rfl, rfl⟩ := ho
    exact ResR.ok { h with extCons := by rw [h.extCons] }
  case refsCost.refsCost =>
    obtain ⟨rfl, rfl⟩ := ho
    exact ResR.ok { h with extCosts := by rw [h.extCosts] }
  case construct.construct =>
    obtain ⟨rfl, hs⟩ := ho
    exact ResR.ok { h with ctl := CtlR.construct S _ hs }
  case constructPs.constructPs =>
    obtain ⟨rfl, hs, rfl, hj⟩ := ho
    exact ResR.map (ResR.ofOption (((CtlR.construct S _ hs).seedInit S (h.pss _)).initializeController S hd hj _ (h.pss _)))
      fun _ _ k => { h with ctl := k }
  case useSolver.useSolver => exact ResR.ok { h with ctl := { h.ctl with sol := ho } }
  case initializeController.initializeController =>
    obtain ⟨rfl, hj⟩ := ho
    exact ResR.map (ResR.ofOption (h.ctl.initializeController S hd hj _ (h.pss _))) fun _ _ k => { h with ctl := k }
  case addCost.addCost =>
    obtain ⟨rfl, hj⟩ := ho
    exact h.addCost S hj _
  case addConstraint.addConstraint =>
    obtain ⟨rfl, hj⟩ := ho
    exact h.addConstraint S hj _
  case removeCost.removeCost =>
    cases ho
    exact ResR.ok { h with ctl := { h.ctl with spCost := congrArg (fun l => List.erase l _) h.ctl.spCost } }
  case removeConstraint.removeConstraint =>
    cases ho
    exact ResR.map (ResR.ofOption (h.ctl.removeConstraint _ (h.cons _))) fun _ _ k => { h with ctl := k }
  case clearCosts.clearCosts => exact ResR.ok { h with ctl := { h.ctl with spCost := rfl } }
  case clearConstraints.clearConstraints => exact ResR.ofOption (h.clearConstraints S hd)
  case resetInitialStateCost.resetInitialStateCost => exact ResR.ok { h with ctl := { h.ctl with R := ho.1, r := ho.2 } }
  case resetInitialStateBounds.resetInitialStateBounds => exact ResR.ok { h with ctl := { h.ctl with x0lb := ho.1, x0ub := ho.2 } }
  case solve.solve => exact ResR.ofOption (OptR.map (h.solve S ho) fun _ _ k => k.world)

end WorldR
end Copra.Spec
