import Verif.Proofs.Param

set_option linter.unusedSectionVars false

namespace Copra.Spec
variable {K L : Type} [Zero K] [One K] [Add K] [Sub K] [Neg K] [Mul K] [Arith K]
  [Zero L] [One L] [Add L] [Sub L] [Neg L] [Mul L] [Arith L] {rel : K → L → Prop}

/-! ## Constraints -/

namespace ConstrR
variable {c : Constr K} {c' : Constr L} {p : PreviewSystem K} {p' : PreviewSystem L} {j : Junk K} {j' : Junk L}

theorem constraintType (h : ConstrR rel c c') : c.constraintType = c'.constraintType := by
  unfold Constr.constraintType
  rw [h.kind, h.isIneq]

theorem finiteLines {f : Ext K → Bool} {g : Ext L → Bool} (hfg : ∀ x y, ExtR rel x y → f x = g y) {u : Vec (Ext K)} {v : Vec (Ext L)}
    (h : VecR (ExtR rel) u v) : Constr.finiteLines f u = Constr.finiteLines g v := by
  unfold Constr.finiteLines
  rw [h.rows]
  congr 1
  funext i
  rw [hfg _ _ (h.e i)]

theorem fresh (S : ScalarRel rel) (k : CKind) (b : Bool) : ConstrR rel (Constr.fresh k b) (Constr.fresh k b) :=
  ⟨rfl, rfl, rfl, rfl, rfl, .empty S, .empty S, .nil, .nil, .nil, rfl, rfl, .empty S, .nil, .empty S, .nil, .nil, .nil⟩

theorem autoSpan (S : ScalarRel rel) (h : ConstrR rel c c') (hj : JunkR rel j j') :
    ResR (ConstrR rel) (c.autoSpan j) (c'.autoSpan j') := by
  unfold Constr.autoSpan
  rw [← h.kind]
  cases c.kind
  · exact ResR.andThen (ResR.map (spanMatrixR S h.E (by rw [h.E.rows, h.f.rows]) 0) fun _ _ hE => { h with E := hE }) fun _ _ h1 =>
      ResR.map (spanVectorR h1.f (hj.x 0) (by rw [h.E.rows, h.f.rows])) fun _ _ hf => { h1 with f := hf }
  · exact ResR.andThen (ResR.map (spanMatrixR S h.G (by rw [h.G.rows, h.f.rows]) 0) fun _ _ hE => { h with G := hE }) fun _ _ h1 =>
      ResR.map (spanVectorR h1.f (hj.x 0) (by rw [h.G.rows, h.f.rows])) fun _ _ hf => { h1 with f := hf }
  · have e : max c.f.rows (max c.E.rows c.G.rows) = max c'.f.rows (max c'.E.rows c'.G.rows) := by
      rw [h.E.rows, h.f.rows, h.G.rows]
    exact ResR.andThen (ResR.map (spanMatrixR S h.E e 1) fun _ _ hE => { h with E := hE }) fun _ _ h1 =>
      ResR.andThen (ResR.map (spanMatrixR S h1.G e 0) fun _ _ hE => { h1 with G := hE }) fun _ _ h1 =>
      ResR.map (spanVectorR h1.f (hj.x 0) e) fun _ _ hf => { h1 with f := hf }
  · have e : max c.lower.rows c.upper.rows = max c'.lower.rows c'.upper.rows := by rw [h.lower.rows, h.upper.rows]
    refine ResR.andThen (ResR.map (spanVectorR h.lower (hj.x 0) e) fun _ _ hf => { h with lower := hf }) fun _ _ h1 =>
      ResR.andThen (ResR.map (spanVectorR h1.upper (hj.x 1) e) fun _ _ hf => { h1 with upper := hf }) fun a b h2 => ResR.ok ?_
    have k : ConstrR rel
        (if a.lower.rows ≠ max c.lower.rows c.upper.rows then { a with lowerLines := Constr.finiteLines Ext.isNinf a.lower } else a)
        (if b.lower.rows ≠ max c'.lower.rows c'.upper.rows then { b with lowerLines := Constr.finiteLines Ext.isNinf b.lower } else b) := by
      rw [e, h2.lower.rows]
      split
      · exact { h2 with lowerLines := finiteLines (fun _ _ => ExtR.isNinf) h2.lower }
      · exact h2
    generalize (if a.lower.rows ≠ max c.lower.rows c.upper.rows then { a with lowerLines := Constr.finiteLines Ext.isNinf a.lower } else a) = a1 at k ⊢
    generalize (if b.lower.rows ≠ max c'.lower.rows c'.upper.rows then { b with lowerLines := Constr.finiteLines Ext.isNinf b.lower } else b) = b1 at k ⊢
    rw [e, k.upper.rows]
    split
    · exact { k with upperLines := finiteLines (fun _ _ => ExtR.isPinf) k.upper }
    · exact k
  · have e : max c.lower.rows c.upper.rows = max c'.lower.rows c'.upper.rows := by rw [h.lower.rows, h.upper.rows]
    exact ResR.andThen (ResR.map (spanVectorR h.lower (hj.x 0) e) fun _ _ hf => { h with lower := hf }) fun _ _ h1 =>
      ResR.map (spanVectorR h1.upper (hj.x 1) e) fun _ _ hf => { h1 with upper := hf }

theorem allocRows (h : ConstrR rel c c') (hj : JunkR rel j j') (hp : PsR rel p p') {n n' : Nat} (hn : n = n') :
    OptR (ConstrR rel) (c.allocRows j p n) (c'.allocRows j' p' n') :=
  OptR.bind (chkIntR hn) fun _ _ e => OptR.pure { h with
    nrConstr := e, A := .resize e hp.fullUDim (hj.m 0), b := .resize e (hj.x 0), Y := .resize e hp.xDim (hj.m 1), z := .resize e (hj.x 1) }

theorem initializeConstraint (S : ScalarRel rel) (h : ConstrR rel c c') (hj : JunkR rel j j') (hp : PsR rel p p') :
    ResR (ConstrR rel) (c.initializeConstraint j p) (c'.initializeConstraint j' p') := by
  have h2 : ConstrR rel { c with fullSizeEntry := true } { c' with fullSizeEntry := true } := { h with fullSizeEntry := rfl }
  unfold Constr.initializeConstraint
  rw [← h.kind]
  cases c.kind
  · exact ResR.ite (by rw [h.E.rows, h.f.rows]) (fun _ _ => ResR.thrown h) fun _ _ =>
      ResR.ite (by rw [h.E.cols, hp.xDim]) (fun _ _ => ResR.ofOption (h.allocRows hj hp (by rw [h.E.rows, hp.nrXStep]))) fun _ _ =>
      ResR.ite (by rw [h.E.cols, hp.fullXDim])
        (fun _ _ => ResR.ofOption (h2.allocRows hj hp h.E.rows)) fun _ _ => ResR.thrown h
  · refine ResR.ite (by rw [h.hasBeenInitialized]) (fun _ _ => ResR.thrown h) fun _ _ =>
      ResR.ite (by rw [h.G.rows, h.f.rows]) (fun _ _ => ResR.thrown h) fun _ _ =>
      ResR.ite (by rw [h.G.cols, hp.uDim]) (fun _ _ => ResR.ofOption (OptR.bind (chkIntR (by rw [h.G.rows, hp.nrUStep])) fun _ _ e =>
        OptR.pure { h with
          nrConstr := e, A := .zero S e hp.fullUDim, b := .resize e (hj.x 0), Y := .zero S e hp.xDim, z := .resize e (hj.x 0),
          hasBeenInitialized := rfl })) fun _ _ =>
      ResR.ite (by rw [h.G.cols, hp.fullUDim]) (fun _ _ => ResR.ofOption (OptR.bind (chkIntR h.G.rows) fun _ _ e =>
        OptR.pure { h with
          fullSizeEntry := rfl, nrConstr := e, A := h.G, G := h.A, b := h.f, f := h.b, Y := .zero S e hp.xDim, z := h.f,
          hasBeenInitialized := rfl })) fun _ _ => ResR.thrown h
  · exact ResR.ite (by rw [h.E.rows, h.f.rows]) (fun _ _ => ResR.thrown h) fun _ _ =>
      ResR.ite (by rw [h.G.rows, h.f.rows]) (fun _ _ => ResR.thrown h) fun _ _ =>
      ResR.ite (by rw [h.E.cols, hp.xDim, h.G.cols, hp.uDim]) (fun _ _ => ResR.ofOption
        (OptR.bind (h.allocRows hj hp (by rw [h.E.rows, hp.nrUStep])) fun _ _ h1 =>
          OptR.pure { h1 with A := .zero S h1.nrConstr hp.fullUDim, Y := .zero S h1.nrConstr hp.xDim })) fun _ _ =>
      ResR.ite (by rw [h.E.cols, hp.fullXDim, h.G.cols, hp.fullUDim]) (fun _ _ => ResR.ofOption
        (OptR.bind (h2.allocRows hj hp h.E.rows) fun _ _ h1 =>
          OptR.pure { h1 with A := .zero S h1.nrConstr hp.fullUDim, Y := .zero S h1.nrConstr hp.xDim })) fun _ _ =>
      ResR.thrown h
  · exact ResR.ite (by rw [h.lower.rows, h.upper.rows]) (fun _ _ => ResR.thrown h) fun _ _ =>
      ResR.ite (by rw [h.lower.rows, hp.xDim]) (fun _ _ => ResR.ofOption
        (h.allocRows hj hp (by rw [h.lowerLines, h.upperLines, hp.nrXStep]))) fun _ _ =>
      ResR.ite (by rw [h.lower.rows, hp.fullXDim]) (fun _ _ => ResR.ofOption
        (h2.allocRows hj hp (by rw [h.lowerLines, h.upperLines]))) fun _ _ => ResR.thrown h
  · exact ResR.ite (by rw [h.hasBeenInitialized]) (fun _ _ => ResR.thrown h) fun _ _ =>
      ResR.ite (by rw [h.lower.rows, h.upper.rows]) (fun _ _ => ResR.thrown h) fun _ _ =>
      ResR.ite (by rw [h.lower.rows, hp.uDim]) (fun _ _ => ResR.ok { h with
        nrConstr := hp.fullUDim, lb := .resize hp.fullUDim (hj.x 0), ub := .resize hp.fullUDim (hj.x 1),
        hasBeenInitialized := rfl }) fun _ _ =>
      ResR.ite (by rw [h.lower.rows, hp.fullUDim]) (fun _ _ => ResR.ofOption (OptR.bind (chkIntR h.lower.rows) fun _ _ e =>
        OptR.pure { h with
          fullSizeEntry := rfl, nrConstr := e, lb := h.lower, lower := h.lb, ub := h.upper, upper := h.ub,
          hasBeenInitialized := rfl })) fun _ _ => ResR.thrown h

theorem updateFullYzb (S : ScalarRel rel) (hp : PsR rel p p') (h : ConstrR rel c c') :
    OptR (ConstrR rel) (c.updateFullYzb p) (c'.updateFullYzb p') :=
  OptR.bind (h.E.mul? S hp.Phi) fun _ _ hY => OptR.bind (h.E.mulVec? S hp.xi) fun _ _ h1 =>
  OptR.bind (h.f.subFin? S h1) fun _ _ hz => OptR.bind (hY.mulVec? S hp.x0) fun _ _ h2 =>
  OptR.bind (hz.subFin? S h2) fun _ _ hb => OptR.pure { h with Y := hY, z := hz, b := hb }

theorem updateStepYzb (S : ScalarRel rel) (hp : PsR rel p p') (i : Nat) (h : ConstrR rel c c') :
    OptR (ConstrR rel) (c.updateStepYzb p i) (c'.updateStepYzb p' i) := by
  have hx := hp.xDim
  have hn := h.E.rows
  exact OptR.bind (hp.Phi.block? (by rw [hx]) rfl hx hx) fun _ _ h1 => OptR.bind (h.E.mul? S h1) fun _ _ h2 =>
    OptR.bind (h.Y.setBlock? (by rw [hn]) rfl hn hx h2) fun _ _ hY => OptR.bind (hp.xi.segment? (by rw [hx]) hx) fun _ _ h3 =>
    OptR.bind (h.E.mulVec? S h3) fun _ _ h4 => OptR.bind (h.f.subFin? S h4) fun _ _ h5 =>
    OptR.bind (h.z.setSegment? (by rw [hn]) hn h5) fun _ _ hz => OptR.bind (hz.segment? (by rw [hn]) hn) fun _ _ h6 =>
    OptR.bind (hY.block? (by rw [hn]) rfl hn hx) fun _ _ h7 => OptR.bind (h7.mulVec? S hp.x0) fun _ _ h8 =>
    OptR.bind (h6.subFin? S h8) fun _ _ h9 => OptR.bind (h.b.setSegment? (by rw [hn]) hn h9) fun _ _ hb =>
    OptR.pure { h with Y := hY, z := hz, b := hb }

theorem updateTrajectory (S : ScalarRel rel) (hp : PsR rel p p') (h : ConstrR rel c c') :
    OptR (ConstrR rel) (c.updateTrajectory p) (c'.updateTrajectory p') := by
  refine OptR.ite (by rw [h.fullSizeEntry]) (fun _ _ => OptR.bind (h.E.mul? S hp.Psi) fun _ _ hA =>
    updateFullYzb S hp { h with A := hA }) fun _ _ => OptR.loop rfl hp.nrXStep (fun i a b h => ?_) h
  have hx := hp.xDim
  have hn := h.E.rows
  exact OptR.bind (hp.Psi.block? (by rw [hx]) rfl hx hp.fullUDim) fun _ _ h1 => OptR.bind (h.E.mul? S h1) fun _ _ h2 =>
    OptR.bind (h.A.setBlock? (by rw [hn]) rfl hn hp.fullUDim h2) fun _ _ hA => updateStepYzb S hp i { h with A := hA }

theorem updateControl (S : ScalarRel rel) (hp : PsR rel p p') (h : ConstrR rel c c') :
    OptR (ConstrR rel) (c.updateControl p) (c'.updateControl p') := by
  refine OptR.ite (by rw [h.fullSizeEntry]) (fun _ _ => OptR.pure h) fun _ _ =>
    OptR.bind (OptR.loop rfl hp.nrUStep (fun i a b h => ?_) h) fun _ _ h1 =>
    OptR.pure { h1 with Y := .zero S h1.Y.rows h1.Y.cols, z := h1.b }
  have hn := h.G.rows
  exact OptR.bind (h.A.setBlock? (by rw [hn]) (by rw [hp.uDim]) hn hp.uDim h.G) fun _ _ hA =>
    OptR.bind (h.b.setSegment? (by rw [hn]) hn h.f) fun _ _ hb => OptR.pure { h with A := hA, b := hb }

theorem updateMixed (S : ScalarRel rel) (hp : PsR rel p p') (h : ConstrR rel c c') :
    OptR (ConstrR rel) (c.updateMixed p) (c'.updateMixed p') := by
  have hx := hp.xDim
  have hu := hp.uDim
  refine OptR.ite (by rw [h.fullSizeEntry]) (fun _ _ => OptR.bind (h.E.mul? S hp.Psi) fun _ _ h1 =>
    OptR.bind (h1.add? S h.G) fun _ _ hA => updateFullYzb S hp { h with A := hA }) fun _ _ =>
    OptR.bind (r := ConstrR rel) ?_ fun a b h => OptR.loop rfl hp.nrUStep (fun i a b h => ?_) h
  · have hn := h.E.rows
    exact OptR.bind (h.A.setBlock? rfl rfl hn hu h.G) fun _ _ hA => OptR.bind (h.Y.setBlock? rfl rfl hn hx h.E) fun _ _ hY =>
      OptR.bind (h.z.setSegment? rfl hn h.f) fun _ _ hz => OptR.bind (hz.segment? rfl hn) fun _ _ h1 =>
      OptR.bind (hY.block? rfl rfl hn hx) fun _ _ h2 => OptR.bind (h2.mulVec? S hp.x0) fun _ _ h3 =>
      OptR.bind (h1.subFin? S h3) fun _ _ h4 => OptR.bind (h.b.setSegment? rfl hn h4) fun _ _ hb =>
      OptR.pure { h with A := hA, Y := hY, z := hz, b := hb }
  · have hn := h.E.rows
    exact OptR.bind (hp.Psi.block? (by rw [hx]) rfl hx hu) fun _ _ h1 => OptR.bind (h.E.mul? S h1) fun _ _ h2 =>
      OptR.bind (h.A.setBlock? (by rw [hn]) rfl hn hu h2) fun _ _ h3 =>
      OptR.bind (OptR.loop rfl rfl (fun j _ _ h => OptR.bind (h.block? (by rw [hn]) (by rw [hu]) hn hu) fun _ _ h4 =>
        h.setBlock? (by rw [hn]) (by rw [hu]) hn hu h4) h3) fun _ _ hA => updateStepYzb S hp i { h with A := hA }

/-- (`nrLines`, object) -/
def PairR (rel : K → L → Prop) (s : Nat × Constr K) (t : Nat × Constr L) : Prop := s.1 = t.1 ∧ ConstrR rel s.2 t.2

theorem updateTrajBoundLines (S : ScalarRel rel) (hp : PsR rel p p') {u : Vec (Ext K)} {v : Vec (Ext L)} (hb : VecR (ExtR rel) u v)
    {l l' : List Nat} (hl : l = l') (i : Nat) (s : Nat × Constr K) (t : Nat × Constr L) (h : PairR rel s t) :
    OptR (PairR rel) (Constr.updateTrajBoundLines p u l i s) (Constr.updateTrajBoundLines p' v l' i t) := by
  subst hl
  refine OptR.foldlM _ (fun s t line h => ?_) h
  obtain ⟨n, c⟩ := s
  obtain ⟨n', c'⟩ := t
  obtain ⟨hn, h⟩ := h
  have e : line + p.xDim * i = line + p'.xDim * i := by rw [hp.xDim]
  exact OptR.bind (hp.Psi.row? e) fun _ _ h1 => OptR.bind (h.A.setRow? hn h1) fun _ _ hA =>
    OptR.bind (hp.Phi.row? e) fun _ _ h2 => OptR.bind (h.Y.setRow? hn h2) fun _ _ hY =>
    OptR.bind (hb.at? rfl) fun _ _ h3 => OptR.bind (hp.xi.at? e) fun _ _ h4 =>
    OptR.bind (h.z.setAt? hn (h3.sub S h4)) fun _ _ hz => OptR.bind (hz.at? hn) fun _ _ h5 =>
    OptR.bind (hY.row? hn) fun _ _ h6 => OptR.bind (h6.dot? S hp.x0) fun _ _ h7 =>
    OptR.bind (h.b.setAt? hn (h5.sub S h7)) fun _ _ hb =>
    OptR.pure ⟨congrArg (· + 1) hn, { h with A := hA, Y := hY, z := hz, b := hb }⟩

theorem updateTrajBound (S : ScalarRel rel) (hp : PsR rel p p') (h : ConstrR rel c c') :
    OptR (ConstrR rel) (c.updateTrajBound p) (c'.updateTrajBound p') := by
  have e : (if c.fullSizeEntry then min 1 p.nrXStep else p.nrXStep) = (if c'.fullSizeEntry then min 1 p'.nrXStep else p'.nrXStep) := by
    rw [h.fullSizeEntry, hp.nrXStep]
  exact OptR.bind (OptR.loop (r := PairR rel) rfl e (fun i s t hst => updateTrajBoundLines S hp h.lower h.lowerLines i s t hst) ⟨rfl, h⟩)
    fun _ _ h1 => OptR.bind (OptR.loop rfl e (fun i s t hst => updateTrajBoundLines S hp h.upper h.upperLines i s t hst) h1)
    fun _ _ h2 => OptR.pure h2.2

theorem update (S : ScalarRel rel) (hp : PsR rel p p') (h : ConstrR rel c c') :
    OptR (ConstrR rel) (c.update p) (c'.update p') := by
  unfold Constr.update
  rw [← h.kind]
  cases c.kind
  · exact updateTrajectory S hp h
  · exact updateControl S hp h
  · exact updateMixed S hp h
  · exact updateTrajBound S hp h
  · exact OptR.ite (by rw [h.fullSizeEntry]) (fun _ _ => OptR.pure h) fun _ _ =>
      OptR.loop rfl hp.nrUStep (fun i _ _ h => OptR.bind (h.ub.setSegment? (by rw [hp.uDim]) hp.uDim h.upper) fun _ _ hu =>
        OptR.bind (h.lb.setSegment? (by rw [hp.uDim]) hp.uDim h.lower) fun _ _ hl => OptR.pure { h with ub := hu, lb := hl }) h

end ConstrR

/-! ## Costs -/

namespace CostR
variable {c : Cost K} {c' : Cost L} {p : PreviewSystem K} {p' : PreviewSystem L} {j : Junk K} {j' : Junk L}

theorem construct (S : ScalarRel rel) (k : CostKind) {M N : Mat K} {M' N' : Mat L} {q : Vec K} {q' : Vec L} (hM : MatR rel M M')
    (hN : MatR rel N N') (hq : VecR rel q q') : CostR rel (Cost.construct k M N q) (Cost.construct k M' N' q') :=
  ⟨rfl, rfl, hM, hN, hq, .const hq.rows S.one, .empty S, .zero S rfl, .empty S, .zero S rfl⟩

theorem setWeights (h : CostR rel c c') {w : Vec K} {w' : Vec L} (hw : VecR rel w w') :
    ResR (CostR rel) (c.setWeights w) (c'.setWeights w') :=
  ResR.ite (by rw [hw.rows, h.weights.rows]) (fun _ _ => ResR.ok { h with weights := hw }) fun _ _ =>
  ResR.ite (by rw [hw.rows]) (fun _ _ => trivial) fun _ _ =>
  ResR.ite (by rw [hw.rows, h.weights.rows]) (fun _ _ => ResR.ofOption (OptR.map (OptR.loop rfl (by rw [hw.rows, h.weights.rows])
    (fun i _ _ h => h.setSegment? (by rw [hw.rows]) hw.rows hw) h.weights) fun _ _ hv => { h with weights := hv })) fun _ _ =>
  ResR.thrown h

theorem setWeight (h : CostR rel c c') {a : K} {a' : L} (ha : rel a a') : CostR rel (c.setWeight a) (c'.setWeight a') :=
  { h with weights := .const h.weights.rows ha }

theorem autoSpan (S : ScalarRel rel) (h : CostR rel c c') (hj : JunkR rel j j') :
    ResR (CostR rel) (c.autoSpan j) (c'.autoSpan j') := by
  unfold Cost.autoSpan
  rw [← h.kind]
  cases c.kind
  · have e : max c.M.rows (max c.weights.rows c.p.rows) = max c'.M.rows (max c'.weights.rows c'.p.rows) := by
      rw [h.M.rows, h.weights.rows, h.p.rows]
    exact ResR.andThen (ResR.map (spanMatrixR S h.M e 0) fun _ _ hM => { h with M := hM }) fun _ _ h =>
      ResR.andThen (ResR.map (spanVectorR h.p (hj.v 0) e) fun _ _ hM => { h with p := hM }) fun _ _ h =>
      ResR.map (spanVectorR h.weights (hj.v 1) e) fun _ _ hM => { h with weights := hM }
  · exact h
  · have e : max c.N.rows (max c.weights.rows c.p.rows) = max c'.N.rows (max c'.weights.rows c'.p.rows) := by
      rw [h.N.rows, h.weights.rows, h.p.rows]
    exact ResR.andThen (ResR.map (spanMatrixR S h.N e 0) fun _ _ hM => { h with N := hM }) fun _ _ h =>
      ResR.andThen (ResR.map (spanVectorR h.p (hj.v 0) e) fun _ _ hM => { h with p := hM }) fun _ _ h =>
      ResR.map (spanVectorR h.weights (hj.v 1) e) fun _ _ hM => { h with weights := hM }
  · have e : max c.M.rows (max c.N.rows (max c.weights.rows c.p.rows)) = max c'.M.rows (max c'.N.rows (max c'.weights.rows c'.p.rows)) := by
      rw [h.M.rows, h.N.rows, h.weights.rows, h.p.rows]
    exact ResR.andThen (ResR.map (spanMatrixR S h.M e 1) fun _ _ hM => { h with M := hM }) fun _ _ h =>
      ResR.andThen (ResR.map (spanMatrixR S h.N e 0) fun _ _ hM => { h with N := hM }) fun _ _ h =>
      ResR.andThen (ResR.map (spanVectorR h.p (hj.v 0) e) fun _ _ hM => { h with p := hM }) fun _ _ h =>
      ResR.map (spanVectorR h.weights (hj.v 1) e) fun _ _ hM => { h with weights := hM }

theorem allocBase (h : CostR rel c c') (hj : JunkR rel j j') (hp : PsR rel p p') : CostR rel (c.allocBase j p) (c'.allocBase j' p') :=
  { h with
    Q := .resize hp.fullUDim hp.fullUDim (hj.m 0), c := .resize hp.fullUDim (hj.v 0)
    E := .resize hp.xDim hp.fullUDim (hj.m 1), f := .resize hp.fullUDim (hj.v 1) }

theorem zeroAll (S : ScalarRel rel) (h : CostR rel c c') : CostR rel c.zeroAll c'.zeroAll :=
  { h with Q := .zero S h.Q.rows h.Q.cols, c := .zero S h.c.rows, E := .zero S h.E.rows h.E.cols, f := .zero S h.f.rows }

theorem initializeCost (S : ScalarRel rel) (h : CostR rel c c') (hj : JunkR rel j j') (hp : PsR rel p p') :
    ResR (CostR rel) (c.initializeCost j p) (c'.initializeCost j' p') := by
  unfold Cost.initializeCost
  rw [← h.kind]
  have h1 := h.allocBase hj hp
  cases c.kind
  · exact ResR.ite (by rw [h1.M.rows, h1.p.rows]) (fun _ _ => ResR.thrown h1) fun _ _ =>
      ResR.ite (by rw [h1.M.cols, hp.xDim]) (fun _ _ => ResR.ok (h1.zeroAll S)) fun _ _ =>
      ResR.ite (by rw [h1.M.cols, hp.fullXDim]) (fun _ _ => ResR.ok { h1 with fullSizeEntry := rfl }) fun _ _ => ResR.thrown h1
  · exact ResR.ite (by rw [h1.M.rows, h1.p.rows]) (fun _ _ => ResR.thrown h1) fun _ _ =>
      ResR.ite (by rw [h1.M.cols, hp.xDim]) (fun _ _ => ResR.thrown h1) fun _ _ => h1
  · exact ResR.ite (by rw [h1.N.rows, h1.p.rows]) (fun _ _ => ResR.thrown h1) fun _ _ =>
      ResR.ite (by rw [h1.N.cols, hp.uDim]) (fun _ _ => ResR.ok
        { h1 with Q := .zero S h1.Q.rows h1.Q.cols, E := .zero S h1.E.rows h1.E.cols }) fun _ _ =>
      ResR.ite (by rw [h1.N.cols, hp.fullUDim]) (fun _ _ => ResR.ok { h1 with fullSizeEntry := rfl }) fun _ _ => ResR.thrown h1
  · exact ResR.ite (by rw [h1.M.rows, h1.p.rows]) (fun _ _ => ResR.thrown h1) fun _ _ =>
      ResR.ite (by rw [h1.N.rows, h1.p.rows]) (fun _ _ => ResR.thrown h1) fun _ _ =>
      ResR.ite (by rw [h1.M.cols, hp.xDim, h1.N.cols, hp.uDim]) (fun _ _ => ResR.ok (h1.zeroAll S)) fun _ _ =>
      ResR.ite (by rw [h1.M.cols, hp.fullXDim, h1.N.cols, hp.fullUDim]) (fun _ _ => ResR.ok { h1 with fullSizeEntry := rfl })
        fun _ _ => ResR.thrown h1

theorem wquad (S : ScalarRel rel) {A B : Mat K} {A' B' : Mat L} (hA : MatR rel A A') {w : Vec K} {w' : Vec L} (hw : VecR rel w w')
    (hB : MatR rel B B') : OptR (MatR rel) (Cost.wquad A w B) (Cost.wquad A' w' B') :=
  OptR.bind (hA.transpose.mulDiag? S hw) fun _ _ h => h.mul? S hB

theorem wlin (S : ScalarRel rel) {v w : Vec K} {v' w' : Vec L} {B : Mat K} {B' : Mat L} (hv : VecR rel v v') (hw : VecR rel w w')
    (hB : MatR rel B B') : OptR (VecR rel) (Cost.wlin v w B) (Cost.wlin v' w' B') :=
  OptR.bind (hv.cmul? S hw) fun _ _ h => MatR.vecMul? S h hB

/-- (`Q`, `E`, `f`) -/
def TripleR (rel : K → L → Prop) (s : Mat K × Mat K × Vec K) (t : Mat L × Mat L × Vec L) : Prop :=
  MatR rel s.1 t.1 ∧ MatR rel s.2.1 t.2.1 ∧ VecR rel s.2.2 t.2.2

theorem terms (S : ScalarRel rel) (h : CostR rel c c') {T P : Mat K} {T' P' : Mat L} {x : Vec K} {x' : Vec L} (hT : MatR rel T T')
    (hP : MatR rel P P') (hx : VecR rel x x') : OptR (TripleR rel) (c.terms T P x) (c'.terms T' P' x') :=
  OptR.bind (wquad S hT h.weights hT) fun _ _ hQ => OptR.bind (h.M.mul? S hP) fun _ _ h1 =>
  OptR.bind (wquad S h1 h.weights hT) fun _ _ hE => OptR.bind (h.M.mulVec? S hx) fun _ _ h2 =>
  OptR.bind (h2.sub? S h.p) fun _ _ h3 => OptR.bind (wlin S h3 h.weights hT) fun _ _ hf => OptR.pure ⟨hQ, hE, hf⟩

theorem linPart (S : ScalarRel rel) (hp : PsR rel p p') (h : CostR rel c c') : OptR (VecR rel) (c.linPart p) (c'.linPart p') :=
  OptR.bind (h.E.transpose.mulVec? S hp.x0) fun _ _ h1 => h1.add? S h.f

theorem assignTerms (S : ScalarRel rel) (hp : PsR rel p p') (h : CostR rel c c') {T P : Mat K} {T' P' : Mat L} {x : Vec K} {x' : Vec L}
    (hT : MatR rel T T') (hP : MatR rel P P') (hx : VecR rel x x') :
    OptR (CostR rel) (c.assignTerms p T P x) (c'.assignTerms p' T' P' x') :=
  OptR.bind (terms S h hT hP hx) fun ⟨_, _, _⟩ ⟨_, _, _⟩ h1 =>
  have h2 := { h with Q := h1.1, E := h1.2.1, f := h1.2.2 }
  OptR.bind (linPart S hp h2) fun _ _ hl => OptR.pure { h2 with c := hl }

theorem accumTerms (S : ScalarRel rel) (h : CostR rel c c') {T P : Mat K} {T' P' : Mat L} {x : Vec K} {x' : Vec L}
    (hT : MatR rel T T') (hP : MatR rel P P') (hx : VecR rel x x') :
    OptR (CostR rel) (c.accumTerms T P x) (c'.accumTerms T' P' x') :=
  OptR.bind (terms S h hT hP hx) fun ⟨_, _, _⟩ ⟨_, _, _⟩ h1 => OptR.bind (h.Q.add? S h1.1) fun _ _ hQ =>
  OptR.bind (h.E.add? S h1.2.1) fun _ _ hE => OptR.bind (h.f.add? S h1.2.2) fun _ _ hf =>
  OptR.pure { h with Q := hQ, E := hE, f := hf }

theorem bottomRows? {A : Mat K} {B : Mat L} (h : MatR rel A B) {n n' : Nat} (hn : n = n') :
    OptR (MatR rel) (Cost.bottomRows? A n) (Cost.bottomRows? B n') :=
  OptR.ite (by rw [h.rows, hn]) (fun _ _ => h.block? (by rw [h.rows, hn]) rfl hn h.cols) fun _ _ => trivial

theorem bottomSeg? {u : Vec K} {v : Vec L} (h : VecR rel u v) {n n' : Nat} (hn : n = n') :
    OptR (VecR rel) (Cost.bottomSeg? u n) (Cost.bottomSeg? v n') :=
  OptR.ite (by rw [h.rows, hn]) (fun _ _ => h.segment? (by rw [h.rows, hn]) hn) fun _ _ => trivial

theorem updateTrajectoryStep (S : ScalarRel rel) (hp : PsR rel p p') (i : Nat) (h : CostR rel c c') :
    OptR (CostR rel) (c.updateTrajectoryStep p i) (c'.updateTrajectoryStep p' i) :=
  OptR.bind (hp.Psi.block? (by rw [hp.xDim]) rfl hp.xDim hp.fullUDim) fun _ _ h1 => OptR.bind (h.M.mul? S h1) fun _ _ hT =>
  OptR.bind (hp.Phi.block? (by rw [hp.xDim]) rfl hp.xDim hp.xDim) fun _ _ hP =>
  OptR.bind (hp.xi.segment? (by rw [hp.xDim]) hp.xDim) fun _ _ hs => accumTerms S h hT hP hs

theorem updateTrajectory (S : ScalarRel rel) (hp : PsR rel p p') (h : CostR rel c c') :
    OptR (CostR rel) (c.updateTrajectory p) (c'.updateTrajectory p') :=
  OptR.ite (by rw [h.fullSizeEntry]) (fun _ _ => OptR.bind (h.M.mul? S hp.Psi) fun _ _ hT => assignTerms S hp h hT hp.Phi hp.xi)
    fun _ _ => OptR.bind (OptR.loop rfl hp.nrXStep (fun i _ _ h => updateTrajectoryStep S hp i h) h) fun _ _ h =>
      OptR.bind (linPart S hp h) fun _ _ hl => OptR.pure { h with c := hl }

theorem updateTarget (S : ScalarRel rel) (hp : PsR rel p p') (h : CostR rel c c') :
    OptR (CostR rel) (c.updateTarget p) (c'.updateTarget p') :=
  OptR.bind (bottomRows? hp.Psi hp.xDim) fun _ _ h1 => OptR.bind (h.M.mul? S h1) fun _ _ hT =>
  OptR.bind (bottomRows? hp.Phi hp.xDim) fun _ _ hP => OptR.bind (bottomSeg? hp.xi hp.xDim) fun _ _ hs => assignTerms S hp h hT hP hs

theorem updateControlStep (S : ScalarRel rel) (hp : PsR rel p p') {m : Mat K} {m' : Mat L} (hm : MatR rel m m') {v : Vec K} {v' : Vec L}
    (hv : VecR rel v v') (i : Nat) (h : CostR rel c c') :
    OptR (CostR rel) (c.updateControlStep p m v i) (c'.updateControlStep p' m' v' i) := by
  have hu := hp.uDim
  exact OptR.bind (h.Q.setBlock? (by rw [hu]) (by rw [hu]) hu hu hm) fun _ _ hQ =>
    OptR.bind (h.E.setBlock? rfl (by rw [hu]) hp.xDim hu (.zero S hp.xDim hu)) fun _ _ hE =>
    OptR.bind (h.f.setSegment? (by rw [hu]) hu hv) fun _ _ hf => OptR.bind (hf.segment? (by rw [hu]) hu) fun _ _ h1 =>
    OptR.bind (h.c.setSegment? (by rw [hu]) hu h1) fun _ _ hc => OptR.pure { h with Q := hQ, E := hE, f := hf, c := hc }

theorem updateControl (S : ScalarRel rel) (hp : PsR rel p p') (h : CostR rel c c') :
    OptR (CostR rel) (c.updateControl p) (c'.updateControl p') :=
  OptR.ite (by rw [h.fullSizeEntry]) (fun _ _ => OptR.bind (wquad S h.N h.weights h.N) fun _ _ hQ =>
      OptR.bind (wlin S (h.p.neg S) h.weights h.N) fun _ _ hf =>
      OptR.pure { h with Q := hQ, E := .zero S h.E.rows h.E.cols, f := hf, c := hf })
    fun _ _ => OptR.bind (wquad S h.N h.weights h.N) fun _ _ hm => OptR.bind (wlin S (h.p.neg S) h.weights h.N) fun _ _ hv =>
      OptR.loop rfl hp.nrUStep (fun i _ _ h => updateControlStep S hp hm hv i h) h

theorem updateMixedStep (S : ScalarRel rel) (hp : PsR rel p p') (i : Nat) (h : CostR rel c c') :
    OptR (CostR rel) (c.updateMixedStep p i) (c'.updateMixedStep p' i) :=
  OptR.bind (hp.Psi.block? (by rw [hp.xDim]) rfl hp.xDim hp.fullUDim) fun _ _ h1 => OptR.bind (h.M.mul? S h1) fun _ _ h2 =>
  OptR.bind (h2.addBlock? S rfl (by rw [hp.uDim]) h.M.rows hp.uDim h.N) fun _ _ hT =>
  OptR.bind (hp.Phi.block? (by rw [hp.xDim]) rfl hp.xDim hp.xDim) fun _ _ hP =>
  OptR.bind (hp.xi.segment? (by rw [hp.xDim]) hp.xDim) fun _ _ hs => accumTerms S h hT hP hs

theorem updateMixed (S : ScalarRel rel) (hp : PsR rel p p') (h : CostR rel c c') :
    OptR (CostR rel) (c.updateMixed p) (c'.updateMixed p') :=
  OptR.ite (by rw [h.fullSizeEntry]) (fun _ _ => OptR.bind (h.M.mul? S hp.Psi) fun _ _ h1 =>
      OptR.bind (h1.add? S h.N) fun _ _ hT => assignTerms S hp h hT hp.Phi hp.xi)
    fun _ _ => OptR.bind (OptR.loop rfl hp.nrUStep (fun i _ _ h => updateMixedStep S hp i h) h) fun _ _ h =>
      OptR.bind (linPart S hp h) fun _ _ hl => OptR.bind (h.c.add? S hl) fun _ _ hc => OptR.pure { h with c := hc }

theorem update (S : ScalarRel rel) (hp : PsR rel p p') (h : CostR rel c c') :
    OptR (CostR rel) (c.update p) (c'.update p') := by
  unfold Cost.update
  rw [← h.kind]
  cases c.kind
  · exact updateTrajectory S hp h
  · exact updateTarget S hp h
  · exact updateControl S hp h
  · exact updateMixed S hp h

end CostR
end Copra.Spec
