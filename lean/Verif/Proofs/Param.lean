import Verif.SpecParam

/-! # The model respects every relation between scalars that its operations respect -/

set_option linter.unusedSectionVars false

namespace Copra.Spec
variable {K L α β γ δ : Type} [Zero K] [One K] [Add K] [Sub K] [Neg K] [Mul K] [Arith K]
  [Zero L] [One L] [Add L] [Sub L] [Neg L] [Mul L] [Arith L] {rel : K → L → Prop}

/-! ## Options and loops -/

theorem OptR.pure {r : α → β → Prop} {a : α} {b : β} (h : r a b) : OptR r (some a) (some b) := h

theorem OptR.bind {r : α → β → Prop} {s : γ → δ → Prop} {x : Option α} {y : Option β} {f : α → Option γ} {g : β → Option δ}
    (h : OptR r x y) (hf : ∀ a b, r a b → OptR s (f a) (g b)) : OptR s (x >>= f) (y >>= g) := by
  cases x <;> cases y <;> first | exact hf _ _ h | exact h.elim | trivial

theorem OptR.map {r : α → β → Prop} {s : γ → δ → Prop} {x : Option α} {y : Option β} {f : α → γ} {g : β → δ}
    (h : OptR r x y) (hf : ∀ a b, r a b → s (f a) (g b)) : OptR s (x.map f) (y.map g) := by
  cases x <;> cases y <;> first | exact hf _ _ h | exact h

theorem OptR.ite {r : α → β → Prop} {P Q : Prop} [Decidable P] [Decidable Q] (h : P ↔ Q) {x x' : Option α} {y y' : Option β}
    (ht : P → Q → OptR r x y) (hf : ¬ P → ¬ Q → OptR r x' y') : OptR r (if P then x else x') (if Q then y else y') := by
  by_cases hp : P
  · rw [if_pos hp, if_pos (h.1 hp)]; exact ht hp (h.1 hp)
  · rw [if_neg hp, if_neg fun q => hp (h.2 q)]; exact hf hp fun q => hp (h.2 q)

theorem OptR.of_eq {x y : Option α} (h : x = y) : OptR Eq x y := by subst h; cases x <;> first | rfl | trivial

theorem OptR.foldlM {r : α → β → Prop} {f : α → γ → Option α} {g : β → γ → Option β} (l : List γ)
    (h : ∀ a b i, r a b → OptR r (f a i) (g b i)) {a : α} {b : β} (hab : r a b) : OptR r (l.foldlM f a) (l.foldlM g b) := by
  induction l generalizing a b with
  | nil => exact hab
  | cons i l ih =>
    rw [List.foldlM_cons, List.foldlM_cons]
    exact OptR.bind (h a b i hab) fun a b hab => ih hab

theorem OptR.loop {r : α → β → Prop} {f : Nat → α → Option α} {g : Nat → β → Option β} {m n m' n' : Nat} (hm : m = m') (hn : n = n')
    (h : ∀ i a b, r a b → OptR r (f i a) (g i b)) {a : α} {b : β} (hab : r a b) :
    OptR r (Copra.loop m n f a) (Copra.loop m' n' g b) := by
  subst hm; subst hn
  exact OptR.foldlM _ (fun a b i hab => h i a b hab) hab

theorem ResR.ok {r : α → β → Prop} {a : α} {b : β} (h : r a b) : ResR r (.ok a) (.ok b) := h
theorem ResR.thrown {r : α → β → Prop} {a : α} {b : β} {e : Exn} (h : r a b) : ResR r (.thrown e a) (.thrown e b) := ⟨rfl, h⟩

theorem ResR.ofOption {r : α → β → Prop} {x : Option α} {y : Option β} (h : OptR r x y) :
    ResR r (Res.ofOption x) (Res.ofOption y) := by
  cases x <;> cases y <;> exact h

theorem ResR.map {r : α → β → Prop} {s : γ → δ → Prop} {x : Res α} {y : Res β} {f : α → γ} {g : β → δ} (h : ResR r x y)
    (hf : ∀ a b, r a b → s (f a) (g b)) : ResR s (x.map f) (y.map g) := by
  cases x <;> cases y <;> first | exact hf _ _ h | exact ⟨h.1, hf _ _ h.2⟩ | exact h

theorem ResR.andThen {r : α → β → Prop} {x : Res α} {y : Res β} {f : α → Res α} {g : β → Res β} (h : ResR r x y)
    (hf : ∀ a b, r a b → ResR r (f a) (g b)) : ResR r (x.andThen f) (y.andThen g) := by
  cases x <;> cases y <;> first | exact hf _ _ h | exact h.elim | exact h

theorem ResR.ite {r : α → β → Prop} {P Q : Prop} [Decidable P] [Decidable Q] (h : P ↔ Q) {x x' : Res α} {y y' : Res β}
    (ht : P → Q → ResR r x y) (hf : ¬ P → ¬ Q → ResR r x' y') : ResR r (if P then x else x') (if Q then y else y') := by
  by_cases hp : P
  · rw [if_pos hp, if_pos (h.1 hp)]; exact ht hp (h.1 hp)
  · rw [if_neg hp, if_neg fun q => hp (h.2 q)]; exact hf hp fun q => hp (h.2 q)

theorem chkIntR {m n : Nat} (h : m = n) : OptR Eq (chkInt m) (chkInt n) := OptR.of_eq (by rw [h])

/-! ## Extended scalars -/

theorem ExtR.sub (S : ScalarRel rel) {x : Ext K} {y : Ext L} {a : K} {b : L} (h : ExtR rel x y) (hab : rel a b) :
    ExtR rel (x.sub a) (y.sub b) := by
  cases x <;> cases y <;> first | exact h | exact S.sub h hab

theorem ExtR.isNinf {x : Ext K} {y : Ext L} (h : ExtR rel x y) : x.isNinf = y.isNinf := by
  cases x <;> cases y <;> first | rfl | exact h.elim

theorem ExtR.isPinf {x : Ext K} {y : Ext L} (h : ExtR rel x y) : x.isPinf = y.isPinf := by
  cases x <;> cases y <;> first | rfl | exact h.elim

/-! ## Matrices and vectors -/

namespace MatR
variable {A C : Mat K} {B D : Mat L}

theorem resize {r c r' c' : Nat} {u : Nat → Nat → K} {v : Nat → Nat → L} (hr : r = r') (hc : c = c') (h : ∀ i j, rel (u i j) (v i j)) :
    MatR rel (Mat.resize r c u) (Mat.resize r' c' v) := ⟨hr, hc, h⟩

theorem zero (S : ScalarRel rel) {r c r' c' : Nat} (hr : r = r') (hc : c = c') :
    MatR rel (Mat.zero r c) (Mat.zero r' c') := ⟨hr, hc, fun _ _ => S.zero⟩

theorem empty (S : ScalarRel rel) : MatR rel (Mat.empty) (Mat.empty) := zero S rfl rfl

theorem identity (S : ScalarRel rel) {r c r' c' : Nat} (hr : r = r') (hc : c = c') :
    MatR rel (Mat.identity r c) (Mat.identity r' c') := by
  refine ⟨hr, hc, fun i j => ?_⟩
  show rel (if i = j then 1 else 0) (if i = j then 1 else 0)
  split
  · exact S.one
  · exact S.zero

theorem transpose (h : MatR rel A B) : MatR rel A.transpose B.transpose := ⟨h.cols, h.rows, fun i j => h.e j i⟩

theorem scale (S : ScalarRel rel) (h : MatR rel A B) {a : K} {b : L} (hab : rel a b) : MatR rel (A.scale a) (B.scale b) :=
  ⟨h.rows, h.cols, fun i j => S.mul (h.e i j) hab⟩

theorem mul? (S : ScalarRel rel) (h : MatR rel A B) (h' : MatR rel C D) : OptR (MatR rel) (A.mul? C) (B.mul? D) :=
  OptR.ite (by rw [h.cols, h'.rows]) (fun _ _ => ⟨h.rows, h'.cols, fun i j => by
    show rel (Arith.dot (A.rows, C.cols, i, j) A.cols _ _) (Arith.dot (B.rows, D.cols, i, j) B.cols _ _)
    rw [h.rows, h'.cols, h.cols]; exact S.dot (fun k _ => h.e i k) fun k _ => h'.e k j⟩) fun _ _ => trivial

theorem add? (S : ScalarRel rel) (h : MatR rel A B) (h' : MatR rel C D) : OptR (MatR rel) (A.add? C) (B.add? D) :=
  OptR.ite (by rw [h.cols, h'.cols, h.rows, h'.rows]) (fun _ _ => ⟨h.rows, h.cols, fun i j => S.add (h.e i j) (h'.e i j)⟩)
    fun _ _ => trivial

theorem mulVec? (S : ScalarRel rel) (h : MatR rel A B) {u : Vec K} {v : Vec L} (h' : VecR rel u v) :
    OptR (VecR rel) (A.mulVec? u) (B.mulVec? v) :=
  OptR.ite (by rw [h.cols, h'.rows]) (fun _ _ => ⟨h.rows, fun i => by
    show rel (Arith.dot (A.rows, 1, i, 0) A.cols _ _) (Arith.dot (B.rows, 1, i, 0) B.cols _ _)
    rw [h.rows, h.cols]; exact S.dot (fun k _ => h.e i k) fun k _ => h'.e k⟩) fun _ _ => trivial

theorem vecMul? (S : ScalarRel rel) {u : Vec K} {v : Vec L} (h' : VecR rel u v) (h : MatR rel A B) :
    OptR (VecR rel) (Mat.vecMul? u A) (Mat.vecMul? v B) :=
  OptR.ite (by rw [h.rows, h'.rows]) (fun _ _ => ⟨h.cols, fun j => by
    show rel (Arith.dot (1, A.cols, 0, j) u.rows _ _) (Arith.dot (1, B.cols, 0, j) v.rows _ _)
    rw [h'.rows, h.cols]; exact S.dot (fun k _ => h'.e k) fun k _ => h.e k j⟩) fun _ _ => trivial

theorem mulDiag? (S : ScalarRel rel) (h : MatR rel A B) {u : Vec K} {v : Vec L} (h' : VecR rel u v) :
    OptR (MatR rel) (A.mulDiag? u) (B.mulDiag? v) :=
  OptR.ite (by rw [h.cols, h'.rows]) (fun _ _ => ⟨h.rows, h.cols, fun i j => S.mul (h.e i j) (h'.e j)⟩) fun _ _ => trivial

theorem block? (h : MatR rel A B) {i j m n i' j' m' n' : Nat} (hi : i = i') (hj : j = j') (hm : m = m') (hn : n = n') :
    OptR (MatR rel) (A.block? i j m n) (B.block? i' j' m' n') := by
  subst hi; subst hj; subst hm; subst hn
  exact OptR.ite (by rw [h.rows, h.cols]) (fun _ _ => ⟨rfl, rfl, fun r c => h.e _ _⟩) fun _ _ => trivial

theorem setBlock? (h : MatR rel A B) {i j m n i' j' m' n' : Nat} (hi : i = i') (hj : j = j') (hm : m = m') (hn : n = n')
    (h' : MatR rel C D) : OptR (MatR rel) (A.setBlock? i j m n C) (B.setBlock? i' j' m' n' D) := by
  subst hi; subst hj; subst hm; subst hn
  refine OptR.ite (by rw [h.rows, h.cols, h'.rows, h'.cols]) (fun _ _ => ⟨h.rows, h.cols, fun r c => ?_⟩) fun _ _ => trivial
  show rel (if _ then _ else _) (if _ then _ else _)
  split
  · exact h'.e _ _
  · exact h.e _ _

theorem addBlock? (S : ScalarRel rel) (h : MatR rel A B) {i j m n i' j' m' n' : Nat} (hi : i = i') (hj : j = j') (hm : m = m')
    (hn : n = n') (h' : MatR rel C D) : OptR (MatR rel) (A.addBlock? i j m n C) (B.addBlock? i' j' m' n' D) :=
  OptR.bind (h.block? hi hj hm hn) fun _ _ h1 => OptR.bind (h1.add? S h') fun _ _ h2 => h.setBlock? hi hj hm hn h2

theorem row? (h : MatR rel A B) {i i' : Nat} (hi : i = i') : OptR (VecR rel) (A.row? i) (B.row? i') := by
  subst hi
  exact OptR.ite (by rw [h.rows]) (fun _ _ => ⟨h.cols, fun c => h.e _ _⟩) fun _ _ => trivial

theorem setRow? (h : MatR rel A B) {i i' : Nat} (hi : i = i') {u : Vec K} {v : Vec L} (h' : VecR rel u v) :
    OptR (MatR rel) (A.setRow? i u) (B.setRow? i' v) := by
  subst hi
  refine OptR.ite (by rw [h.rows, h.cols, h'.rows]) (fun _ _ => ⟨h.rows, h.cols, fun r c => ?_⟩) fun _ _ => trivial
  show rel (if _ then _ else _) (if _ then _ else _)
  split
  · exact h'.e _
  · exact h.e _ _

end MatR

namespace VecR
variable {r : α → β → Prop} {u a : Vec α} {v b : Vec β} {x y : Vec K} {x' y' : Vec L}

theorem resize {n n' : Nat} {f : Nat → α} {g : Nat → β} (hn : n = n') (h : ∀ i, r (f i) (g i)) :
    VecR r (Vec.resize n f) (Vec.resize n' g) := ⟨hn, h⟩

theorem zero (S : ScalarRel rel) {n n' : Nat} (hn : n = n') : VecR rel (Vec.zero n) (Vec.zero n') := ⟨hn, fun _ => S.zero⟩

theorem const {n n' : Nat} (hn : n = n') {s : α} {t : β} (h : r s t) : VecR r (Vec.const n s) (Vec.const n' t) := ⟨hn, fun _ => h⟩

theorem nil : VecR (ExtR rel) Vec.nil Vec.nil := ⟨rfl, fun _ => trivial⟩

theorem toExt (h : VecR rel x x') : VecR (ExtR rel) x.toExt x'.toExt := ⟨h.rows, fun i => h.e i⟩

theorem add? (S : ScalarRel rel) (h : VecR rel x x') (h' : VecR rel y y') : OptR (VecR rel) (x.add? y) (x'.add? y') :=
  OptR.ite (by rw [h.rows, h'.rows]) (fun _ _ => ⟨h.rows, fun i => S.add (h.e i) (h'.e i)⟩) fun _ _ => trivial

theorem sub? (S : ScalarRel rel) (h : VecR rel x x') (h' : VecR rel y y') : OptR (VecR rel) (x.sub? y) (x'.sub? y') :=
  OptR.ite (by rw [h.rows, h'.rows]) (fun _ _ => ⟨h.rows, fun i => S.sub (h.e i) (h'.e i)⟩) fun _ _ => trivial

theorem neg (S : ScalarRel rel) (h : VecR rel x x') : VecR rel x.neg x'.neg := ⟨h.rows, fun i => S.neg (h.e i)⟩

theorem subFin? (S : ScalarRel rel) {e : Vec (Ext K)} {e' : Vec (Ext L)} (h : VecR (ExtR rel) e e') (h' : VecR rel y y') :
    OptR (VecR (ExtR rel)) (e.subFin? y) (e'.subFin? y') :=
  OptR.ite (by rw [h.rows, h'.rows]) (fun _ _ => ⟨h.rows, fun i => (h.e i).sub S (h'.e i)⟩) fun _ _ => trivial

theorem cmul? (S : ScalarRel rel) (h : VecR rel x x') (h' : VecR rel y y') : OptR (VecR rel) (x.cmul? y) (x'.cmul? y') :=
  OptR.ite (by rw [h.rows, h'.rows]) (fun _ _ => ⟨h.rows, fun i => S.mul (h.e i) (h'.e i)⟩) fun _ _ => trivial

theorem dot? (S : ScalarRel rel) (h : VecR rel x x') (h' : VecR rel y y') : OptR rel (x.dot? y) (x'.dot? y') :=
  OptR.ite (by rw [h.rows, h'.rows]) (fun _ _ => by
    show rel (Arith.dot (1, 1, 0, 0) x.rows _ _) (Arith.dot (1, 1, 0, 0) x'.rows _ _)
    rw [h.rows]; exact S.dot (fun k _ => h.e k) fun k _ => h'.e k) fun _ _ => trivial

theorem at? (h : VecR r u v) {i i' : Nat} (hi : i = i') : OptR r (u.at? i) (v.at? i') := by
  subst hi; exact OptR.ite (by rw [h.rows]) (fun _ _ => h.e _) fun _ _ => trivial

theorem setAt? (h : VecR r u v) {i i' : Nat} (hi : i = i') {s : α} {t : β} (hst : r s t) :
    OptR (VecR r) (u.setAt? i s) (v.setAt? i' t) := by
  subst hi
  refine OptR.ite (by rw [h.rows]) (fun _ _ => ⟨h.rows, fun k => ?_⟩) fun _ _ => trivial
  show r (if _ then _ else _) (if _ then _ else _)
  split
  · exact hst
  · exact h.e _

theorem segment? (h : VecR r u v) {i m i' m' : Nat} (hi : i = i') (hm : m = m') : OptR (VecR r) (u.segment? i m) (v.segment? i' m') := by
  subst hi; subst hm
  exact OptR.ite (by rw [h.rows]) (fun _ _ => ⟨rfl, fun _ => h.e _⟩) fun _ _ => trivial

theorem setSegment? (h : VecR r u v) {i m i' m' : Nat} (hi : i = i') (hm : m = m') (h' : VecR r a b) :
    OptR (VecR r) (u.setSegment? i m a) (v.setSegment? i' m' b) := by
  subst hi; subst hm
  refine OptR.ite (by rw [h.rows, h'.rows]) (fun _ _ => ⟨h.rows, fun k => ?_⟩) fun _ _ => trivial
  show r (if _ then _ else _) (if _ then _ else _)
  split
  · exact h'.e _
  · exact h.e _

theorem addSegment? (S : ScalarRel rel) (h : VecR rel x x') {i m i' m' : Nat} (hi : i = i') (hm : m = m') (h' : VecR rel y y') :
    OptR (VecR rel) (x.addSegment? i m y) (x'.addSegment? i' m' y') :=
  OptR.bind (h.segment? hi hm) fun _ _ h1 => OptR.bind (h1.add? S h') fun _ _ h2 => h.setSegment? hi hm h2

end VecR

/-! ## AutoSpan -/

theorem spanMatrixR (S : ScalarRel rel) {A : Mat K} {B : Mat L} (h : MatR rel A B) {n n' : Nat} (hn : n = n') (a : Nat) :
    ResR (MatR rel) (AutoSpan.spanMatrix A n a) (AutoSpan.spanMatrix B n' a) := by
  subst hn
  refine ResR.ite (by rw [h.rows]) (fun _ _ => h) fun _ _ => ResR.ite (by rw [h.rows]) (fun _ _ => trivial) fun _ _ => ?_
  refine ResR.ite (by rw [h.rows]) (fun _ _ => ResR.thrown h) fun _ _ => ResR.ofOption ?_
  refine OptR.loop rfl (by rw [h.rows]) (fun i X Y hXY => hXY.setBlock? (by rw [h.rows]) (by rw [h.cols]) h.rows h.cols h) ?_
  exact MatR.zero S rfl (by rw [h.rows, h.cols])

theorem spanVectorR {r : α → β → Prop} {u : Vec α} {v : Vec β} (h : VecR r u v) {j : Nat → α} {j' : Nat → β} (hj : ∀ i, r (j i) (j' i))
    {n n' : Nat} (hn : n = n') : ResR (VecR r) (AutoSpan.spanVector j u n) (AutoSpan.spanVector j' v n') := by
  subst hn
  refine ResR.ite (by rw [h.rows]) (fun _ _ => h) fun _ _ => ResR.ite (by rw [h.rows]) (fun _ _ => trivial) fun _ _ => ?_
  refine ResR.ite (by rw [h.rows]) (fun _ _ => ResR.thrown h) fun _ _ => ResR.ofOption ?_
  refine OptR.loop rfl (by rw [h.rows]) (fun i X Y hXY => hXY.setSegment? (by rw [h.rows]) h.rows h) ?_
  refine ⟨rfl, fun i => ?_⟩
  show r (if i < u.rows then _ else _) (if i < v.rows then _ else _)
  rw [h.rows]
  split
  · exact h.e _
  · exact hj _

/-! ## Preview systems -/

theorem PsR.default (S : ScalarRel rel) : PsR rel PreviewSystem.default PreviewSystem.default where
  isUpdated := rfl
  nrUStep := rfl
  nrXStep := rfl
  xDim := rfl
  uDim := rfl
  fullXDim := rfl
  fullUDim := rfl
  x0 := VecR.zero S rfl
  A := MatR.empty S
  B := MatR.empty S
  d := VecR.zero S rfl
  Phi := MatR.empty S
  Psi := MatR.empty S
  xi := VecR.zero S rfl

theorem systemBodyR (S : ScalarRel rel) {A B : Mat K} {A' B' : Mat L} {d x : Vec K} {d' x' : Vec L} {n : Nat}
    (hA : MatR rel A A') (hB : MatR rel B B') (hd : VecR rel d d') (hx : VecR rel x x') :
    OptR (PsR rel) (PreviewSystem.systemBody A B d x n) (PreviewSystem.systemBody A' B' d' x' n) :=
  OptR.bind (chkIntR rfl) fun _ _ h1 => OptR.bind (chkIntR hA.cols) fun _ _ h2 => OptR.bind (chkIntR hB.cols) fun _ _ h3 =>
  OptR.bind (chkIntR (by rw [h1, h2])) fun _ _ h4 => OptR.bind (chkIntR (by rw [h3])) fun _ _ h5 =>
  OptR.bind ((MatR.zero S h4 h2).setBlock? rfl rfl h2 h2 (MatR.identity S h2 h2)) fun _ _ hP =>
  OptR.pure ⟨rfl, rfl, h1, h2, h3, h4, h5, hx, hA, hB, hd, hP, MatR.zero S h4 h5, VecR.zero S h4⟩

theorem systemR (S : ScalarRel rel) {p : PreviewSystem K} {p' : PreviewSystem L} (hp : PsR rel p p') {A B : Mat K} {A' B' : Mat L}
    {d x : Vec K} {d' x' : Vec L} {n : Int} (hA : MatR rel A A') (hB : MatR rel B B') (hd : VecR rel d d') (hx : VecR rel x x') :
    ResR (PsR rel) (p.system A B d x n) (p'.system A' B' d' x' n) :=
  ResR.ite (by rw [hx.rows, hA.rows]) (fun _ _ => ResR.thrown hp) fun _ _ =>
  ResR.ite (by rw [hA.rows, hA.cols]) (fun _ _ => ResR.thrown hp) fun _ _ =>
  ResR.ite (by rw [hx.rows, hB.rows]) (fun _ _ => ResR.thrown hp) fun _ _ =>
  ResR.ite (by rw [hx.rows, hd.rows]) (fun _ _ => ResR.thrown hp) fun _ _ =>
  ResR.ite Iff.rfl (fun _ _ => ResR.thrown hp) fun _ _ => ResR.ofOption (systemBodyR S hA hB hd hx)

theorem updatePsiShiftR {P : Mat K} {P' : Mat L} (hP : MatR rel P P') {x u x' u' : Nat} (hx : x = x') (hu : u = u') (i j : Nat) :
    OptR (MatR rel) (PreviewSystem.updatePsiShift x u i j P) (PreviewSystem.updatePsiShift x' u' i j P') :=
  OptR.bind (hP.block? (by rw [hx]) (by rw [hu]) hx hu) fun _ _ h => hP.setBlock? (by rw [hx]) (by rw [hu]) hx hu h

theorem updateStepR (S : ScalarRel rel) (i : Nat) {p : PreviewSystem K} {p' : PreviewSystem L} (hp : PsR rel p p') :
    OptR (PsR rel) (PreviewSystem.updateStep i p) (PreviewSystem.updateStep i p') := by
  have hx := hp.xDim
  have hu := hp.uDim
  exact OptR.bind (hp.Phi.block? (by rw [hx]) rfl hx hx) fun _ _ h1 => OptR.bind (hp.A.mul? S h1) fun _ _ h2 =>
    OptR.bind (hp.Phi.setBlock? (by rw [hx]) rfl hx hx h2) fun _ _ h3 =>
    OptR.bind (hp.Psi.block? (by rw [hx]) rfl hx hu) fun _ _ h4 => OptR.bind (hp.A.mul? S h4) fun _ _ h5 =>
    OptR.bind (hp.Psi.setBlock? (by rw [hx]) rfl hx hu h5) fun _ _ h6 =>
    OptR.bind (OptR.loop rfl rfl (fun j _ _ h => updatePsiShiftR h hx hu i j) h6) fun _ _ h7 =>
    OptR.bind (hp.xi.segment? (by rw [hx]) hx) fun _ _ h8 => OptR.bind (hp.A.mulVec? S h8) fun _ _ h9 =>
    OptR.bind (h9.add? S hp.d) fun _ _ h10 => OptR.bind (hp.xi.setSegment? (by rw [hx]) hx h10) fun _ _ h11 =>
    OptR.pure { hp with Phi := h3, Psi := h7, xi := h11 }

theorem updateSystemR (S : ScalarRel rel) {p : PreviewSystem K} {p' : PreviewSystem L} (hp : PsR rel p p') :
    OptR (PsR rel) p.updateSystem p'.updateSystem :=
  OptR.bind (hp.Phi.setBlock? hp.xDim rfl hp.xDim hp.xDim hp.A) fun _ _ h1 =>
  OptR.bind (hp.Psi.setBlock? hp.xDim rfl hp.xDim hp.uDim hp.B) fun _ _ h2 =>
  OptR.bind (hp.xi.setSegment? hp.xDim hp.xDim hp.d) fun _ _ h3 =>
  OptR.bind (OptR.loop rfl hp.nrXStep (fun i _ _ h => updateStepR S i h) { hp with Phi := h1, Psi := h2, xi := h3 }) fun _ _ h4 =>
  OptR.pure { h4 with isUpdated := rfl }

end Copra.Spec
