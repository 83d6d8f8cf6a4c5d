import Verif.Proofs.Round

/-! # Every program on machine numbers has its companions -/

set_option linter.unusedSectionVars false

namespace Copra.Spec

section maps
variable {A B : Type} (f : A → B)

def mM (X : Mat A) : Mat B := ⟨X.rows, X.cols, fun i j => f (X.e i j)⟩
def mV (x : Vec A) : Vec B := ⟨x.rows, fun i => f (x.e i)⟩
def mE : Ext A → Ext B
  | .ninf => .ninf
  | .pinf => .pinf
  | .fin a => .fin (f a)
def mX (x : Vec (Ext A)) : Vec (Ext B) := ⟨x.rows, fun i => mE f (x.e i)⟩
def mJ (j : Junk A) : Junk B := ⟨fun s a b => f (j.m s a b), fun s a => f (j.v s a), fun s a => mE f (j.x s a)⟩
def mS (s : Solver A) : Solver B := ⟨s.kind, mV f s.result⟩

variable {f} {rel : A → B → Prop} (hf : ∀ a, rel a (f a))
include hf

theorem mM_R (X : Mat A) : MatR rel X (mM f X) := ⟨rfl, rfl, fun _ _ => hf _⟩
theorem mV_R (x : Vec A) : VecR rel x (mV f x) := ⟨rfl, fun _ => hf _⟩
theorem mE_R (x : Ext A) : ExtR rel x (mE f x) := by cases x <;> first | trivial | exact hf _
theorem mX_R (x : Vec (Ext A)) : VecR (ExtR rel) x (mX f x) := ⟨rfl, fun _ => mE_R hf _⟩
theorem mJ_R (j : Junk A) : JunkR rel j (mJ f j) := ⟨fun _ _ _ => hf _, fun _ _ => hf _, fun _ _ => mE_R hf _⟩
theorem mS_R (s : Solver A) : SolverR rel s (mS f s) := ⟨rfl, mV_R hf _⟩

end maps

section init
variable {A B : Type} [Zero A] [One A] [Add A] [Sub A] [Neg A] [Mul A] [Arith A]
  [Zero B] [One B] [Add B] [Sub B] [Neg B] [Mul B] [Arith B] {rel : A → B → Prop}

theorem empty_R (z : rel 0 0) : MatR rel (Mat.empty) (Mat.empty) := ⟨rfl, rfl, fun _ _ => z⟩
theorem zero_R (z : rel 0 0) (n : Nat) : VecR rel (Vec.zero n) (Vec.zero n) := ⟨rfl, fun _ => z⟩

theorem psDefault_R (z : rel 0 0) : PsR rel PreviewSystem.default PreviewSystem.default where
  isUpdated := rfl
  nrUStep := rfl
  nrXStep := rfl
  xDim := rfl
  uDim := rfl
  fullXDim := rfl
  fullUDim := rfl
  x0 := zero_R z _
  A := empty_R z
  B := empty_R z
  d := zero_R z _
  Phi := empty_R z
  Psi := empty_R z
  xi := zero_R z _

theorem constrFresh_R (z : rel 0 0) (k : CKind) (b : Bool) : ConstrR rel (Constr.fresh k b) (Constr.fresh k b) :=
  ⟨rfl, rfl, rfl, rfl, rfl, empty_R z, empty_R z, .nil, .nil, .nil, rfl, rfl, empty_R z, .nil, empty_R z, .nil, .nil, .nil⟩

theorem costConstruct_R (z : rel 0 0) (o : rel 1 1) (k : CostKind) {M N : Mat A} {M' N' : Mat B} {q : Vec A} {q' : Vec B}
    (hM : MatR rel M M') (hN : MatR rel N N') (hq : VecR rel q q') :
    CostR rel (Cost.construct k M N q) (Cost.construct k M' N' q') :=
  ⟨rfl, rfl, hM, hN, hq, ⟨hq.rows, fun _ => o⟩, empty_R z, ⟨rfl, fun _ => z⟩, empty_R z, ⟨rfl, fun _ => z⟩⟩

theorem ctlConstruct_R (z : rel 0 0) (b : Bool) {s : Solver A} {s' : Solver B} (hs : SolverR rel s s') :
    CtlR rel (LMPC.construct b s) (LMPC.construct b s') :=
  ⟨rfl, rfl, hs, rfl, rfl, rfl, rfl, rfl, rfl, rfl, empty_R z, ⟨rfl, fun _ => z⟩, empty_R z, .nil, empty_R z, .nil, .nil, .nil,
    ⟨rfl, fun _ => z⟩, ⟨rfl, fun _ => z⟩, rfl, rfl, empty_R z, ⟨rfl, fun _ => z⟩, .nil, .nil⟩

variable {f : A → B}

/-- An initial world and its image. -/
theorem init_map {w : World A} (h : World.Init w) : ∃ v : World B, World.Init v ∧
    ∀ rel : A → B → Prop, (∀ a, rel a (f a)) → rel 0 0 → rel 1 1 → WorldR rel w v := by
  obtain ⟨h1, h2, h3, b, s, h4⟩ := h
  have H2 : ∀ i, ∃ c' : Constr B, World.FreshConstr c' ∧ ∀ rel : A → B → Prop, (∀ a, rel a (f a)) → rel 0 0 → ConstrR rel (w.cons i) c' := by
    intro i
    rcases h2 i with ⟨E, x, b, e⟩ | ⟨G, x, b, e⟩ | ⟨E, G, x, b, e⟩ | ⟨l, u, e⟩ | ⟨l, u, e⟩
    · exact ⟨_, .inl ⟨mM f E, mX f x, b, rfl⟩, fun rel hf z => by
        rw [e]; exact { constrFresh_R z .trajectory b with E := mM_R hf E, f := mX_R hf x }⟩
    · exact ⟨_, .inr (.inl ⟨mM f G, mX f x, b, rfl⟩), fun rel hf z => by
        rw [e]; exact { constrFresh_R z .control b with G := mM_R hf G, f := mX_R hf x }⟩
    · exact ⟨_, .inr (.inr (.inl ⟨mM f E, mM f G, mX f x, b, rfl⟩)), fun rel hf z => by
        rw [e]; exact { constrFresh_R z .mixed b with E := mM_R hf E, G := mM_R hf G, f := mX_R hf x }⟩
    · exact ⟨_, .inr (.inr (.inr (.inl ⟨mX f l, mX f u, rfl⟩))), fun rel hf z => by
        rw [e]
        exact { constrFresh_R z .trajBound true with
          lower := mX_R hf l, upper := mX_R hf u
          lowerLines := ConstrR.finiteLines (fun _ _ => ExtR.isNinf) (mX_R hf l)
          upperLines := ConstrR.finiteLines (fun _ _ => ExtR.isPinf) (mX_R hf u) }⟩
    · exact ⟨_, .inr (.inr (.inr (.inr ⟨mX f l, mX f u, rfl⟩))), fun rel hf z => by
        rw [e]; exact { constrFresh_R z .ctrlBound true with lower := mX_R hf l, upper := mX_R hf u }⟩
  have H3 : ∀ i, ∃ c' : Cost B, World.FreshCost c' ∧
      ∀ rel : A → B → Prop, (∀ a, rel a (f a)) → rel 0 0 → rel 1 1 → CostR rel (w.costs i) c' := by
    intro i
    rcases h3 i with ⟨M, p, e⟩ | ⟨M, p, e⟩ | ⟨N, p, e⟩ | ⟨M, N, p, e⟩
    · exact ⟨_, .inl ⟨mM f M, mV f p, rfl⟩, fun rel hf z o => by
        rw [e]; exact costConstruct_R z o _ (mM_R hf M) (empty_R z) (mV_R hf p)⟩
    · exact ⟨_, .inr (.inl ⟨mM f M, mV f p, rfl⟩), fun rel hf z o => by
        rw [e]; exact costConstruct_R z o _ (mM_R hf M) (empty_R z) (mV_R hf p)⟩
    · exact ⟨_, .inr (.inr (.inl ⟨mM f N, mV f p, rfl⟩)), fun rel hf z o => by
        rw [e]; exact costConstruct_R z o _ (empty_R z) (mM_R hf N) (mV_R hf p)⟩
    · exact ⟨_, .inr (.inr (.inr ⟨mM f M, mM f N, mV f p, rfl⟩)), fun rel hf z o => by
        rw [e]; exact costConstruct_R z o _ (mM_R hf M) (mM_R hf N) (mV_R hf p)⟩
  choose c hc hcR using H2
  choose k hk hkR using H3
  refine ⟨⟨fun _ => PreviewSystem.default, c, k, w.extCons, w.extCosts, LMPC.construct b (mS f s)⟩,
    ⟨fun _ => rfl, hc, hk, b, mS f s, rfl⟩, fun rel hf z o => ⟨fun p => ?_, fun i => hcR i rel hf z, fun i => hkR i rel hf z o, rfl, rfl, ?_⟩⟩
  · rw [h1]; exact psDefault_R z
  · rw [h4]; exact ctlConstruct_R z b (mS_R hf s)

/-- The image of a call (with `env'` for the environment of a solve). -/
def mOp (f : A → B) (env' : SolveEnv A → SolveEnv B) : Op A → Op B
  | .system p A B d x0 N => .system p (mM f A) (mM f B) (mV f d) (mV f x0) N
  | .xInit p x => .xInit p (mV f x)
  | .setDynamics p A B d => .setDynamics p (mM f A) (mM f B) (mV f d)
  | .updatePs p => .updatePs p
  | .spanConstr i j => .spanConstr i (mJ f j)
  | .initConstr i p j => .initConstr i p (mJ f j)
  | .updateConstr i p => .updateConstr i p
  | .spanCost i j => .spanCost i (mJ f j)
  | .weights i v => .weights i (mV f v)
  | .weight i a => .weight i (f a)
  | .initCost i p j => .initCost i p (mJ f j)
  | .updateCost i p => .updateCost i p
  | .refsConstr i n => .refsConstr i n
  | .refsCost i n => .refsCost i n
  | .construct b s => .construct b (mS f s)
  | .constructPs b s p j => .constructPs b (mS f s) p (mJ f j)
  | .useSolver s => .useSolver (s.map (mS f))
  | .initializeController p j => .initializeController p (mJ f j)
  | .addCost i j => .addCost i (mJ f j)
  | .addConstraint i j => .addConstraint i (mJ f j)
  | .removeCost i => .removeCost i
  | .removeConstraint i => .removeConstraint i
  | .clearCosts => .clearCosts
  | .clearConstraints => .clearConstraints
  | .resetInitialStateCost R r => .resetInitialStateCost (mM f R) (mV f r)
  | .resetInitialStateBounds l u => .resetInitialStateBounds (mX f l) (mX f u)
  | .solve env => .solve (env' env)

theorem mOp_R {env' : SolveEnv A → SolveEnv B} (hf : ∀ a, rel a (f a)) (w : World A) (op : Op A)
    (h : ∀ env, op = .solve env → EnvR rel w env (env' env)) : OpR rel w op (mOp f env' op) := by
  cases op with
  | system p A B b x N => exact ⟨rfl, mM_R hf _, mM_R hf _, mV_R hf _, mV_R hf _, rfl⟩
  | xInit p x => exact ⟨rfl, mV_R hf _⟩
  | setDynamics p A B b => exact ⟨rfl, mM_R hf _, mM_R hf _, mV_R hf _⟩
  | updatePs p => exact rfl
  | spanConstr i j => exact ⟨rfl, mJ_R hf _⟩
  | initConstr i p j => exact ⟨rfl, rfl, mJ_R hf _⟩
  | updateConstr i p => exact ⟨rfl, rfl⟩
  | spanCost i j => exact ⟨rfl, mJ_R hf _⟩
  | weights i x => exact ⟨rfl, mV_R hf _⟩
  | weight i x => exact ⟨rfl, hf _⟩
  | initCost i p j => exact ⟨rfl, rfl, mJ_R hf _⟩
  | updateCost i p => exact ⟨rfl, rfl⟩
  | refsConstr i n => exact ⟨rfl, rfl⟩
  | refsCost i n => exact ⟨rfl, rfl⟩
  | construct b s => exact ⟨rfl, mS_R hf s⟩
  | constructPs b s p j => exact ⟨rfl, mS_R hf s, rfl, mJ_R hf _⟩
  | useSolver s => cases s with
    | none => exact trivial
    | some s => exact mS_R hf s
  | initializeController p j => exact ⟨rfl, mJ_R hf _⟩
  | addCost i j => exact ⟨rfl, mJ_R hf _⟩
  | addConstraint i j => exact ⟨rfl, mJ_R hf _⟩
  | removeCost i => exact rfl
  | removeConstraint i => exact rfl
  | clearCosts => exact trivial
  | clearConstraints => exact trivial
  | resetInitialStateCost R r => exact ⟨mM_R hf _, mV_R hf _⟩
  | resetInitialStateBounds l u => exact ⟨mX_R hf _, mX_R hf _⟩
  | solve env => exact h env rfl

theorem mOp_data {env' : SolveEnv A → SolveEnv B} (hf : ∀ a, rel a (f a)) (w : World A) (t : World B) (op : Op A)
    (h : ∀ env, op = .solve env → ∀ q q', Handed w env q → VecR rel (env.answer q).2 ((env' env).answer q').2) :
    DataR rel w t op (mOp f env' op) := by
  have k := mOp_R (env' := env') hf w op
  cases op with
  | solve env => exact fun q q' hq _ => h env rfl q q' hq
  | _ => exact k fun env e => by cases e

/-! ## The rules of the client -/

theorem hasSystem_rel {w : World A} {v : World B} (h : WorldR rel w v) (p : Nat) : HasSystem w p ↔ HasSystem v p := by
  unfold HasSystem
  rw [(h.pss p).nrUStep]

theorem numVars_rel {w : World A} {v : World B} (h : WorldR rel w v) (d : Dims) : numVars d w.ctl = numVars d v.ctl := by
  unfold numVars
  rw [h.ctl.isInit]

theorem next_rel {w : World A} {v : World B} (h : WorldR rel w v) {op : Op A} {op' : Op B} (ho : OpR rel w op op') (g : Ghost)
    (b : Prop) : g.next w b op = g.next v b op' := by
  cases op <;> cases op' <;> first | exact ho.elim | rfl | skip
  all_goals first
    | (obtain ⟨rfl, _⟩ := ho; rfl)
    | (cases ho; rfl)
    | (unfold Ghost.next; rw [h.ctl.spCost, h.ctl.spBoundConstr])

/-- The rules of a call depend on the sizes only. -/
theorem mOp_ok {env' : SolveEnv A → SolveEnv B} {d : Dims} {w : World A} {v : World B} {g : Ghost} (h : WorldR rel w v) {op : Op A}
    (hs : ∀ env, op = .solve env → SolveContract d env w.ctl → SolveContract d (env' env) v.ctl) (ho : OpOk d w g op) :
    OpOk d v g (mOp f env' op) := by
  cases op with
  | updatePs p => exact (hasSystem_rel h p).1 ho
  | initConstr i p j => exact (hasSystem_rel h p).1 ho
  | updateConstr i p => exact ⟨ho.1, (hasSystem_rel h p).1 ho.2.1, (h.pss p).isUpdated ▸ ho.2.2⟩
  | initCost i p j => exact (hasSystem_rel h p).1 ho
  | updateCost i p => exact ⟨ho.1, (hasSystem_rel h p).1 ho.2⟩
  | constructPs b s p j => exact (hasSystem_rel h p).1 ho
  | useSolver s => trivial
  | initializeController p j => exact (hasSystem_rel h p).1 ho
  | addConstraint i j => exact fun e => h.ctl.spBoundConstr ▸ ho ((h.cons i).kind.trans e)
  | solve env => exact ⟨h.ctl.ps ▸ ho.1, hs env rfl ho.2⟩
  | _ => exact ho

/-- The contract of a solve for the image. -/
theorem contract_rel {d : Dims} {w : World A} {v : World B} {env : SolveEnv A} {env' : SolveEnv B} (h : WorldR rel w v)
    (hc : SolveContract d env w.ctl)
    (ha : ∀ q : QP B, q.nrVar = numVars d v.ctl → (env'.answer q).1 = true → (env'.answer q).2.rows = q.nrVar)
    (hi : ∀ M, (env'.inverse M).rows = d.m * d.N ∧ (env'.inverse M).cols = d.m * d.N) : SolveContract d env' v.ctl := by
  refine ⟨?_, ha, fun e => ?_⟩
  · have k := h.ctl.sol
    have k' := hc.sol
    revert k k'
    cases w.ctl.sol <;> cases v.ctl.sol <;> intro k k' e
    · exact k' rfl
    · exact k.elim
    · exact k.elim
    · cases e
  · obtain ⟨a1, a2, a3, a4, a5, -⟩ := hc.init (h.ctl.isInit.trans e)
    exact ⟨h.ctl.R.rows ▸ a1, h.ctl.R.cols ▸ a2, h.ctl.r.rows ▸ a3, h.ctl.x0lb.rows ▸ a4, h.ctl.x0ub.rows ▸ a5, fun M _ _ => hi M⟩

/-- An environment that answers as `env` does to the problem handed over. -/
noncomputable def mEnv (f : A → B) (inv : Mat B → Mat B) (w : World A) (env : SolveEnv A) : SolveEnv B where
  junk := mJ f env.junk
  inverse := inv
  answer _ := by
    classical
    exact if h : ∃ q, Handed w env q then ((env.answer h.choose).1, mV f (env.answer h.choose).2) else (false, Vec.zero 0)
  t0 := env.t0
  t1 := env.t1
  t2 := env.t2
  t3 := env.t3

theorem mEnv_answer {inv : Mat B → Mat B} {w : World A} {env : SolveEnv A} {q : QP A} (h : Handed w env q) (q' : QP B) :
    (mEnv f inv w env).answer q' = ((env.answer q).1, mV f (env.answer q).2) := by
  have e : ∃ q, Handed w env q := ⟨q, h⟩
  unfold mEnv
  dsimp only
  rw [dif_pos e, handed_unique e.choose_spec h]

end init

section
variable {K L : Type} [Zero K] [One K] [Add K] [Sub K] [Neg K] [Mul K] [Arith K] [Field L] [LinearOrder L] [IsStrictOrderedRing L]
  {ρ : FP L} {val : K → Option L} {d : Dims} {dmax : K} {E : World K → Op K → Prop} {w w' : World K} {g : Ghost}

/-- The inverse on numbers with error bars: exact values, no guarantee. -/
def barInv (ρ : FP L) (d : Dims) (inv : Mat L → Mat L) (M : Mat (Tr ρ)) : Mat (Tr ρ) :=
  ⟨d.m * d.N, d.m * d.N, fun i j => ⟨(inv (mM Tr.val M)).e i j, none⟩⟩

/-- The environment on exact numbers. -/
def exactEnv (d : Dims) (inv : Mat L → Mat L) (tenv : SolveEnv (Tr ρ)) : SolveEnv L where
  junk := mJ Tr.val tenv.junk
  inverse M := ⟨d.m * d.N, d.m * d.N, (inv M).e⟩
  answer _ := ((tenv.answer ⟨0, 0, 0, Mat.empty, Vec.zero 0, Mat.empty, ⟨0, fun _ => .ninf⟩, Mat.empty, ⟨0, fun _ => .ninf⟩,
    ⟨0, fun _ => .ninf⟩, ⟨0, fun _ => .ninf⟩⟩).1, mV Tr.val (tenv.answer ⟨0, 0, 0, Mat.empty, Vec.zero 0, Mat.empty, ⟨0, fun _ => .ninf⟩, Mat.empty, ⟨0, fun _ => .ninf⟩,
    ⟨0, fun _ => .ninf⟩, ⟨0, fun _ => .ninf⟩⟩).2)
  t0 := tenv.t0
  t1 := tenv.t1
  t2 := tenv.t2
  t3 := tenv.t3

theorem mM_val_eq {M : Mat (Tr ρ)} {M' : Mat L} (h : MatR Tr.Exact M M') : mM Tr.val M = M' := by
  obtain ⟨r, c, e⟩ := M
  obtain ⟨r', c', e'⟩ := M'
  obtain ⟨h1, h2, h3⟩ := h
  dsimp only at h1 h2 h3
  subst h1 h2
  unfold mM
  congr 1
  funext i j
  exact h3 i j

theorem mEnv_encloses (inv : Mat L → Mat L) (hg : Hist d dmax E w g) {env : SolveEnv K} (ho : OpOk d w g (.solve env)) :
    EnvR (Tr.Encloses val) w env (mEnv (Tr.lift ρ val) (barInv ρ d inv) w env) := by
  refine ⟨mJ_R Tr.lift_encloses _, ⟨rfl, rfl, rfl, rfl⟩, fun e p hp M M' _ h1 h2 => ?_, fun q q' hq _ => ?_⟩
  · obtain ⟨v, hv, h⟩ := hist_R (E' := AnyOp) (fun _ _ _ _ _ _ _ => trivial) hg
    have hp' : v.ctl.ps = some p := h.ctl.ps ▸ hp
    obtain ⟨k1, -⟩ := hv.good.ctl p hp'
    have k2 := ((hv.good.sys p k1).1).dims.fullU
    rw [(h.pss p).fullUDim, k2] at h1 h2
    obtain ⟨b1, b2⟩ := (ho.2.init e).2.2.2.2.2 M h1 h2
    exact ⟨b1, b2, fun i j e h => by cases h⟩
  · rw [mEnv_answer hq]
    exact ⟨rfl, mV_R Tr.lift_encloses _⟩

theorem mEnv_contract {rel : K → Tr ρ → Prop} (inv : Mat L → Mat L) (hg : Hist d dmax E w g) {env : SolveEnv K}
    (ho : OpOk d w g (.solve env)) {t : World (Tr ρ)} (h : WorldR rel w t) :
    SolveContract d (mEnv (Tr.lift ρ val) (barInv ρ d inv) w env) t.ctl := by
  refine contract_rel h ho.2 (fun q' hq' hf => ?_) fun _ => ⟨rfl, rfl⟩
  by_cases e : ∃ q, Handed w env q
  · obtain ⟨q, hq⟩ := e
    rw [mEnv_answer hq] at hf ⊢
    obtain ⟨v, hv, hR⟩ := hist_R (E' := AnyOp) (fun _ _ _ _ _ _ _ => trivial) hg
    have n := handed_nrVar hR hv ho hq
    show (env.answer q).2.rows = _
    rw [ho.2.answer q n hf, n, hq', numVars_rel h]
  · unfold mEnv at hf
    dsimp only at hf
    rw [dif_neg e] at hf
    cases hf

theorem exactEnv_R (inv : Mat L → Mat L) (t : World (Tr ρ)) (w : World K) (env : SolveEnv K) :
    EnvR Tr.Exact t (mEnv (Tr.lift ρ val) (barInv ρ d inv) w env)
      (exactEnv d inv (mEnv (Tr.lift ρ val) (barInv ρ d inv) w env)) := by
  refine ⟨mJ_R (fun _ => rfl) _, ⟨rfl, rfl, rfl, rfl⟩, fun _ _ _ M M' hM _ _ => ⟨rfl, rfl, fun i j => ?_⟩, fun _ _ _ _ => ⟨rfl, mV_R (fun _ => rfl) _⟩⟩
  show (inv (mM Tr.val M)).e i j = (inv M').e i j
  rw [mM_val_eq hM]

theorem exactEnv_contract {inv : Mat L → Mat L} {t : World (Tr ρ)} {v : World L} (h : WorldR Tr.Exact t v) {env : SolveEnv K}
    (hc : SolveContract d (mEnv (Tr.lift ρ val) (barInv ρ d inv) w env) t.ctl) :
    SolveContract d (exactEnv d inv (mEnv (Tr.lift ρ val) (barInv ρ d inv) w env)) v.ctl := by
  refine contract_rel h hc (fun q hq hf => ?_) fun _ => ⟨rfl, rfl⟩
  have k := hc.answer ⟨q.nrVar, 0, 0, Mat.empty, Vec.zero 0, Mat.empty, ⟨0, fun _ => .ninf⟩, Mat.empty, ⟨0, fun _ => .ninf⟩,
    ⟨0, fun _ => .ninf⟩, ⟨0, fun _ => .ninf⟩⟩ (hq.trans (numVars_rel h d).symm) hf
  exact k

/-- Every program on machine numbers has companions on numbers with error bars and on exact numbers, with its data taken as
they are. -/
theorem side_exists (inv : Mat L → Mat L) {E' : World L → Op L → Prop} (H : Rounds ρ val)
    (hE : ∀ (w : World K) (t : World (Tr ρ)) (v : World L) (op : Op K) (top : Op (Tr ρ)) (vop : Op L), WorldR (Tr.Encloses val) w t →
      WorldR Tr.Exact t v → OpR (Tr.Encloses val) w op top → OpR Tr.Exact t top vop → E w op → E' v vop)
    (h : Hist d dmax E w g) : ∃ t v, Side val (Tr.Taken val) dmax (Tr.lift ρ val dmax) w t v ∧
      Hist d (Tr.lift ρ val dmax).val E' v g := by
  have S1 := Tr.scalar_encloses H
  have S2 := Tr.scalar_exact (ρ := ρ)
  induction h with
  | start h =>
    obtain ⟨t, ht, R1⟩ := init_map (f := Tr.lift ρ val) h
    obtain ⟨v, hv, R2⟩ := init_map (f := Tr.val (ρ := ρ)) ht
    exact ⟨t, v, .start h ht hv (R1 _ Tr.lift_encloses S1.zero S1.one)
      (R1 _ (fun _ => rfl) (Tr.lift_zero H).symm (Tr.lift_one H).symm) (R2 _ (fun _ => rfl) rfl rfl), .start hv⟩
  | @ok w w' g op h ho he hs ih =>
    obtain ⟨t, v, hS, hv⟩ := ih
    obtain ⟨R1, R2⟩ := hS.related H (Tr.lift_encloses _)
    have o1 : OpR (Tr.Encloses val) w op (mOp (Tr.lift ρ val) (mEnv (Tr.lift ρ val) (barInv ρ d inv) w) op) :=
      mOp_R Tr.lift_encloses w op fun env e => by subst e; exact mEnv_encloses inv h ho
    have d1 : DataR (Tr.Taken val) w t op (mOp (Tr.lift ρ val) (mEnv (Tr.lift ρ val) (barInv ρ d inv) w) op) :=
      mOp_data Tr.lift_taken w t op fun env e q q' hq => by rw [mEnv_answer hq]; exact mV_R Tr.lift_taken _
    have k1 : OpOk d t g (mOp (Tr.lift ρ val) (mEnv (Tr.lift ρ val) (barInv ρ d inv) w) op) :=
      mOp_ok R1 (fun env e _ => by subst e; exact mEnv_contract inv h ho R1) ho
    have o2 : OpR Tr.Exact t (mOp (Tr.lift ρ val) (mEnv (Tr.lift ρ val) (barInv ρ d inv) w) op)
        (mOp Tr.val (exactEnv d inv) (mOp (Tr.lift ρ val) (mEnv (Tr.lift ρ val) (barInv ρ d inv) w) op)) :=
      mOp_R (fun _ => rfl) t _ fun env e => by
        cases op <;> first | cases e | skip
        exact exactEnv_R inv t w _
    have k2 : OpOk d v g (mOp Tr.val (exactEnv d inv) (mOp (Tr.lift ρ val) (mEnv (Tr.lift ρ val) (barInv ρ d inv) w) op)) :=
      mOp_ok R2 (fun env e hc => by
        cases op <;> first | cases e | skip
        exact exactEnv_contract R2 hc) k1
    have r1 := R1.step S1 (dm := dmax) (dm' := Tr.lift ρ val dmax) (Tr.lift_encloses _) o1
    have r2 := R2.step S2 (dm := Tr.lift ρ val dmax) (dm' := (Tr.lift ρ val dmax).val) rfl o2
    rw [hs] at r1
    generalize mOp (Tr.lift ρ val) (mEnv (Tr.lift ρ val) (barInv ρ d inv) w) op = top at *
    generalize mOp Tr.val (exactEnv d inv) top = vop at *
    have e' := hE _ _ _ _ _ _ R1 R2 o1 o2 he
    revert r1 r2
    cases e1 : t.step (Tr.lift ρ val dmax) top <;> cases e2 : v.step (Tr.lift ρ val dmax).val vop <;> intro r1 r2 <;>
      first | exact r1.elim | exact r2.elim | skip
    refine ⟨_, _, .ok hS o1 d1 o2 hs e1 e2, ?_⟩
    rw [next_rel R1 o1, next_rel R2 o2]
    exact hv.ok k2 e' e2
  | @thrown w w' g op ex h ho he hs ih =>
    obtain ⟨t, v, hS, hv⟩ := ih
    obtain ⟨R1, R2⟩ := hS.related H (Tr.lift_encloses _)
    have o1 : OpR (Tr.Encloses val) w op (mOp (Tr.lift ρ val) (mEnv (Tr.lift ρ val) (barInv ρ d inv) w) op) :=
      mOp_R Tr.lift_encloses w op fun env e => by subst e; exact mEnv_encloses inv h ho
    have d1 : DataR (Tr.Taken val) w t op (mOp (Tr.lift ρ val) (mEnv (Tr.lift ρ val) (barInv ρ d inv) w) op) :=
      mOp_data Tr.lift_taken w t op fun env e q q' hq => by rw [mEnv_answer hq]; exact mV_R Tr.lift_taken _
    have k1 : OpOk d t g (mOp (Tr.lift ρ val) (mEnv (Tr.lift ρ val) (barInv ρ d inv) w) op) :=
      mOp_ok R1 (fun env e _ => by subst e; exact mEnv_contract inv h ho R1) ho
    have o2 : OpR Tr.Exact t (mOp (Tr.lift ρ val) (mEnv (Tr.lift ρ val) (barInv ρ d inv) w) op)
        (mOp Tr.val (exactEnv d inv) (mOp (Tr.lift ρ val) (mEnv (Tr.lift ρ val) (barInv ρ d inv) w) op)) :=
      mOp_R (fun _ => rfl) t _ fun env e => by
        cases op <;> first | cases e | skip
        exact exactEnv_R inv t w _
    have k2 : OpOk d v g (mOp Tr.val (exactEnv d inv) (mOp (Tr.lift ρ val) (mEnv (Tr.lift ρ val) (barInv ρ d inv) w) op)) :=
      mOp_ok R2 (fun env e hc => by
        cases op <;> first | cases e | skip
        exact exactEnv_contract R2 hc) k1
    have r1 := R1.step S1 (dm := dmax) (dm' := Tr.lift ρ val dmax) (Tr.lift_encloses _) o1
    have r2 := R2.step S2 (dm := Tr.lift ρ val dmax) (dm' := (Tr.lift ρ val dmax).val) rfl o2
    rw [hs] at r1
    generalize mOp (Tr.lift ρ val) (mEnv (Tr.lift ρ val) (barInv ρ d inv) w) op = top at *
    generalize mOp Tr.val (exactEnv d inv) top = vop at *
    have e' := hE _ _ _ _ _ _ R1 R2 o1 o2 he
    revert r1 r2
    cases e1 : t.step (Tr.lift ρ val dmax) top <;> cases e2 : v.step (Tr.lift ρ val dmax).val vop <;> intro r1 r2 <;>
      first | exact r1.elim | exact r2.elim | skip
    refine ⟨_, _, .thrown hS o1 d1 o2 hs e1 e2, ?_⟩
    rw [next_rel R1 o1, next_rel R2 o2]
    exact hv.thrown k2 e' e2

end
end Copra.Spec
