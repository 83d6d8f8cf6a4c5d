import Verif.Proofs.Param3
import Verif.Props.System
import Verif.Props.Safe

/-! # The sizes of a program on any arithmetic

For every history over any scalars there is a history over the rationals with the same sizes, switches, lists and
outcomes (all numbers replaced by zero).  Theorems about sizes proved for exact arithmetic so hold for every other. -/

set_option linter.unusedSectionVars false

namespace Copra.Spec
variable {K : Type} [Zero K] [One K] [Add K] [Sub K] [Neg K] [Mul K] [Arith K]

theorem scalarAny {K L : Type} [Zero K] [One K] [Add K] [Sub K] [Neg K] [Mul K] [Arith K]
    [Zero L] [One L] [Add L] [Sub L] [Neg L] [Mul L] [Arith L] : ScalarRel (AnyNum : K → L → Prop) where
  zero := trivial
  one := trivial
  add _ _ := trivial
  sub _ _ := trivial
  neg _ := trivial
  mul _ _ := trivial
  dot _ _ := trivial
  micro := trivial

/-! ## Shadows of data -/

def shM (A : Mat K) : Mat ℚ := Mat.zero A.rows A.cols
def shV (v : Vec K) : Vec ℚ := Vec.zero v.rows
def shE : Ext K → Ext ℚ
  | .ninf => .ninf
  | .pinf => .pinf
  | .fin _ => .fin 0
def shX (v : Vec (Ext K)) : Vec (Ext ℚ) := ⟨v.rows, fun i => shE (v.e i)⟩
def shJ (j : Junk K) : Junk ℚ := ⟨fun _ _ _ => 0, fun _ _ => 0, fun s i => shE (j.x s i)⟩
def shS (s : Solver K) : Solver ℚ := ⟨s.kind, shV s.result⟩

theorem shM_R (A : Mat K) : MatR AnyNum A (shM A) := ⟨rfl, rfl, fun _ _ => trivial⟩
theorem shV_R (v : Vec K) : VecR AnyNum v (shV v) := ⟨rfl, fun _ => trivial⟩
theorem shE_R (x : Ext K) : ExtR AnyNum x (shE x) := by cases x <;> trivial
theorem shX_R (v : Vec (Ext K)) : VecR (ExtR AnyNum) v (shX v) := ⟨rfl, fun i => shE_R _⟩
theorem shJ_R (j : Junk K) : JunkR AnyNum j (shJ j) := ⟨fun _ _ _ => trivial, fun _ _ => trivial, fun _ _ => shE_R _⟩
theorem shS_R (s : Solver K) : SolverR AnyNum s (shS s) := ⟨rfl, shV_R _⟩

/-- A freshly constructed constraint has a freshly constructed counterpart. -/
theorem fresh_constr_R {c : Constr K} (h : World.FreshConstr c) : ∃ c' : Constr ℚ, World.FreshConstr c' ∧ ConstrR AnyNum c c' := by
  have F := fun k b => ConstrR.fresh (scalarAny (K := K) (L := ℚ)) k b
  rcases h with ⟨E, f, b, rfl⟩ | ⟨G, f, b, rfl⟩ | ⟨E, G, f, b, rfl⟩ | ⟨l, u, rfl⟩ | ⟨l, u, rfl⟩
  · exact ⟨_, .inl ⟨shM E, shX f, b, rfl⟩, { F .trajectory b with E := shM_R E, f := shX_R f }⟩
  · exact ⟨_, .inr (.inl ⟨shM G, shX f, b, rfl⟩), { F .control b with G := shM_R G, f := shX_R f }⟩
  · exact ⟨_, .inr (.inr (.inl ⟨shM E, shM G, shX f, b, rfl⟩)), { F .mixed b with E := shM_R E, G := shM_R G, f := shX_R f }⟩
  · exact ⟨_, .inr (.inr (.inr (.inl ⟨shX l, shX u, rfl⟩))), { F .trajBound true with
      lower := shX_R l, upper := shX_R u
      lowerLines := ConstrR.finiteLines (fun _ _ => ExtR.isNinf) (shX_R l)
      upperLines := ConstrR.finiteLines (fun _ _ => ExtR.isPinf) (shX_R u) }⟩
  · exact ⟨_, .inr (.inr (.inr (.inr ⟨shX l, shX u, rfl⟩))), { F .ctrlBound true with lower := shX_R l, upper := shX_R u }⟩

theorem fresh_cost_R {c : Cost K} (h : World.FreshCost c) : ∃ c' : Cost ℚ, World.FreshCost c' ∧ CostR AnyNum c c' := by
  have S := scalarAny (K := K) (L := ℚ)
  rcases h with ⟨M, p, rfl⟩ | ⟨M, p, rfl⟩ | ⟨N, p, rfl⟩ | ⟨M, N, p, rfl⟩
  · exact ⟨_, .inl ⟨shM M, shV p, rfl⟩, CostR.construct S _ (shM_R M) (.empty S) (shV_R p)⟩
  · exact ⟨_, .inr (.inl ⟨shM M, shV p, rfl⟩), CostR.construct S _ (shM_R M) (.empty S) (shV_R p)⟩
  · exact ⟨_, .inr (.inr (.inl ⟨shM N, shV p, rfl⟩)), CostR.construct S _ (.empty S) (shM_R N) (shV_R p)⟩
  · exact ⟨_, .inr (.inr (.inr ⟨shM M, shM N, shV p, rfl⟩)), CostR.construct S _ (shM_R M) (shM_R N) (shV_R p)⟩

theorem init_R {w : World K} (h : World.Init w) : ∃ v : World ℚ, World.Init v ∧ WorldR AnyNum w v := by
  obtain ⟨h1, h2, h3, b, s, h4⟩ := h
  choose c hc hcR using fun i => fresh_constr_R (h2 i)
  choose k hk hkR using fun i => fresh_cost_R (h3 i)
  refine ⟨⟨fun _ => PreviewSystem.default, c, k, w.extCons, w.extCosts, LMPC.construct b (shS s)⟩,
    ⟨fun _ => rfl, hc, hk, b, shS s, rfl⟩, ⟨fun p => ?_, hcR, hkR, rfl, rfl, ?_⟩⟩
  · rw [h1]; exact PsR.default scalarAny
  · rw [h4]; exact CtlR.construct scalarAny b (shS_R s)

/-! ## Shadows of calls -/

theorem hasSystem_R {w : World K} {v : World ℚ} (h : WorldR AnyNum w v) (p : Nat) : HasSystem w p ↔ HasSystem v p := by
  unfold HasSystem
  rw [(h.pss p).nrUStep]

theorem numVars_R {w : World K} {v : World ℚ} (h : WorldR AnyNum w v) (d : Dims) : numVars d w.ctl = numVars d v.ctl := by
  unfold numVars
  rw [h.ctl.isInit]

theorem next_R {w : World K} {v : World ℚ} (h : WorldR AnyNum w v) {op : Op K} {op' : Op ℚ} (ho : OpR AnyNum w op op') (g : Ghost)
    (b : Prop) : g.next w b op = g.next v b op' := by
  cases op <;> cases op' <;> first | exact ho.elim | rfl | skip
  all_goals first
    | (obtain ⟨rfl, _⟩ := ho; rfl)
    | (cases ho; rfl)
    | (unfold Ghost.next; rw [h.ctl.spCost, h.ctl.spBoundConstr])

theorem handed_unique {w : World K} {env : SolveEnv K} {q q' : QP K} (h : Handed w env q) (h' : Handed w env q') : q = q' := by
  obtain ⟨w1, p, l, a1, a2, a3, rfl⟩ := h
  obtain ⟨w2, p', l', b1, b2, b3, rfl⟩ := h'
  rw [a1] at b1
  injection b1 with b1
  subst b1
  rw [a2] at b2
  injection b2 with b2
  subst b2
  rw [a3] at b3
  injection b3 with b3
  subst b3
  rfl

theorem handed_of_solve {w w' : World K} {env : SolveEnv K} {b : Bool} {q : QP K} (h : w.solve env = some (w', b, q)) :
    Handed w env q ∧ b = (env.answer q).1 := by
  unfold World.solve at h
  obtain ⟨w1, h1, h⟩ := Option.bind_eq_some_iff.1 h
  obtain ⟨p, h2, h⟩ := Option.bind_eq_some_iff.1 h
  obtain ⟨l, h3, h⟩ := Option.bind_eq_some_iff.1 h
  obtain ⟨s, h4, h⟩ := Option.bind_eq_some_iff.1 h
  dsimp only at h
  refine ⟨⟨w1, p, l, h1, h2, h3, ?_⟩, ?_⟩
  · split at h
    · obtain ⟨_, _, h⟩ := Option.bind_eq_some_iff.1 h
      injection h with h
      exact (congrArg (fun t => t.2.2) h).symm
    · injection h with h
      exact (congrArg (fun t => t.2.2) h).symm
  · have e : b = (env.answer l.qp).1 ∧ q = l.qp := by
      split at h
      · obtain ⟨_, _, h⟩ := Option.bind_eq_some_iff.1 h
        injection h with h
        exact ⟨(congrArg (fun t => t.2.1) h).symm, (congrArg (fun t => t.2.2) h).symm⟩
      · injection h with h
        exact ⟨(congrArg (fun t => t.2.1) h).symm, (congrArg (fun t => t.2.2) h).symm⟩
    rw [e.1, e.2]

/-- The shadow of an environment: the flag and the length of the answer to the problem that is handed over. -/
noncomputable def shEnv (d : Dims) (w : World K) (env : SolveEnv K) : SolveEnv ℚ where
  junk := shJ env.junk
  inverse _ := Mat.zero (d.m * d.N) (d.m * d.N)
  answer _ := by
    classical
    exact if h : ∃ q, Handed w env q then ((env.answer h.choose).1, shV (env.answer h.choose).2) else (false, Vec.zero 0)
  t0 := env.t0
  t1 := env.t1
  t2 := env.t2
  t3 := env.t3

theorem shEnv_answer {d : Dims} {w : World K} {env : SolveEnv K} {q : QP K} (h : Handed w env q) (q' : QP ℚ) :
    (shEnv d w env).answer q' = ((env.answer q).1, shV (env.answer q).2) := by
  have e : ∃ q, Handed w env q := ⟨q, h⟩
  unfold shEnv
  dsimp only
  rw [dif_pos e, handed_unique e.choose_spec h]

/-- An environment whose solver always fails. -/
def failing (env : SolveEnv K) : SolveEnv K := { env with answer := fun _ => (false, Vec.zero 0) }

theorem handed_failing {w : World K} {env : SolveEnv K} {q : QP K} : Handed w (failing env) q ↔ Handed w env q := Iff.rfl

section
variable {d : Dims} {E : World ℚ → Op ℚ → Prop} {w : World K} {v : World ℚ} {g : Ghost} {env : SolveEnv K}

theorem contract_R (h : WorldR AnyNum w v) (hc : SolveContract d env w.ctl) (env' : SolveEnv ℚ)
    (ha : ∀ q : QP ℚ, q.nrVar = numVars d v.ctl → (env'.answer q).1 = true → (env'.answer q).2.rows = q.nrVar)
    (hi : ∀ M, env'.inverse M = Mat.zero (d.m * d.N) (d.m * d.N)) : SolveContract d env' v.ctl := by
  refine ⟨?_, ha, fun e => ?_⟩
  · have k := h.ctl.sol
    have k' := hc.sol
    revert k k'
    cases w.ctl.sol <;> cases v.ctl.sol <;> intro k k' e
    · exact k' rfl
    · exact k.elim
    · exact k.elim
    · cases e
  · obtain ⟨a1, a2, a3, a4, a5, -⟩ := hc.init (h.ctl.isInit.trans e)
    refine ⟨h.ctl.R.rows ▸ a1, h.ctl.R.cols ▸ a2, h.ctl.r.rows ▸ a3, h.ctl.x0lb.rows ▸ a4, h.ctl.x0ub.rows ▸ a5, fun M _ _ => ?_⟩
    rw [hi]
    exact ⟨rfl, rfl⟩

theorem envR_of (h : WorldR AnyNum w v) (hv : Hist d 0 E v g) (hc : SolveContract d env w.ctl) (env' : SolveEnv ℚ)
    (hj : env'.junk = shJ env.junk) (ht : env.t0 = env'.t0 ∧ env.t1 = env'.t1 ∧ env.t2 = env'.t2 ∧ env.t3 = env'.t3)
    (hi : ∀ M, env'.inverse M = Mat.zero (d.m * d.N) (d.m * d.N)) {a : QP K → Bool × Vec K}
    (ha : ∀ q q', Handed w env q → QPR AnyNum q q' → (a q).1 = (env'.answer q').1 ∧ VecR AnyNum (a q).2 (env'.answer q').2) :
    EnvR AnyNum w { env with answer := a } env' := by
  refine ⟨hj ▸ shJ_R _, ht, fun e p hp M M' _ h1 h2 => ?_, ha⟩
  have hp' : v.ctl.ps = some p := h.ctl.ps ▸ hp
  obtain ⟨k1, -⟩ := hv.good.ctl p hp'
  have k2 := ((hv.good.sys p k1).1).dims.fullU
  rw [(h.pss p).fullUDim, k2] at h1 h2
  obtain ⟨b1, b2⟩ := (hc.init e).2.2.2.2.2 M h1 h2
  rw [hi]
  exact ⟨b1, b2, fun _ _ => trivial⟩

/-- The problem that is handed over has as many variables as the controller. -/
theorem handed_nrVar (h : WorldR AnyNum w v) (hv : Hist d 0 E v g) (ho : OpOk d w g (.solve env)) {q : QP K} (hq : Handed w env q) :
    q.nrVar = numVars d w.ctl := by
  have hps : v.ctl.ps ≠ none := h.ctl.ps ▸ ho.1
  have e := envR_of h hv ho.2 (failing (shEnv d w env)) rfl ⟨rfl, rfl, rfl, rfl⟩ (fun _ => rfl)
    (a := fun _ => (false, Vec.zero 0)) fun _ _ _ _ => ⟨rfl, rfl, fun _ => trivial⟩
  have hc := contract_R h ho.2 (failing (shEnv d w env)) (fun _ _ k => by cases k) fun _ => rfl
  obtain ⟨v', b, q', s1, -, -, s2⟩ := World.c50_solve_defined hv (env := failing (shEnv d w env)) ⟨hps, hc⟩
  have R := h.solve scalarAny e
  rw [s1] at R
  revert R
  cases hs : w.solve { env with answer := fun _ => (false, Vec.zero 0) } with
  | none => intro R; exact R.elim
  | some t =>
    obtain ⟨w', b', q1⟩ := t
    intro R
    have := handed_unique (handed_of_solve hs).1 (handed_failing.2 hq)
    subst this
    rw [R.qp.nrVar, numVars_R h]
    exact s2

theorem shEnv_R (h : WorldR AnyNum w v) (hv : Hist d 0 E v g) (ho : OpOk d w g (.solve env)) : EnvR AnyNum w env (shEnv d w env) :=
  envR_of h hv ho.2 (shEnv d w env) rfl ⟨rfl, rfl, rfl, rfl⟩ (fun _ => rfl) (a := env.answer) fun q q' hq _ => by
    rw [shEnv_answer hq]
    exact ⟨rfl, shV_R _⟩

end

/-- Every allowed call has an allowed counterpart. -/
theorem op_R {d : Dims} {E : World ℚ → Op ℚ → Prop} {w : World K} {v : World ℚ} {g : Ghost} (h : WorldR AnyNum w v)
    (hv : Hist d 0 E v g) (op : Op K) (ho : OpOk d w g op) : ∃ op' : Op ℚ, OpR AnyNum w op op' ∧ OpOk d v g op' := by
  cases op with
  | system p A B b x N => exact ⟨.system p (shM A) (shM B) (shV b) (shV x) N, ⟨rfl, shM_R _, shM_R _, shV_R _, shV_R _, rfl⟩, ho⟩
  | xInit p x => exact ⟨.xInit p (shV x), ⟨rfl, shV_R _⟩, ho⟩
  | setDynamics p A B b => exact ⟨.setDynamics p (shM A) (shM B) (shV b), ⟨rfl, shM_R _, shM_R _, shV_R _⟩, ho⟩
  | updatePs p => exact ⟨.updatePs p, rfl, (hasSystem_R h p).1 ho⟩
  | spanConstr i j => exact ⟨.spanConstr i (shJ j), ⟨rfl, shJ_R _⟩, ho⟩
  | initConstr i p j => exact ⟨.initConstr i p (shJ j), ⟨rfl, rfl, shJ_R _⟩, (hasSystem_R h p).1 ho⟩
  | updateConstr i p => exact ⟨.updateConstr i p, ⟨rfl, rfl⟩, ho.1, (hasSystem_R h p).1 ho.2.1, (h.pss p).isUpdated ▸ ho.2.2⟩
  | spanCost i j => exact ⟨.spanCost i (shJ j), ⟨rfl, shJ_R _⟩, ho⟩
  | weights i x => exact ⟨.weights i (shV x), ⟨rfl, shV_R _⟩, ho⟩
  | weight i x => exact ⟨.weight i 0, ⟨rfl, trivial⟩, ho⟩
  | initCost i p j => exact ⟨.initCost i p (shJ j), ⟨rfl, rfl, shJ_R _⟩, (hasSystem_R h p).1 ho⟩
  | updateCost i p => exact ⟨.updateCost i p, ⟨rfl, rfl⟩, ho.1, (hasSystem_R h p).1 ho.2⟩
  | refsConstr i n => exact ⟨.refsConstr i n, ⟨rfl, rfl⟩, ho⟩
  | refsCost i n => exact ⟨.refsCost i n, ⟨rfl, rfl⟩, ho⟩
  | construct b s => exact ⟨.construct b (shS s), ⟨rfl, shS_R s⟩, ho⟩
  | constructPs b s p j => exact ⟨.constructPs b (shS s) p (shJ j), ⟨rfl, shS_R s, rfl, shJ_R _⟩, (hasSystem_R h p).1 ho⟩
  | useSolver s =>
    cases s with
    | none => exact ⟨.useSolver none, trivial, trivial⟩
    | some s => exact ⟨.useSolver (some (shS s)), shS_R s, trivial⟩
  | initializeController p j => exact ⟨.initializeController p (shJ j), ⟨rfl, shJ_R _⟩, (hasSystem_R h p).1 ho⟩
  | addCost i j => exact ⟨.addCost i (shJ j), ⟨rfl, shJ_R _⟩, ho⟩
  | addConstraint i j => exact ⟨.addConstraint i (shJ j), ⟨rfl, shJ_R _⟩, fun e => h.ctl.spBoundConstr ▸ ho ((h.cons i).kind.trans e)⟩
  | removeCost i => exact ⟨.removeCost i, rfl, ho⟩
  | removeConstraint i => exact ⟨.removeConstraint i, rfl, ho⟩
  | clearCosts => exact ⟨.clearCosts, trivial, ho⟩
  | clearConstraints => exact ⟨.clearConstraints, trivial, ho⟩
  | resetInitialStateCost R r => exact ⟨.resetInitialStateCost (shM R) (shV r), ⟨shM_R _, shV_R _⟩, ho⟩
  | resetInitialStateBounds l u => exact ⟨.resetInitialStateBounds (shX l) (shX u), ⟨shX_R _, shX_R _⟩, ho⟩
  | solve env =>
    refine ⟨.solve (shEnv d w env), shEnv_R h hv ho, h.ctl.ps ▸ ho.1, contract_R h ho.2 _ (fun q' hq' hf => ?_) fun _ => rfl⟩
    by_cases e : ∃ q, Handed w env q
    · obtain ⟨q, hq⟩ := e
      rw [shEnv_answer hq] at hf ⊢
      have n := handed_nrVar h hv ho hq
      show (env.answer q).2.rows = _
      rw [ho.2.answer q n hf, n, hq', numVars_R h]
    · unfold shEnv at hf
      dsimp only at hf
      rw [dif_neg e] at hf
      cases hf

/-- For every history on any arithmetic there is one on the rationals with the same sizes and lists. -/
theorem hist_R {d : Dims} {dmax : K} {E : World K → Op K → Prop} {E' : World ℚ → Op ℚ → Prop} {w : World K} {g : Ghost}
    (hE : ∀ (w : World K) (v : World ℚ) (op : Op K) (op' : Op ℚ), WorldR AnyNum w v → OpR AnyNum w op op' → E w op → E' v op')
    (h : Hist d dmax E w g) : ∃ v : World ℚ, Hist d 0 E' v g ∧ WorldR AnyNum w v := by
  induction h with
  | start h =>
    obtain ⟨v, h1, h2⟩ := init_R h
    exact ⟨v, .start h1, h2⟩
  | @ok w w' g op h ho he hs ih =>
    obtain ⟨v, hv, hR⟩ := ih
    obtain ⟨op', hop, hok⟩ := op_R hR hv op ho
    have k := hR.step scalarAny (dm := dmax) (dm' := 0) trivial hop
    rw [hs] at k
    revert k
    cases e : v.step 0 op' <;> intro k
    · rw [next_R hR hop]
      exact ⟨_, hv.ok hok (hE _ _ _ _ hR hop he) e, k⟩
    · exact k.elim
    · exact k.elim
  | @thrown w w' g op ex h ho he hs ih =>
    obtain ⟨v, hv, hR⟩ := ih
    obtain ⟨op', hop, hok⟩ := op_R hR hv op ho
    have k := hR.step scalarAny (dm := dmax) (dm' := 0) trivial hop
    rw [hs] at k
    revert k
    cases e : v.step 0 op' <;> intro k
    · exact k.elim
    · rw [next_R hR hop]
      exact ⟨_, hv.thrown hok (hE _ _ _ _ hR hop he) e, k.2⟩
    · exact k.elim

end Copra.Spec
