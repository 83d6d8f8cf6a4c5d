import Verif.Props.InitState
import Verif.Props.Results

/-! # Properties C47-C49: using an `InitialStateLMPC` -/

namespace Copra
open Spec

set_option linter.unusedSectionVars false
set_option linter.unusedSimpArgs false

variable {K : Type} [Field K] [LinearOrder K] [IsStrictOrderedRing K]

namespace World

/-! ## C47 -/

/-- C47, the true part: right after a successful solve of an `InitialStateLMPC`, `initialState()` is the state
part of the solver's answer, `trajectory()` is the simulation from `initialState()` under `control()` and in
particular starts with `initialState()`, and `initialState()` is within the configured bounds if the solver's
answer is feasible.  What is missing: after a later failed solve `trajectory()` no longer starts with
`initialState()` (`c47_false`). -/
theorem c47_initial_state_partial {d : Dims} {dmax : K} {E : World K → Op K → Prop} {w w' : World K} {g : Ghost}
    {env : SolveEnv K} {q : QP K} {p : Nat} (h : Hist d dmax E w g) (ho : OpOk d w g (.solve env))
    (hi : w.ctl.isInit = true) (hs : w.solve env = some (w', true, q)) (hp : w.ctl.ps = some p) :
    ∃ x : Vec K, w'.ctl.initialState (w'.pss p) = some x ∧ x.rows = d.n ∧ (∀ j < d.n, x.e j = (env.answer q).2.e j) ∧
      IsStacked d (Spec.trajFrom d w p x.e w'.ctl.control.e) w'.ctl.trajectory ∧
      (∀ j < d.n, w'.ctl.trajectory.e j = x.e j) ∧ (Feasible q (env.answer q).2.e → InitBounds d w.ctl x.e) := by
  obtain ⟨p', hp', S⟩ := h.good.solved ho.2 hs
  rw [hp] at hp'
  cases hp'
  obtain ⟨s, _, hsol⟩ := S.sol
  obtain ⟨_, _, st⟩ := S.success rfl
  rw [hi] at st
  simp only [if_true] at st
  have hr := ho.2.answer q S.nrVar S.answer.symm
  rw [S.nrVar, numVars, hi] at hr
  simp only [if_true] at hr
  have hx : (w'.pss p).xDim = d.n := S.heap.sys.dims.toSysShape.xDim
  refine ⟨(env.answer q).2.segment 0 d.n, ?_, rfl, ?_, ?_, ?_, ?_⟩
  · unfold LMPC.initialState
    rw [hsol, hx]
    show (env.answer q).2.segment? 0 d.n = _
    unfold Vec.segment?
    rw [if_pos (by omega)]
  · intro j _
    show (env.answer q).2.e (0 + j) = _
    rw [Nat.zero_add]
  · have e : ((env.answer q).2.segment 0 d.n).e = (env.answer q).2.e := by
      funext j
      show (env.answer q).2.e (0 + j) = _
      rw [Nat.zero_add]
    rw [e]
    exact st
  · intro j hj
    have := st.2 0 j (Nat.zero_le _) hj
    rw [Nat.zero_mul, Nat.zero_add] at this
    rw [this]
    show (env.answer q).2.e j = (env.answer q).2.e (0 + j)
    rw [Nat.zero_add]
  · rintro ⟨_, _, f3, f4⟩ j hj
    have A := S.init hi
    show _ ≤ Ext.fin ((env.answer q).2.e (0 + j)) ∧ Ext.fin ((env.answer q).2.e (0 + j)) ≤ _
    rw [Nat.zero_add, ← (A.bx j hj).1, ← (A.bx j hj).2]
    exact ⟨f3 j (by rw [A.lbr]; omega), f4 j (by rw [A.ubr]; omega)⟩

/-! ## C48 -/

/-- A defined solve of an initial-state controller uses bounds and a linear cost with one entry per state. -/
theorem solve_init_sizes {d : Dims} {env : SolveEnv K} {w w' : World K} {b : Bool} {q : QP K} {p : Nat}
    (hi : w.ctl.isInit = true) (hp : w.ctl.ps = some p) (hS : SysOk d (w.pss p))
    (h : w.solve env = some (w', b, q)) : w.ctl.r.rows = d.n ∧ w.ctl.x0lb.rows = d.n ∧ w.ctl.x0ub.rows = d.n := by
  rename' p => p0, hp => hp0
  obtain ⟨w1, p, l, s, l', h1, hp, hl, hsl, rfl, hbb, hl', rfl⟩ := solve_inv h
  obtain ⟨p1, ps, l1, l2, cons, costs, hp1, hps, e1, e2, hc, hk, rfl, f⟩ := updateSystem_inv h1
  have hp' : w.ctl.ps = some p := f.ps.symm.trans hp
  have : p1 = p0 := by rw [hp1] at hp0; exact Option.some.inj hp0
  subst this
  have : p1 = p := by rw [hp1] at hp'; exact Option.some.inj hp'
  subst this
  have hx : (upd w.pss p1 ps p1).xDim = d.n := by
    rw [upd_same]
    split at hps
    · cases hps; exact hS.dims.toSysShape.xDim
    · obtain ⟨ps', e, o, _⟩ := Copra.updateSystem_ok hS
      rw [e] at hps; cases hps
      exact o.dims.toSysShape.xDim
  have hi2 : l2.isInit = true := f.isInit.trans hi
  simp only at hl
  unfold LMPC.makeQPForm at hl
  rw [if_pos hi2] at hl
  unfold LMPC.makeQPFormInit at hl
  simp only [Option.bind_eq_bind, Option.bind_eq_some_iff, Option.pure_def, Option.some.injEq] at hl
  obtain ⟨l3, h3, ⟨_, Aeq, beq⟩, h4, ⟨_, Aineq, bineq⟩, h5, ⟨_, lb, ub⟩, h6, l4, h7, c, h8, lb', h9, ub', h10, rfl⟩ := hl
  have f3 : LMPC.Fixed l2 l3 := by
    have key : ∀ (L : List Nat) (a b : LMPC K), L.foldlM (LMPC.addCostTermsInit costs (upd w.pss p1 ps p1)) a = some b → LMPC.Fixed a b := by
      intro L
      induction L with
      | nil => intro a b h; cases h; exact LMPC.Fixed.refl _
      | cons x L ih =>
        intro a b h
        rw [List.foldlM_cons] at h
        simp only [Option.bind_eq_bind, Option.bind_eq_some_iff] at h
        obtain ⟨m, hm, h⟩ := h
        exact (LMPC.addCostTermsInit_fixed hm).trans (ih m b h)
    exact key _ _ _ h3
  have f4 := (f.trans f3).trans (LMPC.finishQ_fixed h7)
  refine ⟨?_, ?_, ?_⟩
  · unfold Vec.setSegment? at h8
    split at h8
    · next hh => rw [← f4.r, hh.2]; exact hx
    · cases h8
  · unfold Vec.setSegment? at h9
    split at h9
    · next hh => rw [← f4.x0lb, hh.2]; exact hx
    · cases h9
  · unfold Vec.setSegment? at h10
    split at h10
    · next hh => rw [← f4.x0ub, hh.2]; exact hx
    · cases h10

theorem hist_any {d : Dims} {dmax : K} {E : World K → Op K → Prop} {w : World K} {g : Ghost} (h : Hist d dmax E w g) :
    Hist d dmax AnyOp w g := by
  induction h with
  | start h => exact .start h
  | ok _ ho _ hs ih => exact .ok ih ho trivial hs
  | thrown _ ho _ hs ih => exact .thrown ih ho trivial hs

/-- C48 is false of the code, for every system with at least one state: after the default constructor and
`initializeController(ps)` alone, `solve()` assigns empty vectors to the initial-state part of the problem,
whatever the environment does. -/
theorem c48_default_constructed_unusable {d : Dims} {dmax : K} {E : World K → Op K → Prop} {w w1 w2 : World K} {g : Ghost}
    {p : Nat} {s : Solver K} {jk : Junk K} (h : Hist d dmax E w g) (hp : HasSystem w p) (hn : 0 < d.n)
    (h1 : w.step dmax (.construct true s) = .ok w1) (h2 : w1.step dmax (.initializeController p jk) = .ok w2)
    (env : SolveEnv K) : w2.solve env = none ∧ w2.step dmax (.solve env) = .ub := by
  have key : w2.solve env = none := by
    cases hs : w2.solve env with
    | none => rfl
    | some r =>
      obtain ⟨w3, b, q⟩ := r
      exfalso
      simp only [step] at h1
      cases h1
      simp only [step, Res.map_ok, Res.ofOption_ok] at h2
      obtain ⟨l, hl, rfl⟩ := h2
      obtain ⟨n, _, rfl⟩ := initializeController_inv hl
      have hsys : SysOk d (w.pss p) := (h.good.sys p hp).1
      have := (by refine solve_init_sizes (d := d) (p := p) ?_ ?_ ?_ hs <;> first | rfl | exact hsys : _ ∧ _ ∧ _).1
      have e : (0 : Nat) = d.n := this
      omega
  refine ⟨key, ?_⟩
  simp only [step, key]
  rfl

/-- C48, the true part: what has to be called besides `initializeController(ps)` is
`resetInitialStateCost` and `resetInitialStateBounds`, with arguments of the right size.  From any history,
for every system, the controller is then solvable. -/
theorem c48_with_resets_partial {d : Dims} {dmax : K} {E : World K → Op K → Prop} {w : World K} {g : Ghost}
    {p : Nat} {s : Solver K} {jk : Junk K} {R : Mat K} {r : Vec K} {lo up : Vec (Ext K)} {env : SolveEnv K}
    (h : Hist d dmax E w g) (hp : HasSystem w p) (hm : d.n + d.m * d.N ≤ intMax)
    (hR : R.rows = d.n ∧ R.cols = d.n) (hr : r.rows = d.n) (hlo : lo.rows = d.n) (hup : up.rows = d.n)
    (ans : ∀ q : QP K, q.nrVar = d.n + d.m * d.N → (env.answer q).1 = true → (env.answer q).2.rows = q.nrVar)
    (inv : ∀ M : Mat K, M.rows = d.m * d.N → M.cols = d.m * d.N →
      (env.inverse M).rows = d.m * d.N ∧ (env.inverse M).cols = d.m * d.N) :
    ∃ w' w'' b q, w.run dmax [.construct true s, .initializeController p jk, .resetInitialStateCost R r,
      .resetInitialStateBounds lo up] = some w' ∧ w'.solve env = some (w'', b, q) ∧ WellSized q ∧
      q.nrVar = d.n + d.m * d.N := by
  have hg := (h.good.sys p hp).1
  have hsz : (LMPC.construct true s).optSize (w.pss p) = some (d.n + d.m * d.N) := by
    rw [LMPC.optSize_ok hg.dims.toSysShape (fun _ => hm)]
    rfl
  obtain ⟨l, hl⟩ : ∃ l, (LMPC.construct true s).initializeController dmax jk p (w.pss p) = some l := by
    unfold LMPC.initializeController LMPC.clearConstraintMatrices LMPC.updateQPMatrixSize
    have : { LMPC.construct true s with ps := some p }.optSize (w.pss p) = some (d.n + d.m * d.N) := hsz
    rw [this]
    simp only [Option.bind_eq_bind, Option.bind_some, Option.pure_def]
    have : ∀ (a1 a2 : Mat K) (a3 a4 a5 a6 : Vec (Ext K)), { LMPC.construct true s with
      ps := some p, Aineq := a1, Aeq := a2, bineq := a3, beq := a4, lb := a5, ub := a6 }.optSize (w.pss p) = some (d.n + d.m * d.N) :=
      fun _ _ _ _ _ _ => hsz
    rw [this]
    exact ⟨_, rfl⟩
  have st1 : w.step dmax (.construct true s) = .ok { w with ctl := LMPC.construct true s } := rfl
  have st2 : { w with ctl := LMPC.construct true s }.step dmax (.initializeController p jk) = .ok { w with ctl := l } := by
    simp only [step, hl]
    rfl
  have st3 : { w with ctl := l }.step dmax (.resetInitialStateCost R r) = .ok { w with ctl := { l with R := R, r := r } } := rfl
  have st4 : { w with ctl := { l with R := R, r := r } }.step dmax (.resetInitialStateBounds lo up) =
    .ok { w with ctl := { l with R := R, r := r, x0lb := lo, x0ub := up } } := rfl
  have k1 := Hist.ok (op := .construct true s) (hist_any h) trivial trivial st1
  have k2 := Hist.ok (op := .initializeController p jk) k1 (show HasSystem _ p from hp) trivial st2
  have k3 := Hist.ok (op := .resetInitialStateCost R r) k2 trivial trivial st3
  have k4 := Hist.ok (op := .resetInitialStateBounds lo up) k3 trivial trivial st4
  obtain ⟨n, hn, rfl⟩ := initializeController_inv hl
  obtain ⟨w5, b, q, e1, _, e3, e4⟩ := c50_solve_defined (env := env) k4 ⟨Option.some_ne_none p, Option.some_ne_none s, ans,
    fun _ => ⟨hR.1, hR.2, hr, hlo, hup, inv⟩⟩
  exact ⟨_, w5, b, q, by simp only [run, st1, st2, st3, st4], e1, e3, e4⟩

/-! ## C49 -/

/-- Feasible points of an initial-state controller start within the configured bounds. -/
theorem feasible_initBounds {d : Dims} {dmax : K} {E : World K → Op K → Prop} {w w' : World K} {g : Ghost}
    {env : SolveEnv K} {b : Bool} {q : QP K} (h : Hist d dmax E w g) (ho : OpOk d w g (.solve env))
    (hi : w.ctl.isInit = true) (hs : w.solve env = some (w', b, q)) {y : Nat → K} (hy : Feasible q y) :
    InitBounds d w.ctl y := by
  obtain ⟨p, hp, S⟩ := h.good.solved ho.2 hs
  have A := S.init hi
  obtain ⟨_, _, f3, f4⟩ := hy
  intro j hj
  rw [← (A.bx j hj).1, ← (A.bx j hj).2]
  exact ⟨f3 j (by rw [A.lbr]; omega), f4 j (by rw [A.ubr]; omega)⟩

/-- C49 is false of the code, for every system and every new initial state: an `InitialStateLMPC` keeps the
initial-state bounds it copied when it was constructed, so after `ps->xInit(x)` every feasible point of its
problem still starts at the old initial state. -/
theorem c49_xInit_ignored {d : Dims} {dmax : K} {E : World K → Op K → Prop} {w w1 w2 w3 : World K} {g : Ghost}
    {p : Nat} {s : Solver K} {jk : Junk K} {x : Vec K} {env : SolveEnv K} {b : Bool} {q : QP K}
    (h : Hist d dmax E w g) (hp : HasSystem w p) (hx : x.rows = d.n)
    (h1 : w.step dmax (.constructPs true s p jk) = .ok w1) (h2 : w1.step dmax (.xInit p x) = .ok w2)
    (hc : SolveContract d env w2.ctl) (hs : w2.solve env = some (w3, b, q)) {y : Nat → K} (hy : Feasible q y) :
    ∀ j < d.n, y j = (w.pss p).x0.e j := by
  have k1 := Hist.ok (op := .constructPs true s p jk) (hist_any h) hp trivial h1
  have k2 := Hist.ok (op := .xInit p x) k1 hx trivial h2
  simp only [step, Res.map_ok, Res.ofOption_ok] at h1
  obtain ⟨l, hl, rfl⟩ := h1
  obtain ⟨n, _, rfl⟩ := initializeController_inv hl
  simp only [step] at h2
  have hh : w2.ctl.isInit = true ∧ w2.ctl.ps = some p ∧ w2.ctl.x0lb = (w.pss p).x0.toExt ∧ w2.ctl.x0ub = (w.pss p).x0.toExt := by
    cases h2; exact ⟨rfl, rfl, rfl, rfl⟩
  have B := feasible_initBounds k2 (env := env) ⟨by rw [hh.2.1]; exact Option.some_ne_none _, hc⟩ hh.1 hs hy
  intro j hj
  have := B j hj
  exact Ext.pinned (by rw [hh.2.2.1]; rfl) (by rw [hh.2.2.2]; rfl) this.1 this.2

/-- C49, the true part: with `resetInitialStateBounds(x, x)` after `ps->xInit(x)` every feasible point starts
at `x`. -/
theorem c49_with_reset_partial {d : Dims} {dmax : K} {E : World K → Op K → Prop} {w w1 w2 w3 : World K} {g : Ghost}
    {p : Nat} {x : Vec K} {env : SolveEnv K} {b : Bool} {q : QP K}
    (h : Hist d dmax E w g) (hi : w.ctl.isInit = true) (hp : w.ctl.ps = some p) (hx : x.rows = d.n)
    (h1 : w.step dmax (.xInit p x) = .ok w1) (h2 : w1.step dmax (.resetInitialStateBounds x.toExt x.toExt) = .ok w2)
    (hc : SolveContract d env w2.ctl) (hs : w2.solve env = some (w3, b, q)) {y : Nat → K} (hy : Feasible q y) :
    (∀ j < d.n, y j = x.e j) ∧ (w2.pss p).x0 = x := by
  have k1 := Hist.ok (op := .xInit p x) (hist_any h) hx trivial h1
  have k2 := Hist.ok (op := .resetInitialStateBounds x.toExt x.toExt) k1 trivial trivial h2
  simp only [step] at h2
  cases h2
  simp only [step] at h1
  have hh : w1.ctl = w.ctl ∧ (w1.pss p).x0 = x := by
    cases h1; exact ⟨rfl, by simp only [upd_same]; rfl⟩
  have B := feasible_initBounds k2 (env := env) ⟨by show w1.ctl.ps ≠ none; rw [hh.1, hp]; exact Option.some_ne_none _, hc⟩
    (by show w1.ctl.isInit = true; rw [hh.1]; exact hi) hs hy
  refine ⟨?_, hh.2⟩
  intro j hj
  have := B j hj
  exact Ext.pinned (a := x.e j) rfl rfl this.1 this.2

end World
end Copra
