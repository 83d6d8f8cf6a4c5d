import Verif.Props.UserThrow

/-! # C115: calling `solve()` again after the solver threw -/

namespace Copra
open Spec

set_option linter.unusedSectionVars false
set_option linter.unusedSimpArgs false

variable {K S : Type} [Field K] [LinearOrder K] [IsStrictOrderedRing K]

theorem times_settled {α : Type} {f : α → Option α} (hf : ∀ a b, f a = some b → f b = some b) :
    ∀ {k : Nat} {a b : α}, 0 < k → times f k a = some b → f b = some b := by
  intro k
  induction k with
  | zero => intro a b h; omega
  | succ k ih =>
    intro a b _ e
    rw [times, Option.bind_eq_some_iff] at e
    obtain ⟨c, e1, e2⟩ := e
    rcases Nat.eq_zero_or_pos k with h | h
    · subst h; cases e2; exact hf _ _ e1
    · exact ih h e2

theorem times_same {α : Type} {f : α → Option α} {a b : α} (hf : f a = some a) : ∀ {k : Nat}, times f k a = some b → b = a := by
  intro k
  induction k with
  | zero => intro e; cases e; rfl
  | succ k ih =>
    intro e
    rw [times, hf, Option.bind_some] at e
    exact ih e

namespace UWorld

variable {d : Dims} {dmax : K} {X X' X2 : UWorld K S} {g : Ghost} {n : Nat × Nat} {env env2 : SolveEnv K} {q q2 : QP K}
  {p : Nat}

/-- The problem that was being handed over when the solver threw is handed over by a `solve` whose solver fails. -/
theorem throw_returns (ht : X.solveThrow env = some (X', q)) : ∃ Y, X.solve (World.failing env) = some (Y, false, q) ∧
    (∀ j, constrObj Y j = constrObj X' j) ∧ ∀ j, costObj Y j = costObj X' j := by
  obtain ⟨X1, p, l, s, -, hp, hl, -, -, hX⟩ := solveThrow_inv ht
  have hps : X'.world.ctl.ps = some p := by
    rw [hX]; exact (LMPC.makeQPForm_fixed hl).ps.trans hp
  have e : X.solveThrow (World.failing env) = X.solveThrow env := rfl
  rw [solve_eq, e, ht]
  simp only [Option.bind_some, World.finish, hps, World.failing, cond_false, Option.map_some]
  exact ⟨_, rfl, fun _ => rfl, fun _ => rfl⟩

theorem failing_uok (ho : UOk d X g (.api (.solve env))) : UOk d X g (.api (.solve (World.failing env))) :=
  ⟨⟨ho.1.1, ⟨ho.1.2.sol, fun q _ hq => by simp [World.failing] at hq, ho.1.2.init⟩⟩, trivial⟩

theorem threw_updated (h : XHist d dmax X g n) (ht : X.solveThrow env = some (X', q)) (hp : X.world.ctl.ps = some p) :
    (X'.world.pss p).isUpdated = true := by
  obtain ⟨a, b, H0⟩ := xhist_auhist h
  obtain ⟨s, -, H⟩ := auhist_uhist H0
  obtain ⟨X1, p2, l, s, h1, hp2, hl, -, -, rfl⟩ := solveThrow_inv ht
  obtain ⟨p1, ps, l1, l2, cons, cm, costs, km, hp1, hps, -, -, hc, hk, rfl, F⟩ := updateSystem_inv h1
  rw [hp] at hp1; cases hp1
  dsimp only
  rw [World.upd_same]
  by_cases hu : (X.world.pss p).isUpdated = true
  · rw [if_pos hu] at hps; cases hps; exact hu
  · rw [if_neg hu] at hps
    obtain ⟨v, gv, P, -⟩ := projects H
    have hs := (P.hist.good.ctl p (P.without.ctl.ps.trans hp)).1
    have G := (P.hist.good.sys p hs).1
    rw [P.without.pss] at G
    obtain ⟨ps', e, -, -, hu', -⟩ := Copra.updateSystem_ok (ps := X.world.pss p) G
    rw [hps] at e; cases e
    exact hu'

/-- After two attempts the user-defined objects are as after the first. -/
theorem retry_objects (h : XHist d dmax X g n) (ho : UOk d X g (.api (.solve env))) (ht : X.solveThrow env = some (X', q))
    (h2 : X'.solveThrow env2 = some (X2, q2)) (hp : X.world.ctl.ps = some p) (hset : Settled X) :
    (∀ i ∈ X.world.ctl.spConstr, ∀ C, X.consClass i = some C → constrObj X2 i = constrObj X' i) ∧
    ∀ i ∈ X.world.ctl.spCost, ∀ C, X.costClass i = some C → costObj X2 i = costObj X' i := by
  have h' := XHist.solverThrew h ho ht
  obtain ⟨-, ⟨c, -, -, -, k⟩, ⟨-, hps, -⟩, -, -, -, -, -, ⟨-, -, cc, kc⟩, u1, v1⟩ := c115_keeps h ht hp
  have hp' : X'.world.ctl.ps = some p := hps.trans hp
  obtain ⟨-, -, -, -, -, -, -, -, -, u2, v2⟩ := c115_keeps h' h2 hp'
  have e : X2.world.pss p = X'.world.pss p := by
    have hu := threw_updated h ht hp
    obtain ⟨X1, p2, l, s, h1, hp2, hl, -, -, rfl⟩ := solveThrow_inv h2
    obtain ⟨p1, ps, l1, l2, cons, cm, costs, km, hp1, hps, -, -, hc, hk, rfl, F⟩ := updateSystem_inv h1
    rw [hp'] at hp1; cases hp1
    rw [if_pos hu] at hps; cases hps
    dsimp only
    rw [World.upd_same]
  rw [e] at u2 v2
  rw [c, cc] at u2
  rw [k, kc] at v2
  refine ⟨fun i hi C hC => ?_, fun i hi C hC => ?_⟩
  · exact times_same (times_settled (fun a b => hset.1 i hi C hC _ a b) (List.count_pos_iff.2 hi) (u1 i C hC)) (u2 i C hC)
  · exact times_same (times_settled (fun a b => hset.2 i hi C hC _ a b) (List.count_pos_iff.2 hi) (v1 i C hC)) (v2 i C hC)

/-- The system of the controller has the dimensions of the history. -/
theorem xhist_dims (h : XHist d dmax X g n) (hp : X.world.ctl.ps = some p) :
    (X.world.pss p).xDim = d.n ∧ (X.world.pss p).fullUDim = d.m * d.N := by
  obtain ⟨a, b, H0⟩ := xhist_auhist h
  obtain ⟨s, -, H⟩ := auhist_uhist H0
  obtain ⟨v, gv, P, -⟩ := projects H
  have hs := (P.hist.good.ctl p (P.without.ctl.ps.trans hp)).1
  have G := (P.hist.good.sys p hs).1.dims
  rw [P.without.pss] at G
  exact ⟨G.xDim, G.fullU⟩

/-- The classes of the registered objects still conform after the solver threw. -/
theorem threw_conforming (h : XHist d dmax X g n) (hconf : Conforming d X) (ho : UOk d X g (.api (.solve env)))
    (ht : X.solveThrow env = some (X', q)) (hp : X.world.ctl.ps = some p) : Conforming d X' := by
  have h' := XHist.solverThrew h ho ht
  obtain ⟨-, ⟨c, -, -, -, k⟩, ⟨-, hps, -⟩, -, -, -, -, -, ⟨-, -, cc, kc⟩, u, v⟩ := c115_keeps h ht hp
  obtain ⟨D1, D2⟩ := xhist_dims h' (hps.trans hp)
  refine ⟨fun i hi C hC => ?_, fun i hi C hC => ?_⟩
  · rw [c] at hi; rw [cc] at hC
    have F := hconf.1 i hi C hC
    have step : ∀ (m : Nat) (o o' : Rows K × S), o.1.nrConstr = (X.world.cons i).nrConstr →
        times (C.update (X'.world.pss p)) m o = some o' → o'.1.nrConstr = (X.world.cons i).nrConstr := by
      intro m
      induction m with
      | zero => intro o o' e t; cases t; exact e
      | succ m ih =>
        intro o o' e t
        rw [times, Option.bind_eq_some_iff] at t
        obtain ⟨o1, t1, t2⟩ := t
        exact ih o1 o' (F _ _ _ D1 D2 e t1).1 t2
    have e : (X'.world.cons i).nrConstr = (X.world.cons i).nrConstr := step _ _ _ rfl (u i C hC)
    rw [e]; exact F
  · rw [k] at hi; rw [kc] at hC
    exact hconf.2 i hi C hC

/-- The constraints of the next problem of an `InitialStateLMPC`. -/
theorem xhist_feasible_from {b : Bool} (h : XHist d dmax X g n) (hconf : Conforming d X) (ho : UOk d X g (.api (.solve env)))
    (hi : X.world.ctl.isInit = true) (hb : X.world.ctl.spBoundConstr = [] → g.clean)
    (hh : ∀ i ∈ X.world.ctl.spConstr, X.consClass i = none → (X.world.cons i).userData.Honest)
    (hs : X.solve env = some (X', b, q)) (hp : X.world.ctl.ps = some p) (x U : Nat → K) :
    Feasible q (joined d x U) ↔ AllHoldFrom d X X' p x U ∧ InitBounds d X.world.ctl x ∧
      (X.world.ctl.spBoundConstr = [] → ∀ j < d.m * d.N, -dmax ≤ U j ∧ U j ≤ dmax) := by
  obtain ⟨a, b, H0⟩ := xhist_auhist h
  obtain ⟨s, -, H⟩ := auhist_uhist H0
  exact c91_feasible_from (X := (X.clock a b).patch s) H hconf (patch_uok (clock_uok ho)) hi hb hh
    ((patch_solve env _).trans ((clock_solve env X).trans hs)) hp x U

/-- And its objective. -/
theorem xhist_objective_from {b : Bool} (h : XHist d dmax X g n) (hconf : Conforming d X) (ho : UOk d X g (.api (.solve env)))
    (hi : X.world.ctl.isInit = true)
    (hf : ∀ i ∈ X.world.ctl.spCost, X.costClass i = none → (X.world.costs i).userData.PerStepState d →
      g.fresh i ∧ X.world.ctl.spCost.count i = 1)
    (hs : X.solve env = some (X', b, q)) (hp : X.world.ctl.ps = some p) (x : Nat → K) :
    ∃ k : K, ∀ U : Nat → K, objective q (joined d x U) = totalWithFrom d X X' p x U + k := by
  obtain ⟨a, b, H0⟩ := xhist_auhist h
  obtain ⟨s, -, H⟩ := auhist_uhist H0
  exact c91_objective_from (X := (X.clock a b).patch s) H hconf (patch_uok (clock_uok ho)) hi hf
    ((patch_solve env _).trans ((clock_solve env X).trans hs)) hp x

theorem handed_threw {b : Bool} (h : X.solve env = some (X2, b, q)) : ∃ X3, X.solveThrow env = some (X3, q) := by
  rw [solve_eq, Option.bind_eq_some_iff] at h
  obtain ⟨⟨Y, q3⟩, e1, e2⟩ := h
  unfold World.finish at e2
  simp only [Option.map_eq_some_iff, Option.bind_eq_some_iff, Prod.mk.injEq] at e2
  obtain ⟨_, ⟨_, _, _, _, rfl⟩, _, _, rfl⟩ := e2
  exact ⟨Y, e1⟩

/-- **C115** (trying again): `solve()` is called again after the solver threw, without a call in between; the next attempt may
return or throw as well.  If the user-defined objects settle, and no library cost on the trajectory is given per step (those count
twice, code defect C27), the next attempt hands over a problem with the same feasible controls, which ranks controls alike. -/
theorem c115_retry (h : XHist d dmax X g n) (hconf : Conforming d X)
    (ho : UOk d X g (.api (.solve env))) (ho2 : UOk d X' (unext g X True (.api (.solve env))) (.api (.solve env2)))
    (hi : X.world.ctl.isInit = false) (hb : X.world.ctl.spBoundConstr = [] → g.clean)
    (hh : ∀ i ∈ X.world.ctl.spConstr, X.consClass i = none → (X.world.cons i).userData.Honest)
    (hn : ∀ i ∈ X.world.ctl.spCost, X.costClass i = none → ¬ (X.world.costs i).userData.PerStepState d)
    (hset : Settled X) (ht : X.solveThrow env = some (X', q))
    (h2 : (∃ b, X'.solve env2 = some (X2, b, q2)) ∨ X'.solveThrow env2 = some (X2, q2)) (hp : X.world.ctl.ps = some p) :
    (∀ U, Feasible q2 U ↔ Feasible q U) ∧ ∃ k : K, ∀ U, objective q2 U = objective q U + k := by
  obtain ⟨X2, h2⟩ : ∃ X2, X'.solveThrow env2 = some (X2, q2) := by
    rcases h2 with ⟨b, h2⟩ | h2
    · exact handed_threw h2
    · exact ⟨X2, h2⟩
  have h' := XHist.solverThrew h ho ht
  have hconf' := threw_conforming h hconf ho ht hp
  obtain ⟨o1, o2⟩ := retry_objects h ho ht h2 hp hset
  obtain ⟨-, ⟨c, -, -, bc, k⟩, ⟨ii, hps, -⟩, uc, uk, sys, -, -, ⟨-, -, cc, kc⟩, -⟩ := c115_keeps h ht hp
  have hp' : X'.world.ctl.ps = some p := hps.trans hp
  obtain ⟨Y, s1, c1, k1⟩ := throw_returns ht
  obtain ⟨Y2, s2, c2, k2⟩ := throw_returns h2
  have tr : ∀ U, traj d X'.world p U = traj d X.world p U := fun U => by
    unfold traj; rw [(sys p).1, (sys p).2.1, (sys p).2.2.1, (sys p).2.2.2]
  have nps : ∀ i, X.costClass i = none → ((X'.world.costs i).userData.PerStepState d ↔ (X.world.costs i).userData.PerStepState d) :=
    fun i hi => by rw [uk i hi]
  refine ⟨fun U => ?_, ?_⟩
  · rw [c115_feasible h hconf (failing_uok ho) hi hb hh s1 hp,
      c115_feasible h' hconf' (failing_uok ho2) (ii.trans hi) (fun e => by
        rw [bc] at e
        exact ⟨hb e, e⟩) (fun i hm hc => by
        rw [c] at hm; rw [cc] at hc; rw [uc i hc]; exact hh i hm hc) s2 hp', bc]
    refine and_congr_left' ?_
    unfold AllHold
    rw [c, cc]
    refine forall₂_congr fun i hm => ?_
    cases hC : X.consClass i with
    | none => simp only [uc i hC, tr]
    | some C => simp only [c1, c2, o1 i hm C hC]
  · obtain ⟨a, A⟩ := c115_objective h hconf (failing_uok ho) hi (fun i hm hc hq => absurd hq (hn i hm hc)) s1 hp
    obtain ⟨b, B⟩ := c115_objective h' hconf' (failing_uok ho2) (ii.trans hi) (fun i hm hc hq => by
      rw [k] at hm; rw [kc] at hc; exact absurd ((nps i hc).1 hq) (hn i hm hc)) s2 hp'
    refine ⟨b - a, fun U => ?_⟩
    have e : totalWith d X' Y2 p U = totalWith d X Y p U := by
      unfold totalWith
      rw [k]
      congr 2
      refine List.map_congr_left fun i hm => ?_
      unfold partOf
      rw [kc]
      cases hC : X.costClass i with
      | none => simp only [uk i hC, tr]
      | some C => simp only [k1, k2, o2 i hm C hC]
    rw [A, B, e]
    ring

/-- **C115** (trying again, `InitialStateLMPC`): the same for every initial state. -/
theorem c115_retry_from (h : XHist d dmax X g n) (hconf : Conforming d X)
    (ho : UOk d X g (.api (.solve env))) (ho2 : UOk d X' (unext g X True (.api (.solve env))) (.api (.solve env2)))
    (hi : X.world.ctl.isInit = true) (hb : X.world.ctl.spBoundConstr = [] → g.clean)
    (hh : ∀ i ∈ X.world.ctl.spConstr, X.consClass i = none → (X.world.cons i).userData.Honest)
    (hn : ∀ i ∈ X.world.ctl.spCost, X.costClass i = none → ¬ (X.world.costs i).userData.PerStepState d)
    (hset : Settled X) (ht : X.solveThrow env = some (X', q))
    (h2 : (∃ b, X'.solve env2 = some (X2, b, q2)) ∨ X'.solveThrow env2 = some (X2, q2)) (hp : X.world.ctl.ps = some p) (x : Nat → K) :
    (∀ U, Feasible q2 (joined d x U) ↔ Feasible q (joined d x U)) ∧
      ∃ k : K, ∀ U, objective q2 (joined d x U) = objective q (joined d x U) + k := by
  obtain ⟨X2, h2⟩ : ∃ X2, X'.solveThrow env2 = some (X2, q2) := by
    rcases h2 with ⟨b, h2⟩ | h2
    · exact handed_threw h2
    · exact ⟨X2, h2⟩
  have h' := XHist.solverThrew h ho ht
  have hconf' := threw_conforming h hconf ho ht hp
  obtain ⟨o1, o2⟩ := retry_objects h ho ht h2 hp hset
  obtain ⟨-, ⟨c, -, -, bc, k⟩, ⟨ii, hps, -, -, xl, xu⟩, uc, uk, sys, -, -, ⟨-, -, cc, kc⟩, -⟩ := c115_keeps h ht hp
  have hp' : X'.world.ctl.ps = some p := hps.trans hp
  obtain ⟨Y, s1, c1, k1⟩ := throw_returns ht
  obtain ⟨Y2, s2, c2, k2⟩ := throw_returns h2
  have tr : ∀ U, trajFrom d X'.world p x U = trajFrom d X.world p x U := fun U => by
    unfold trajFrom; rw [(sys p).1, (sys p).2.1, (sys p).2.2.1]
  have nps : ∀ i, X.costClass i = none → ((X'.world.costs i).userData.PerStepState d ↔ (X.world.costs i).userData.PerStepState d) :=
    fun i hi => by rw [uk i hi]
  have ib : InitBounds d X'.world.ctl x ↔ InitBounds d X.world.ctl x := by unfold InitBounds; rw [xl, xu]
  refine ⟨fun U => ?_, ?_⟩
  · rw [xhist_feasible_from h hconf (failing_uok ho) hi hb hh s1 hp,
      xhist_feasible_from h' hconf' (failing_uok ho2) (ii.trans hi) (fun e => by
        rw [bc] at e
        exact ⟨hb e, e⟩) (fun i hm hc => by
        rw [c] at hm; rw [cc] at hc; rw [uc i hc]; exact hh i hm hc) s2 hp', bc, ib]
    refine and_congr_left' ?_
    unfold AllHoldFrom
    rw [c, cc]
    refine forall₂_congr fun i hm => ?_
    cases hC : X.consClass i with
    | none => simp only [uc i hC, tr]
    | some C => simp only [c1, c2, o1 i hm C hC]
  · obtain ⟨a, A⟩ := xhist_objective_from h hconf (failing_uok ho) hi (fun i hm hc hq => absurd hq (hn i hm hc)) s1 hp x
    obtain ⟨b, B⟩ := xhist_objective_from h' hconf' (failing_uok ho2) (ii.trans hi) (fun i hm hc hq => by
      rw [k] at hm; rw [kc] at hc; exact absurd ((nps i hc).1 hq) (hn i hm hc)) s2 hp' x
    refine ⟨b - a, fun U => ?_⟩
    have e : totalWithFrom d X' Y2 p x U = totalWithFrom d X Y p x U := by
      unfold totalWithFrom
      rw [k]
      congr 2
      refine List.map_congr_left fun i hm => ?_
      unfold partFrom
      rw [kc]
      cases hC : X.costClass i with
      | none => simp only [uk i hC, tr]
      | some C => simp only [k1, k2, o2 i hm C hC]
    rw [A, B, e]
    ring

end UWorld
end Copra
