import Verif.SpecAbort
import Verif.Props.Same
import Verif.Proofs.Mask

/-! # A `solve()` aborted by the solver is a failed `solve()` that drops nothing (for C86) -/

namespace Copra
open Spec

set_option linter.unusedSectionVars false
set_option linter.unusedSimpArgs false

variable {K : Type} [Field K] [LinearOrder K] [IsStrictOrderedRing K]

/-- Set the time measurements. -/
def LMPC.clock (a b : Option Int) (l : LMPC K) : LMPC K := { l with solveTime := a, solveAndBuildTime := b }

namespace World

/-- Set the time measurements. -/
def clock (a b : Option Int) (w : World K) : World K := { w with ctl := w.ctl.clock a b }

variable {a b : Option Int}

theorem clock_self (w : World K) : clock w.ctl.solveTime w.ctl.solveAndBuildTime w = w := rfl

theorem clock_updateNr (cons : Nat → Constr K) (l : LMPC K) : (l.clock a b).updateNr cons = (l.updateNr cons).map (LMPC.clock a b) := by
  unfold LMPC.updateNr
  show ((LMPC.countConstr cons l.spEqConstr).bind _) = _
  cases LMPC.countConstr cons l.spEqConstr with
  | none => rfl
  | some n =>
    simp only [Option.bind_some, Option.bind_eq_bind]
    show ((LMPC.countConstr cons l.spIneqConstr).bind _) = _
    cases LMPC.countConstr cons l.spIneqConstr <;> rfl

theorem clock_size (junk : Junk K) (ps : PreviewSystem K) (l : LMPC K) :
    (l.clock a b).updateConstraintMatrixSize junk ps = (l.updateConstraintMatrixSize junk ps).map (LMPC.clock a b) := by
  unfold LMPC.updateConstraintMatrixSize
  show ((LMPC.optSize l ps).bind _) = _
  cases LMPC.optSize l ps <;> rfl

theorem clock_updateSystem (junk : Junk K) (w : World K) :
    (clock a b w).updateSystem junk = (w.updateSystem junk).map (clock a b) := by
  rw [updateSystem_eq, updateSystem_eq]
  show (w.ctl.ps.bind _) = _
  cases w.ctl.ps with
  | none => rfl
  | some p =>
    simp only [Option.bind_some]
    show ((if (w.pss p).isUpdated then some (w.pss p) else (w.pss p).updateSystem).bind _) = _
    cases (if (w.pss p).isUpdated then some (w.pss p) else (w.pss p).updateSystem) with
    | none => rfl
    | some ps =>
      simp only [Option.bind_some]
      generalize hl : ({ w.ctl with
        Q := (Mat.identity w.ctl.Q.rows w.ctl.Q.cols).scale (1 / 1000000)
        c := Vec.zero w.ctl.c.rows } : LMPC K) = l
      have e : ({ (clock a b w).ctl with
        Q := (Mat.identity (clock a b w).ctl.Q.rows (clock a b w).ctl.Q.cols).scale (1 / 1000000)
        c := Vec.zero (clock a b w).ctl.c.rows } : LMPC K) = l.clock a b := by subst hl; rfl
      rw [e]
      show ((l.clock a b).updateNr w.cons).bind _ = _
      rw [clock_updateNr]
      cases l.updateNr w.cons with
      | none => rfl
      | some l1 =>
        simp only [Option.bind_some, Option.map_some, clock_size]
        cases l1.updateConstraintMatrixSize junk ps with
        | none => rfl
        | some l2 =>
          simp only [Option.bind_some, Option.map_some]
          show ((l2.spConstr.foldlM (updateConstr ps) w.cons).bind _) = _
          cases l2.spConstr.foldlM (updateConstr ps) w.cons with
          | none => rfl
          | some cons =>
            simp only [Option.bind_some, Option.map_some]
            show ((l2.spCost.foldlM (updateCost ps) w.costs).bind _) = _
            cases l2.spCost.foldlM (updateCost ps) w.costs <;> rfl

theorem clock_addCostTerms (costs : Nat → Cost K) (l : LMPC K) (i : Nat) :
    LMPC.addCostTerms costs (l.clock a b) i = (LMPC.addCostTerms costs l i).map (LMPC.clock a b) := by
  unfold LMPC.addCostTerms
  show ((l.Q.add? (costs i).Q).bind _) = _
  cases l.Q.add? (costs i).Q with
  | none => rfl
  | some Q =>
    simp only [Option.bind_some, Option.bind_eq_bind]
    show ((l.c.add? (costs i).c).bind _) = _
    cases l.c.add? (costs i).c <;> rfl

theorem clock_addCostTermsInit (costs : Nat → Cost K) (ps : PreviewSystem K) (l : LMPC K) (i : Nat) :
    LMPC.addCostTermsInit costs ps (l.clock a b) i = (LMPC.addCostTermsInit costs ps l i).map (LMPC.clock a b) := by
  have key : ∀ {o : Option (Mat K × Vec K)}, (o.bind fun r => some { l.clock a b with Q := r.1, c := r.2 }) =
      (o.bind fun r => some { l with Q := r.1, c := r.2 }).map (LMPC.clock a b) := by intro o; cases o <;> rfl
  have e : ∀ m : LMPC K, LMPC.addCostTermsInit costs ps m i = ((do
      let ro ← LMPC.cornerOff m.Q.rows ps.fullUDim
      let co ← LMPC.cornerOff m.Q.cols ps.fullUDim
      let Q ← m.Q.addBlock? ro co ps.fullUDim ps.fullUDim (costs i).Q
      let Q ← Q.addBlock? 0 co ps.xDim ps.fullUDim (costs i).E
      let vo ← LMPC.cornerOff m.c.rows ps.fullUDim
      let c ← m.c.addSegment? vo ps.fullUDim (costs i).f
      return (Q, c)) : Option (Mat K × Vec K)).bind fun r => some { m with Q := r.1, c := r.2 } := by
    intro m
    unfold LMPC.addCostTermsInit
    simp only [Option.bind_eq_bind, Option.bind_assoc, Option.pure_def, Option.bind_some]
  rw [e, e]
  exact key

theorem clock_finishQ (inv : Mat K → Mat K) (ps : PreviewSystem K) (l : LMPC K) :
    LMPC.finishQ inv ps (l.clock a b) = (LMPC.finishQ inv ps l).map (LMPC.clock a b) := by
  unfold LMPC.finishQ
  simp only [Option.bind_eq_bind, Option.map_bind, Option.pure_def, Function.comp_def, Option.map_some]
  rfl

theorem clock_makeQPForm (inv : Mat K → Mat K) (cons : Nat → Constr K) (costs : Nat → Cost K) (ps : PreviewSystem K) (l : LMPC K) :
    (l.clock a b).makeQPForm inv cons costs ps = (l.makeQPForm inv cons costs ps).map (LMPC.clock a b) := by
  unfold LMPC.makeQPForm
  show (if l.isInit then _ else _) = _
  split
  · unfold LMPC.makeQPFormInit
    show (List.foldlM (LMPC.addCostTermsInit costs ps) (l.clock a b) l.spCost).bind _ = _
    rw [foldlM_map_mem (f := LMPC.addCostTermsInit costs ps) (m := LMPC.clock a b) l.spCost l
      (fun i _ s => clock_addCostTermsInit costs ps s i)]
    cases l.spCost.foldlM (LMPC.addCostTermsInit costs ps) l with
    | none => rfl
    | some l1 =>
      simp only [Option.map_some, Option.bind_some, Option.bind_eq_bind, Option.map_bind, clock_finishQ, Option.bind_map, Function.comp_def, Option.pure_def, Option.map_some]
      rfl
  · unfold LMPC.makeQPFormBase
    show (List.foldlM (LMPC.addCostTerms costs) (l.clock a b) l.spCost).bind _ = _
    rw [foldlM_map_mem (f := LMPC.addCostTerms costs) (m := LMPC.clock a b) l.spCost l
      (fun i _ s => clock_addCostTerms costs s i)]
    cases l.spCost.foldlM (LMPC.addCostTerms costs) l with
    | none => rfl
    | some l1 =>
      simp only [Option.map_some, Option.bind_some, Option.bind_eq_bind, Option.map_bind, Function.comp_def, Option.pure_def]
      rfl

/-- What `updateResults` computes. -/
def resultPair (ps : PreviewSystem K) (isInit : Bool) (sol : Option (Solver K)) : Option (Vec K × Vec K) :=
  sol.bind fun s =>
    if isInit then
      (LMPC.cornerOff s.result.rows ps.fullUDim).bind fun o =>
      (s.result.segment? o ps.fullUDim).bind fun u =>
      (s.result.segment? 0 ps.xDim).bind fun x0 =>
      (LMPC.predict ps x0 u).bind fun t => some (u, t)
    else (LMPC.predict ps ps.x0 s.result).bind fun t => some (s.result, t)

theorem updateResults_eq (ps : PreviewSystem K) (l : LMPC K) :
    l.updateResults ps = (resultPair ps l.isInit l.sol).map fun r => { l with control := r.1, trajectory := r.2 } := by
  unfold LMPC.updateResults resultPair
  cases hs : l.sol with
  | none => rfl
  | some s =>
    simp only [Option.bind_some, Option.bind_eq_bind, LMPC.initialState, hs]
    cases l.isInit <;>
      simp [Option.map_bind, Function.comp_def, Option.pure_def, Option.bind_eq_bind]

theorem clock_updateResults (ps : PreviewSystem K) (l : LMPC K) :
    (l.clock a b).updateResults ps = (l.updateResults ps).map (LMPC.clock a b) := by
  rw [updateResults_eq, updateResults_eq, Option.map_map]
  rfl

/-- What `solve` does after the solver returned. -/
def finish (env : SolveEnv K) (r : World K × QP K) : Option (World K × Bool × QP K) :=
  r.1.ctl.ps.bind fun p =>
    (bif (env.answer r.2).1 then (r.1.ctl.checkDelete r.1.extCons r.1.extCosts).updateResults (r.1.pss p)
      else some (r.1.ctl.checkDelete r.1.extCons r.1.extCosts)).map fun l =>
      ({ r.1 with ctl := l.clock (some (env.t2 - env.t1)) (some (env.t3 - env.t0)) }, (env.answer r.2).1, r.2)

theorem clock_checkDelete (x y : Nat → Nat) (l : LMPC K) : (l.clock a b).checkDelete x y = (l.checkDelete x y).clock a b := rfl

theorem solve_eq (env : SolveEnv K) (w : World K) : w.solve env = (w.solveThrow env).bind (finish env) := by
  unfold solve solveThrow
  cases w.updateSystem env.junk with
  | none => rfl
  | some w1 =>
    simp only [Option.bind_some, Option.bind_eq_bind]
    cases hp : w1.ctl.ps with
    | none => rfl
    | some p =>
      simp only [Option.bind_some]
      cases hl : w1.ctl.makeQPForm env.inverse w1.cons w1.costs (w1.pss p) with
      | none => rfl
      | some l =>
        simp only [Option.bind_some]
        cases l.sol with
        | none => rfl
        | some s =>
          have hps : l.ps = some p := (LMPC.makeQPForm_fixed hl).ps.trans hp
          simp only [Option.bind_some, Option.pure_def]
          generalize hm : ({ l with sol := some { s with result := (env.answer l.qp).2 } } : LMPC K) = m
          have hpm : m.ps = some p := by subst hm; exact hps
          have e : ({ l with sol := some { s with result := (env.answer l.qp).2 }, solveTime := some (env.t2 - env.t1) } : LMPC K) =
              m.clock (some (env.t2 - env.t1)) m.solveAndBuildTime := by subst hm; rfl
          rw [e, clock_checkDelete, clock_updateResults]
          simp only [finish, hpm, Option.bind_some]
          generalize LMPC.checkDelete w1.extCons w1.extCosts m = n
          cases (env.answer l.qp).1 with
          | false => rfl
          | true =>
            simp only [if_true, cond_true]
            generalize LMPC.updateResults (w1.pss p) n = o
            cases o <;> rfl

theorem clock_finish (env : SolveEnv K) (v : World K) (q : QP K) : finish env (clock a b v, q) = finish env (v, q) := by
  unfold finish
  have e1 : ∀ x y, (clock a b v).ctl.checkDelete x y = (v.ctl.checkDelete x y).clock a b := fun _ _ => rfl
  have e2 : (clock a b v).ctl.ps = v.ctl.ps := rfl
  have e3 : (clock a b v).extCons = v.extCons := rfl
  have e4 : (clock a b v).extCosts = v.extCosts := rfl
  have e5 : (clock a b v).pss = v.pss := rfl
  simp only [e1, e2, e3, e4, e5, clock_updateResults]
  cases v.ctl.ps with
  | none => rfl
  | some p =>
    simp only [Option.bind_some]
    generalize LMPC.checkDelete v.extCons v.extCosts v.ctl = l
    cases (env.answer q).1 with
    | false => rfl
    | true =>
      simp only [cond_true]
      generalize LMPC.updateResults (v.pss p) l = o
      cases o <;> rfl

theorem clock_solveThrow (env : SolveEnv K) (w : World K) :
    (clock a b w).solveThrow env = (w.solveThrow env).map fun r => (clock a b r.1, r.2) := by
  unfold solveThrow
  rw [clock_updateSystem]
  cases w.updateSystem env.junk with
  | none => rfl
  | some w1 =>
    simp only [Option.map_some, Option.bind_some, Option.bind_eq_bind]
    show (w1.ctl.ps.bind _) = _
    cases w1.ctl.ps with
    | none => rfl
    | some p =>
      simp only [Option.bind_some]
      show ((w1.ctl.clock a b).makeQPForm env.inverse w1.cons w1.costs (w1.pss p)).bind _ = _
      rw [clock_makeQPForm]
      cases w1.ctl.makeQPForm env.inverse w1.cons w1.costs (w1.pss p) with
      | none => rfl
      | some l =>
        simp only [Option.map_some, Option.bind_some]
        show (l.sol.bind _) = _
        cases l.sol <;> rfl

theorem clock_solve (env : SolveEnv K) (w : World K) : (clock a b w).solve env = w.solve env := by
  rw [solve_eq, solve_eq, clock_solveThrow]
  cases w.solveThrow env with
  | none => rfl
  | some r => exact clock_finish env r.1 r.2

theorem clock_addConstraintByType (l : LMPC K) (i : Nat) (c : Constr K) :
    (l.clock a b).addConstraintByType i c = (l.addConstraintByType i c).map (LMPC.clock a b) := by
  unfold LMPC.addConstraintByType
  cases c.constraintType with
  | bound => rfl
  | equality =>
    simp only
    show Option.bind (chkInt (l.nrEqConstr + c.nrConstr)) _ = _
    cases chkInt (l.nrEqConstr + c.nrConstr) <;> rfl
  | inequality =>
    simp only
    show Option.bind (chkInt (l.nrIneqConstr + c.nrConstr)) _ = _
    cases chkInt (l.nrIneqConstr + c.nrConstr) <;> rfl

/-- A step from a state with other time measurements does the same. -/
theorem clock_step {dmax : K} {w : World K} {op : Op K} :
    ∃ f : World K → World K, (∀ v, ButTimes v (f v)) ∧ (clock a b w).step dmax op = (w.step dmax op).map f := by
  have hid : ∀ v : World K, ButTimes v (id v) := fun v => ⟨v.ctl.solveTime, v.ctl.solveAndBuildTime, rfl⟩
  have hcl : ∀ v : World K, ButTimes v (clock a b v) := fun v => ⟨a, b, rfl⟩
  have mid : ∀ {r : Res (World K)}, r = r.map id := by intro r; cases r <;> rfl
  cases op
  case solve env => exact ⟨id, hid, by simp only [step, clock_solve]; exact mid⟩
  case construct => exact ⟨id, hid, rfl⟩
  case constructPs => exact ⟨id, hid, mid⟩
  all_goals (refine ⟨clock a b, hcl, ?_⟩; simp only [World.step])
  case clearConstraints =>
    unfold clearConstraints
    show Res.ofOption (w.ctl.ps.bind _) = (Res.ofOption (w.ctl.ps.bind _)).map _
    cases hp : w.ctl.ps with
    | none => rfl
    | some p =>
      simp only [Option.bind_some, Option.bind_eq_bind]
      unfold LMPC.clearConstraintMatrices
      show Res.ofOption (Option.bind (Option.bind (LMPC.optSize w.ctl (w.pss p)) _) _) =
        (Res.ofOption (Option.bind (Option.bind (LMPC.optSize w.ctl (w.pss p)) _) _)).map _
      cases LMPC.optSize w.ctl (w.pss p) <;> rfl
  case addCost i junk =>
    unfold addCost
    show (match w.ctl.ps with | none => _ | some p => _) = Res.map _ (match w.ctl.ps with | none => _ | some p => _)
    cases hp : w.ctl.ps with
    | none => rfl
    | some p =>
      simp only
      show (match (w.costs i).initializeCost junk (w.pss p) with | .ok _ => _ | .thrown _ _ => _ | .ub => _) = _
      cases (w.costs i).initializeCost junk (w.pss p) <;> rfl
  case addConstraint i junk =>
    unfold addConstraint
    show (match w.ctl.ps with | none => _ | some p => _) = Res.map _ (match w.ctl.ps with | none => _ | some p => _)
    cases hp : w.ctl.ps with
    | none => rfl
    | some p =>
      simp only
      show (match (w.cons i).initializeConstraint junk (w.pss p) with | .ok _ => _ | .thrown _ _ => _ | .ub => _) = _
      cases (w.cons i).initializeConstraint junk (w.pss p) with
      | ok c =>
        simp only [show (clock a b w).ctl = w.ctl.clock a b from rfl, clock_addConstraintByType]
        cases w.ctl.addConstraintByType i c <;> rfl
      | thrown e c => rfl
      | ub => rfl
  case initializeController p junk =>
    unfold LMPC.initializeController LMPC.clearConstraintMatrices LMPC.updateQPMatrixSize
    simp only [Option.bind_eq_bind, Option.bind_assoc, Option.pure_def, Option.bind_some]
    show Res.map _ (Res.ofOption (Option.bind (LMPC.optSize w.ctl (w.pss p)) _)) =
      Res.map _ (Res.map _ (Res.ofOption (Option.bind (LMPC.optSize w.ctl (w.pss p)) _)))
    cases h1 : LMPC.optSize w.ctl (w.pss p) with
    | none => rfl
    | some n =>
      simp only [Option.bind_some]
      show Res.map _ (Res.ofOption (Option.bind (LMPC.optSize w.ctl (w.pss p)) _)) =
        Res.map _ (Res.map _ (Res.ofOption (Option.bind (LMPC.optSize w.ctl (w.pss p)) _)))
      rw [h1]
      rfl
  case removeConstraint i =>
    unfold LMPC.removeConstraint
    show Res.map _ (Res.ofOption (if i ∈ w.ctl.spConstr then _ else _)) =
      Res.map _ (Res.map _ (Res.ofOption (if i ∈ w.ctl.spConstr then _ else _)))
    split
    · simp only
      show Res.map _ (Res.ofOption (match (w.cons i).constraintType with | .equality => _ | .inequality => _ | .bound => _)) = _
      cases (w.cons i).constraintType with
      | equality =>
        simp only
        show Res.map _ (Res.ofOption (Option.bind (LMPC.eraseFind? w.ctl.spEqConstr i) _)) =
          Res.map _ (Res.map _ (Res.ofOption (Option.bind (LMPC.eraseFind? w.ctl.spEqConstr i) _)))
        cases LMPC.eraseFind? w.ctl.spEqConstr i <;> rfl
      | inequality =>
        simp only
        show Res.map _ (Res.ofOption (Option.bind (LMPC.eraseFind? w.ctl.spIneqConstr i) _)) =
          Res.map _ (Res.map _ (Res.ofOption (Option.bind (LMPC.eraseFind? w.ctl.spIneqConstr i) _)))
        cases LMPC.eraseFind? w.ctl.spIneqConstr i <;> rfl
      | bound =>
        simp only
        show Res.map _ (Res.ofOption (Option.bind (LMPC.eraseFind? w.ctl.spBoundConstr i) _)) =
          Res.map _ (Res.map _ (Res.ofOption (Option.bind (LMPC.eraseFind? w.ctl.spBoundConstr i) _)))
        cases LMPC.eraseFind? w.ctl.spBoundConstr i <;> rfl
    · rfl
  all_goals first | rfl | (generalize hr : Res.map _ _ = r; rw [← hr, Res.map_map]; rfl)

/-! ## Simulation by an ordinary history -/

variable {d : Dims} {dmax : K} {E : World K → Op K → Prop} {w w' : World K} {g : Ghost} {env : SolveEnv K} {q : QP K}

/-- The client copies or drops `shared_ptr`s. -/
def setRefs (f k : Nat → Nat) (w : World K) : World K := { w with extCons := f, extCosts := k }

theorem hist_refsConstr (hI : IgnoresSolve E) (f : Nat → Nat) : ∀ (L : List Nat), Hist d dmax E w g →
    Hist d dmax E { w with extCons := fun i => if i ∈ L then f i else w.extCons i } g
  | [], h => by simpa using h
  | a :: L, h => by
    have h1 := hist_refsConstr hI f L h
    have h2 := Hist.ok (op := .refsConstr a (f a)) h1 trivial (hI.refsConstr _ _ _) rfl
    have e : upd (fun i => if i ∈ L then f i else w.extCons i) a (f a) = fun i => if i ∈ a :: L then f i else w.extCons i := by
      funext i
      unfold upd
      by_cases hi : i = a
      · simp [hi]
      · simp [hi]
    change Hist d dmax E { w with extCons := upd (fun i => if i ∈ L then f i else w.extCons i) a (f a) } g at h2
    rw [e] at h2
    exact h2

theorem hist_refsCost (hI : IgnoresSolve E) (f : Nat → Nat) : ∀ (L : List Nat), Hist d dmax E w g →
    Hist d dmax E { w with extCosts := fun i => if i ∈ L then f i else w.extCosts i } g
  | [], h => by simpa using h
  | a :: L, h => by
    have h1 := hist_refsCost hI f L h
    have h2 := Hist.ok (op := .refsCost a (f a)) h1 trivial (hI.refsCost _ _ _) rfl
    have e : upd (fun i => if i ∈ L then f i else w.extCosts i) a (f a) = fun i => if i ∈ a :: L then f i else w.extCosts i := by
      funext i
      unfold upd
      by_cases hi : i = a
      · simp [hi]
      · simp [hi]
    change Hist d dmax E { w with extCosts := upd (fun i => if i ∈ L then f i else w.extCosts i) a (f a) } g at h2
    rw [e] at h2
    exact h2

theorem hist_refs (hI : IgnoresSolve E) (C Q : List Nat) (f k : Nat → Nat) (h : Hist d dmax E w g) :
    Hist d dmax E (setRefs (fun i => if i ∈ C then f i else w.extCons i) (fun i => if i ∈ Q then k i else w.extCosts i) w) g :=
  hist_refsCost hI k Q (hist_refsConstr hI f C h)

theorem refs_solveThrow (f k : Nat → Nat) (env : SolveEnv K) (w : World K) :
    (setRefs f k w).solveThrow env = (w.solveThrow env).map fun r => (setRefs f k r.1, r.2) := by
  have hu : (setRefs f k w).updateSystem env.junk = (w.updateSystem env.junk).map (setRefs f k) := by
    rw [updateSystem_eq, updateSystem_eq]
    simp only [Option.map_bind, Function.comp_def, Option.map_some]
    rfl
  unfold solveThrow
  rw [hu]
  cases w.updateSystem env.junk with
  | none => rfl
  | some w1 =>
    simp only [Option.map_some, Option.bind_some, Option.bind_eq_bind, Option.map_bind, Function.comp_def, Option.pure_def]
    rfl

/-- The stages of an aborted `solve`. -/
theorem solveThrow_inv (h : w.solveThrow env = some (w', q)) :
    ∃ w1 p l s, w.updateSystem env.junk = some w1 ∧ w1.ctl.ps = some p ∧
      w1.ctl.makeQPForm env.inverse w1.cons w1.costs (w1.pss p) = some l ∧ l.sol = some s ∧ q = l.qp ∧
      w' = { w1 with ctl := { l with sol := some { s with result := (env.answer q).2 } } } := by
  unfold solveThrow at h
  simp only [Option.bind_eq_bind, Option.bind_eq_some_iff, Option.pure_def, Option.some.injEq, Prod.mk.injEq] at h
  obtain ⟨w1, h1, p, hp, l, hl, s, hs, rfl, rfl⟩ := h
  exact ⟨w1, p, l, s, h1, hp, hl, hs, rfl, rfl⟩

theorem solveThrow_fixed (h : w.solveThrow env = some (w', q)) :
    LMPC.Fixed w.ctl { w'.ctl with sol := w.ctl.sol } ∧ w'.extCons = w.extCons ∧ w'.extCosts = w.extCosts := by
  obtain ⟨w1, p, l, s, h1, hp, hl, hs, rfl, rfl⟩ := solveThrow_inv h
  obtain ⟨p1, ps, l1, l2, cons, costs, hp1, hps, e1, e2, hc, hk, rfl, f⟩ := updateSystem_inv h1
  have k : LMPC.Fixed w.ctl l := f.trans (LMPC.makeQPForm_fixed hl)
  exact ⟨⟨k.isInit, k.ps, rfl, k.spCost, k.spConstr, k.spEqConstr, k.spIneqConstr, k.spBoundConstr, k.trajectory, k.control,
    k.solveTime, k.solveAndBuildTime, k.R, k.r, k.x0lb, k.x0ub⟩, rfl, rfl⟩

/-- The solver of `env` reports failure instead of throwing. -/
def failing (env : SolveEnv K) : SolveEnv K := { env with answer := fun q => (false, (env.answer q).2) }

theorem failing_solveThrow : w.solveThrow (failing env) = w.solveThrow env := rfl

theorem opOk_clock {op : Op K} (h : OpOk d w g op) : OpOk d (clock a b w) g op := by
  cases op <;> try exact h
  exact ⟨h.1, ⟨h.2.sol, h.2.answer, h.2.init⟩⟩

theorem next_clock {op : Op K} {P : Prop} : g.next (clock a b w) P op = g.next w P op := by
  cases op <;> rfl

theorem checkDelete_same {x y : Nat → Nat} {l : LMPC K} (h1 : (l.checkDelete x y).spConstr = l.spConstr)
    (h2 : (l.checkDelete x y).spEqConstr = l.spEqConstr) (h3 : (l.checkDelete x y).spIneqConstr = l.spIneqConstr)
    (h4 : (l.checkDelete x y).spBoundConstr = l.spBoundConstr) (h5 : (l.checkDelete x y).spCost = l.spCost) :
    l.checkDelete x y = l := by
  have e : l.checkDelete x y = { l with
      spConstr := (l.checkDelete x y).spConstr, spEqConstr := (l.checkDelete x y).spEqConstr
      spIneqConstr := (l.checkDelete x y).spIneqConstr, spBoundConstr := (l.checkDelete x y).spBoundConstr
      spCost := (l.checkDelete x y).spCost } := rfl
  rw [h1, h2, h3, h4, h5] at e
  exact e

/-- When everything is held by others, an aborted `solve` is a failed one. -/
theorem aborted_failed_of {f k : Nat → Nat} (h1 : Hist d dmax E (setRefs f k w) g) (held : Held (setRefs f k w))
    (ho : OpOk d w g (.solve env)) (ht : w.solveThrow env = some (w', q)) :
    OpOk d (setRefs f k w) g (.solve (failing env)) ∧ (setRefs f k w).solve (failing env) =
        some (clock (some (env.t2 - env.t1)) (some (env.t3 - env.t0)) (setRefs f k w'), false, q) := by
  have ho1 : OpOk d (setRefs f k w) g (.solve (failing env)) := ⟨ho.1, ⟨ho.2.sol, fun q _ hq => by simp [failing] at hq, ho.2.init⟩⟩
  refine ⟨ho1, ?_⟩
  obtain ⟨w2, b2, q2, hs, hst, _⟩ := c50_solve_defined h1 ho1
  obtain ⟨l1, l2, l3, l4, l5⟩ := held_lists h1.good held hs
  obtain ⟨F, x1, x2⟩ := solveThrow_fixed ht
  have hs' := hs
  rw [solve_eq, refs_solveThrow, failing_solveThrow, ht] at hs
  simp only [Option.map_some, Option.bind_some, finish, Option.bind_eq_some_iff] at hs
  obtain ⟨p, _, hs⟩ := hs
  simp only [failing, cond_false, Option.map_some, Option.some.injEq, Prod.mk.injEq] at hs
  obtain ⟨hs, hb, hq⟩ := hs
  have el : (setRefs f k w').ctl.checkDelete (setRefs f k w').extCons (setRefs f k w').extCosts = (setRefs f k w').ctl := by
    rw [← hs] at l1 l2 l3 l4 l5
    exact checkDelete_same (l1.trans F.spConstr.symm) (l2.trans F.spEqConstr.symm) (l3.trans F.spIneqConstr.symm)
      (l4.trans F.spBoundConstr.symm) (l5.trans F.spCost.symm)
  rw [el] at hs
  rw [hs', ← hs, ← hb, ← hq]
  rfl

/-- An aborted `solve` is a failed one in which nothing is dropped because the client holds everything. -/
theorem aborted_failed (hI : IgnoresSolve E) (h : Hist d dmax E w g) (ho : OpOk d w g (.solve env))
    (ht : w.solveThrow env = some (w', q)) :
    ∃ f k, (∀ i, i ∉ w.ctl.spConstr → f i = w.extCons i) ∧ (∀ i, i ∉ w.ctl.spCost → k i = w.extCosts i) ∧
      Hist d dmax E (setRefs f k w) g ∧ Held (setRefs f k w) ∧ OpOk d (setRefs f k w) g (.solve (failing env)) ∧
      (setRefs f k w).solve (failing env) =
        some (clock (some (env.t2 - env.t1)) (some (env.t3 - env.t0)) (setRefs f k w'), false, q) := by
  have h1 := hist_refs hI w.ctl.spConstr w.ctl.spCost (fun _ => 1) (fun _ => 1) h
  refine ⟨_, _, fun i hi => if_neg hi, fun i hi => if_neg hi, h1, ?_⟩
  generalize hf : (fun i => if i ∈ w.ctl.spConstr then 1 else w.extCons i) = f at h1
  generalize hk : (fun i => if i ∈ w.ctl.spCost then 1 else w.extCosts i) = k at h1
  have held : Held (setRefs f k w) := by
    subst hf hk
    refine ⟨fun i hi => ?_, fun i hi => ?_⟩
    · change i ∈ w.ctl.spConstr at hi
      simp [setRefs, hi]
    · change i ∈ w.ctl.spCost at hi
      simp [setRefs, hi]
  exact ⟨held, aborted_failed_of h1 held ho ht⟩

/-- An aborted `solve` is simulated by an ordinary history, up to the time measurements. -/
theorem hist_aborted (hI : IgnoresSolve E) (h : Hist d dmax E w g) (ho : OpOk d w g (.solve env))
    (ht : w.solveThrow env = some (w', q)) :
    ∃ a b, Hist d dmax E (clock a b w') (g.next w True (.solve env)) := by
  obtain ⟨f, k, hf, hk, h1, _, ho1, hs⟩ := aborted_failed hI h ho ht
  obtain ⟨F, x1, x2⟩ := solveThrow_fixed ht
  have h2 := Hist.ok h1 ho1 (hI.solve _ _) (show (setRefs f k w).step dmax (.solve (failing env)) = .ok _ by simp only [step, hs]; rfl)
  have h3 := hist_refs hI w.ctl.spConstr w.ctl.spCost w.extCons w.extCosts h2
  refine ⟨some (env.t2 - env.t1), some (env.t3 - env.t0), ?_⟩
  have c1 : (fun i => if i ∈ w.ctl.spConstr then w.extCons i else f i) = w'.extCons := by
    rw [x1]; funext i; by_cases hi : i ∈ w.ctl.spConstr <;> simp [hi, hf]
  have c2 : (fun i => if i ∈ w.ctl.spCost then w.extCosts i else k i) = w'.extCosts := by
    rw [x2]; funext i; by_cases hi : i ∈ w.ctl.spCost <;> simp [hi, hk]
  change Hist d dmax E (setRefs (fun i => if i ∈ w.ctl.spConstr then w.extCons i else f i)
    (fun i => if i ∈ w.ctl.spCost then w.extCosts i else k i) (clock _ _ (setRefs f k w'))) _ at h3
  rw [c1, c2] at h3
  exact h3

/-- A history in which solves may be aborted reaches, up to the time measurements, what an ordinary history reaches. -/
theorem ahist_hist (hI : IgnoresSolve E) (h : AHist d dmax E w g) : ∃ a b, Hist d dmax E (clock a b w) g := by
  induction h with
  | start h => exact ⟨_, _, .start (by rw [clock_self]; exact h)⟩
  | @ok w w' g op h o e hs ih =>
    obtain ⟨a, b, ih⟩ := ih
    obtain ⟨f, hf, he⟩ := clock_step (a := a) (b := b) (dmax := dmax) (w := w) (op := op)
    rw [hs] at he
    obtain ⟨a', b', hw⟩ := hf w'
    refine ⟨a', b', ?_⟩
    have := Hist.ok ih (opOk_clock o) (hI.times _ _ _ ⟨a, b, rfl⟩ e) (he.trans (congrArg Res.ok hw))
    rw [next_clock] at this
    exact this
  | @thrown w w' g op x h o e hs ih =>
    obtain ⟨a, b, ih⟩ := ih
    obtain ⟨f, hf, he⟩ := clock_step (a := a) (b := b) (dmax := dmax) (w := w) (op := op)
    rw [hs] at he
    obtain ⟨a', b', hw⟩ := hf w'
    refine ⟨a', b', ?_⟩
    have := Hist.thrown ih (opOk_clock o) (hI.times _ _ _ ⟨a, b, rfl⟩ e) (he.trans (congrArg (Res.thrown x) hw))
    rw [next_clock] at this
    exact this
  | @aborted w w' g env q h o ht ih =>
    obtain ⟨a, b, ih⟩ := ih
    have ht' : (clock a b w).solveThrow env = some (clock a b w', q) := by rw [clock_solveThrow, ht]; rfl
    obtain ⟨a', b', k⟩ := hist_aborted hI ih (opOk_clock o) ht'
    rw [next_clock] at k
    exact ⟨a', b', k⟩

end World
end Copra
