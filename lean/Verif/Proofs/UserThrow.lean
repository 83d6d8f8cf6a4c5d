import Verif.SpecUserThrow
import Verif.Props.UserAbort
import Verif.Props.Abort

/-! # A `solve()` aborted by the solver, in a program with user-defined objects (for C115) -/

namespace Copra
open Spec

set_option linter.unusedSectionVars false
set_option linter.unusedSimpArgs false

variable {K S : Type} [Field K] [LinearOrder K] [IsStrictOrderedRing K]

namespace World
variable {a b : Option Int} {w w' : World K} {q : QP K} {env : SolveEnv K}

theorem solveTail_eq (env : SolveEnv K) (w : World K) : w.solveTail env = (w.solveTailThrow env).bind (finish env) := by
  unfold solveTail solveTailThrow
  simp only [Option.bind_eq_bind]
  cases hp : w.ctl.ps with
  | none => rfl
  | some p =>
    simp only [Option.bind_some]
    cases hl : w.ctl.makeQPForm env.inverse w.cons w.costs (w.pss p) with
    | none => rfl
    | some l =>
      simp only [Option.bind_some]
      cases l.sol with
      | none => rfl
      | some s =>
        have hps : l.ps = some p := (LMPC.makeQPForm_fixed hl).ps.trans hp
        simp only [Option.bind_some, Option.pure_def]
        generalize hm : ({ l with sol := some { s with result := (env.answer l.qp).2 } } : LMPC K) = m
        have hpm : m.ps = some p := by subst hm; exact hps
        have e : ({ l with sol := some { s with result := (env.answer l.qp).2 }, solveTime := some (env.t2 - env.t1) } : LMPC K) =
            m.clock (some (env.t2 - env.t1)) m.solveAndBuildTime := by subst hm; rfl
        rw [e, clock_checkDelete, clock_updateResults]
        simp only [finish, hpm, Option.bind_some]
        generalize LMPC.checkDelete w.extCons w.extCosts m = n
        cases (env.answer l.qp).1 with
        | false => rfl
        | true =>
          simp only [if_true, cond_true]
          generalize LMPC.updateResults (w.pss p) n = o
          cases o <;> rfl

theorem clock_solveTailThrow (env : SolveEnv K) (w : World K) :
    (clock a b w).solveTailThrow env = (w.solveTailThrow env).map fun r => (clock a b r.1, r.2) := by
  unfold solveTailThrow
  simp only [Option.bind_eq_bind]
  show (w.ctl.ps.bind _) = _
  cases w.ctl.ps with
  | none => rfl
  | some p =>
    simp only [Option.bind_some]
    show ((w.ctl.clock a b).makeQPForm env.inverse w.cons w.costs (w.pss p)).bind _ = _
    rw [clock_makeQPForm]
    cases w.ctl.makeQPForm env.inverse w.cons w.costs (w.pss p) with
    | none => rfl
    | some l =>
      simp only [Option.map_some, Option.bind_some]
      show (l.sol.bind _) = _
      cases l.sol <;> rfl

theorem clock_solveTail (env : SolveEnv K) (w : World K) : (clock a b w).solveTail env = w.solveTail env := by
  rw [solveTail_eq, solveTail_eq, clock_solveTailThrow]
  cases w.solveTailThrow env with
  | none => rfl
  | some r => exact clock_finish env r.1 r.2

theorem clock_beginUpdate (junk : Junk K) (w : World K) :
    (clock a b w).beginUpdate junk = (w.beginUpdate junk).map fun r => (clock a b r.1, r.2) := by
  rw [UWorld.beginUpdate_eq, UWorld.beginUpdate_eq]
  show (w.ctl.ps.bind _) = _
  cases w.ctl.ps with
  | none => rfl
  | some p =>
    simp only [Option.bind_some]
    show ((if (w.pss p).isUpdated then some (w.pss p) else (w.pss p).updateSystem).bind _) = _
    cases (if (w.pss p).isUpdated then some (w.pss p) else (w.pss p).updateSystem) with
    | none => rfl
    | some ps =>
      simp only [Option.bind_some]
      generalize hl : ({ w.ctl with
        Q := (Mat.identity w.ctl.Q.rows w.ctl.Q.cols).scale (1 / 1000000)
        c := Vec.zero w.ctl.c.rows } : LMPC K) = l
      have e : ({ (clock a b w).ctl with
        Q := (Mat.identity (clock a b w).ctl.Q.rows (clock a b w).ctl.Q.cols).scale (1 / 1000000)
        c := Vec.zero (clock a b w).ctl.c.rows } : LMPC K) = l.clock a b := by subst hl; rfl
      rw [e, clock_updateNr]
      cases h1 : l.updateNr w.cons with
      | none =>
        show Option.bind (Option.map _ (l.updateNr w.cons)) _ = _
        rw [h1]; rfl
      | some l1 =>
        show Option.bind (Option.map _ (l.updateNr w.cons)) _ = _
        rw [h1]
        simp only [Option.map_some, Option.bind_some, clock_size]
        cases l1.updateConstraintMatrixSize junk ps <;> rfl

/-- Nothing is dropped from a list whose elements are all held from elsewhere. -/
theorem checkList_all {limit : Nat} {other : Nat → Nat} : ∀ (L kept : List Nat), (∀ i ∈ L, limit ≤ other i) →
    LMPC.checkList limit other kept L = kept ++ L
  | [], kept, _ => by simp [LMPC.checkList]
  | i :: L, kept, h => by
    unfold LMPC.checkList
    rw [if_neg]
    · rw [checkList_all L _ fun j hj => h j (List.mem_cons_of_mem _ hj)]
      simp
    · have := h i (List.mem_cons_self ..)
      have h2 : 0 < (kept ++ i :: L).count i := List.count_pos_iff.2 (by simp)
      omega

theorem checkDelete_held {x y : Nat → Nat} {l : LMPC K} (h1 : ∀ i ∈ l.spConstr, 2 ≤ x i) (h2 : ∀ i ∈ l.spEqConstr, 2 ≤ x i)
    (h3 : ∀ i ∈ l.spIneqConstr, 2 ≤ x i) (h4 : ∀ i ∈ l.spBoundConstr, 2 ≤ x i) (h5 : ∀ i ∈ l.spCost, 1 ≤ y i) :
    l.checkDelete x y = l := by
  refine checkDelete_same ?_ ?_ ?_ ?_ ?_
  · exact checkList_all _ [] fun i hi => by have := h1 i hi; omega
  · exact checkList_all _ [] fun i hi => by have := h2 i hi; omega
  · exact checkList_all _ [] fun i hi => by have := h3 i hi; omega
  · exact checkList_all _ [] fun i hi => by have := h4 i hi; omega
  · exact checkList_all _ [] fun i hi => by have := h5 i hi; omega

end World

namespace UWorld
variable {a b : Option Int} {d : Dims} {dmax : K} {X X' : UWorld K S} {g : Ghost} {n : Nat × Nat} {env : SolveEnv K} {q : QP K}

/-- Set the time measurements. -/
def clock (a b : Option Int) (X : UWorld K S) : UWorld K S := { X with world := X.world.clock a b }

theorem butTimes_clock (X : UWorld K S) : ButTimesU X (X.clock a b) := ⟨a, b, rfl⟩

theorem clock_updateSystem (junk : Junk K) (X : UWorld K S) :
    (X.clock a b).updateSystem junk = (X.updateSystem junk).map (clock a b) := by
  rw [c99_prefix, c99_prefix]
  rw [show (X.clock a b).world = World.clock a b X.world from rfl, World.clock_beginUpdate]
  cases X.world.beginUpdate junk with
  | none => rfl
  | some r =>
    simp only [Option.map_some, Option.bind_some, Option.map_bind, Function.comp_def]
    rfl

theorem clock_solve (env : SolveEnv K) (X : UWorld K S) : (X.clock a b).solve env = X.solve env := by
  unfold solve
  rw [clock_updateSystem]
  cases X.updateSystem env.junk with
  | none => rfl
  | some X1 =>
    simp only [Option.map_some, Option.bind_some, Option.bind_eq_bind]
    rw [show (X1.clock a b).world = World.clock a b X1.world from rfl, World.clock_solveTail]
    rfl

theorem clock_solveThrow (env : SolveEnv K) (X : UWorld K S) :
    (X.clock a b).solveThrow env = (X.solveThrow env).map fun r => (r.1.clock a b, r.2) := by
  unfold solveThrow
  rw [clock_updateSystem]
  cases X.updateSystem env.junk with
  | none => rfl
  | some X1 =>
    simp only [Option.map_some, Option.bind_some, Option.bind_eq_bind]
    rw [show (X1.clock a b).world = World.clock a b X1.world from rfl, World.clock_solveTailThrow]
    cases X1.world.solveTailThrow env <;> rfl

theorem clock_solveUserThrow {junk : Junk K} {u : AbortAt K S} :
    (X.clock a b).solveUserThrow junk u = (X.solveUserThrow junk u).map (clock a b) := by
  cases u with
  | constr k o =>
    unfold solveUserThrow
    rw [show (X.clock a b).world = World.clock a b X.world from rfl, World.clock_beginUpdate]
    simp only [Option.bind_eq_bind, Option.map_bind, Option.bind_map, Function.comp_def, Option.pure_def, Option.map_some]
    rfl
  | cost k o =>
    unfold solveUserThrow
    rw [show (X.clock a b).world = World.clock a b X.world from rfl, World.clock_beginUpdate]
    simp only [Option.bind_eq_bind, Option.map_bind, Option.bind_map, Function.comp_def, Option.pure_def, Option.map_some]
    rfl

theorem clock_onConstr (X : UWorld K S) (i : Nat) (f : Rows K × S → Res (Rows K × S)) :
    (X.clock a b).onConstr i f = (X.onConstr i f).map (clock a b) := by
  unfold onConstr
  show Res.map _ (f ((X.world.cons i).inheritedRows, X.consMem i)) = Res.map _ (Res.map _ (f ((X.world.cons i).inheritedRows, X.consMem i)))
  cases f ((X.world.cons i).inheritedRows, X.consMem i) <;> rfl

theorem clock_onCost (X : UWorld K S) (i : Nat) (f : Terms K × S → Res (Terms K × S)) :
    (X.clock a b).onCost i f = (X.onCost i f).map (clock a b) := by
  unfold onCost
  show Res.map _ (f ((X.world.costs i).inheritedTerms, X.costMem i)) = Res.map _ (Res.map _ (f ((X.world.costs i).inheritedTerms, X.costMem i)))
  cases f ((X.world.costs i).inheritedTerms, X.costMem i) <;> rfl

/-- A call ends in the same way, whatever the time measurements. -/
def ClockFollows (R R' : Res (UWorld K S)) : Prop :=
  ∃ f : UWorld K S → UWorld K S, (∀ Y, ∃ a b, f Y = Y.clock a b) ∧ R' = R.map f

theorem ClockFollows.map {R R' : Res (UWorld K S)} (h : R' = R.map (clock a b)) : ClockFollows R R' :=
  ⟨_, fun _ => ⟨a, b, rfl⟩, h⟩

theorem ClockFollows.same {R R' : Res (UWorld K S)} (h : R' = R) : ClockFollows R R' :=
  ⟨id, fun Y => ⟨Y.world.ctl.solveTime, Y.world.ctl.solveAndBuildTime, rfl⟩, by rw [h]; cases R <;> rfl⟩

theorem ClockFollows.lib {op : Op K} : ClockFollows (X.lib dmax op) ((X.clock a b).lib dmax op) := by
  obtain ⟨f, hf, e⟩ := World.clock_step (a := a) (b := b) (dmax := dmax) (w := X.world) (op := op)
  refine ⟨fun Y => { Y with world := f Y.world }, fun Y => ?_, ?_⟩
  · obtain ⟨x, y, h⟩ := hf Y.world
    refine ⟨x, y, ?_⟩
    show ({ Y with world := f Y.world } : UWorld K S) = _
    rw [h]; rfl
  · unfold UWorld.lib
    rw [show (X.clock a b).world = World.clock a b X.world from rfl, e]
    cases X.world.step dmax op <;> rfl

theorem ClockFollows.step (op : UOp K S) : ClockFollows (X.step dmax op) ((X.clock a b).step dmax op) := by
  cases op with
  | callConstr i f =>
    simp only [UWorld.step]
    show ClockFollows _ (match X.consClass i with | none => _ | some _ => _)
    cases X.consClass i with
    | none => exact .same rfl
    | some C => exact .map (clock_onConstr ..)
  | callCost i f =>
    simp only [UWorld.step]
    show ClockFollows _ (match X.costClass i with | none => _ | some _ => _)
    cases X.costClass i with
    | none => exact .same rfl
    | some C => exact .map (clock_onCost ..)
  | api op =>
    cases op
    case solve env => exact .same (by simp only [UWorld.step, clock_solve])
    case addConstraint i junk =>
      simp only [UWorld.step]
      show ClockFollows _ (match X.consClass i with | none => _ | some _ => _)
      cases X.consClass i with
      | none => exact .lib
      | some C =>
        refine .map (a := a) (b := b) ?_
        simp only
        unfold addConstraint
        show (match X.world.ctl.ps with | none => _ | some p => _) = _
        cases X.world.ctl.ps with
        | none => rfl
        | some p =>
          simp only
          rw [show (X.clock a b).onConstr i (C.init ((X.clock a b).world.pss p)) = (X.onConstr i (C.init (X.world.pss p))).map (clock a b)
            from clock_onConstr ..]
          cases X.onConstr i (C.init (X.world.pss p)) with
          | ub => rfl
          | thrown e Y => rfl
          | ok Y =>
            simp only [Res.map]
            have key : (match (Y.clock a b).world.ctl.addConstraintByType i ((Y.clock a b).world.cons i) with
                | some l => Res.ok { Y.clock a b with world := { (Y.clock a b).world with ctl := l } } | none => .ub) =
                Res.map (clock a b) (match Y.world.ctl.addConstraintByType i (Y.world.cons i) with
                  | some l => .ok { Y with world := { Y.world with ctl := l } } | none => .ub) := by
              show (match (Y.world.ctl.clock a b).addConstraintByType i (Y.world.cons i) with
                | some l => Res.ok { Y.clock a b with world := { (Y.clock a b).world with ctl := l } } | none => .ub) = _
              rw [World.clock_addConstraintByType]
              cases Y.world.ctl.addConstraintByType i (Y.world.cons i) <;> rfl
            cases C.flag with
            | constraint => rfl
            | bound => rfl
            | equality => exact key
            | inequality => exact key
    case addCost i junk =>
      simp only [UWorld.step]
      show ClockFollows _ (match X.costClass i with | none => _ | some _ => _)
      cases X.costClass i with
      | none => exact .lib
      | some C =>
        refine .map (a := a) (b := b) ?_
        simp only
        unfold addCost
        show (match X.world.ctl.ps with | none => _ | some p => _) = _
        cases X.world.ctl.ps with
        | none => rfl
        | some p =>
          simp only
          rw [show (X.clock a b).onCost i (C.init ((X.clock a b).world.pss p)) = (X.onCost i (C.init (X.world.pss p))).map (clock a b)
            from clock_onCost ..]
          cases X.onCost i (C.init (X.world.pss p)) <;> rfl
    case spanConstr i junk =>
      simp only [UWorld.step]
      show ClockFollows _ (match X.consClass i with | none => _ | some _ => _)
      cases X.consClass i with
      | none => exact .lib
      | some C => exact .map (clock_onConstr ..)
    case initConstr i p junk =>
      simp only [UWorld.step]
      show ClockFollows _ (match X.consClass i with | none => _ | some _ => _)
      cases X.consClass i with
      | none => exact .lib
      | some C => exact .map (clock_onConstr ..)
    case updateConstr i p =>
      simp only [UWorld.step]
      show ClockFollows _ (match X.consClass i with | none => _ | some _ => _)
      cases X.consClass i with
      | none => exact .lib
      | some C => exact .map (clock_onConstr ..)
    case spanCost i junk =>
      simp only [UWorld.step]
      show ClockFollows _ (match X.costClass i with | none => _ | some _ => _)
      cases X.costClass i with
      | none => exact .lib
      | some C => exact .map (clock_onCost ..)
    case initCost i p junk =>
      simp only [UWorld.step]
      show ClockFollows _ (match X.costClass i with | none => _ | some _ => _)
      cases X.costClass i with
      | none => exact .lib
      | some C => exact .map (clock_onCost ..)
    case updateCost i p =>
      simp only [UWorld.step]
      show ClockFollows _ (match X.costClass i with | none => _ | some _ => _)
      cases X.costClass i with
      | none => exact .lib
      | some C => exact .map (clock_onCost ..)
    all_goals exact .lib

theorem clock_uok {op : UOp K S} (h : UOk d X g op) : UOk d (X.clock a b) g op := by
  cases op with
  | api op =>
    refine ⟨World.opOk_clock h.1, ?_⟩
    have := h.2
    cases op <;> exact this
  | _ => trivial

theorem clock_unext {ok : Prop} {op : UOp K S} : unext g (X.clock a b) ok op = unext g X ok op := by
  cases op with
  | api op => cases op <;> rfl
  | _ => rfl

theorem clock_countRows {a' b' : Option Int} {op : UOp K S} : countRows n (X.clock a b) (X'.clock a' b') op = countRows n X X' op := by
  cases op with
  | api op => cases op <;> rfl
  | _ => rfl

/-! ## An aborted `solve` is a failed one in which nothing is dropped -/

/-- The client copies or drops `shared_ptr`s. -/
def setRefs (f k : Nat → Nat) (X : UWorld K S) : UWorld K S := { X with world := X.world.setRefs f k }

theorem refs_solveThrow (f k : Nat → Nat) (env : SolveEnv K) (X : UWorld K S) :
    (X.setRefs f k).solveThrow env = (X.solveThrow env).map fun r => (r.1.setRefs f k, r.2) := by
  have hu : (X.setRefs f k).updateSystem env.junk = (X.updateSystem env.junk).map (setRefs f k) := by
    rw [updateSystem_eq, updateSystem_eq]
    simp only [Option.map_bind, Function.comp_def, Option.map_some]
    rfl
  unfold solveThrow
  rw [hu]
  cases X.updateSystem env.junk with
  | none => rfl
  | some X1 =>
    have e : (X1.setRefs f k).world.solveTailThrow env = (X1.world.solveTailThrow env).map fun r => (World.setRefs f k r.1, r.2) := by
      unfold World.solveTailThrow
      simp only [Option.bind_eq_bind, Option.map_bind, Function.comp_def, Option.pure_def]
      rfl
    simp only [Option.map_some, Option.bind_some, Option.bind_eq_bind, e, Option.bind_map, Option.map_bind, Function.comp_def,
      Option.pure_def]
    rfl

theorem refs_same (ht : X.solveThrow env = some (X', q)) :
    X'.world.extCons = X.world.extCons ∧ X'.world.extCosts = X.world.extCosts := by
  have h := refs_solveThrow X.world.extCons X.world.extCosts env X
  rw [show X.setRefs X.world.extCons X.world.extCosts = X from rfl, ht] at h
  simp only [Option.map_some, Option.some.injEq, Prod.mk.injEq, and_true] at h
  have e1 := congrArg (fun Y : UWorld K S => Y.world.extCons) h
  have e2 := congrArg (fun Y : UWorld K S => Y.world.extCosts) h
  exact ⟨e1, e2⟩

/-- The stages of an aborted `solve`. -/
theorem solveThrow_inv (ht : X.solveThrow env = some (X', q)) :
    ∃ X1 p l s, X.updateSystem env.junk = some X1 ∧ X1.world.ctl.ps = some p ∧
      X1.world.ctl.makeQPForm env.inverse X1.world.cons X1.world.costs (X1.world.pss p) = some l ∧ l.sol = some s ∧ q = l.qp ∧
      X' = { X1 with world := { X1.world with ctl := { l with sol := some { s with result := (env.answer q).2 } } } } := by
  unfold solveThrow World.solveTailThrow at ht
  simp only [Option.bind_eq_bind, Option.bind_eq_some_iff, Option.pure_def, Option.some.injEq, Prod.mk.injEq] at ht
  obtain ⟨X1, h1, r, ⟨p, hp, l, hl, s, hs, rfl⟩, rfl, rfl⟩ := ht
  exact ⟨X1, p, l, s, h1, hp, hl, hs, rfl, rfl⟩

theorem solve_eq (env : SolveEnv K) (X : UWorld K S) :
    X.solve env = (X.solveThrow env).bind fun r => (World.finish env (r.1.world, r.2)).map fun t =>
      ({ r.1 with world := t.1 }, t.2.1, t.2.2) := by
  unfold solve solveThrow
  cases X.updateSystem env.junk with
  | none => rfl
  | some X1 =>
    simp only [Option.bind_some, Option.bind_eq_bind, World.solveTail_eq]
    cases X1.world.solveTailThrow env with
    | none => rfl
    | some r =>
      simp only [Option.bind_some, Option.pure_def]
      cases World.finish env (r.1, r.2) <;> rfl

theorem auhist_refsConstr (f : Nat → Nat) : ∀ (L : List Nat), AUHist d dmax X g n →
    AUHist d dmax (X.setRefs (fun i => if i ∈ L then f i else X.world.extCons i) X.world.extCosts) g n
  | [], h => by simpa using (show AUHist d dmax (X.setRefs X.world.extCons X.world.extCosts) g n from h)
  | a :: L, h => by
    have h1 := auhist_refsConstr f L h
    have h2 := AUHist.ok (op := .api (.refsConstr a (f a))) h1 ⟨trivial, trivial⟩ rfl trivial
    have e : World.upd (fun i => if i ∈ L then f i else X.world.extCons i) a (f a) =
        fun i => if i ∈ a :: L then f i else X.world.extCons i := by
      funext i
      unfold World.upd
      by_cases hi : i = a
      · simp [hi]
      · simp [hi]
    change AUHist d dmax (X.setRefs (World.upd (fun i => if i ∈ L then f i else X.world.extCons i) a (f a)) X.world.extCosts) g n at h2
    rw [e] at h2
    exact h2

theorem auhist_refsCost (f : Nat → Nat) : ∀ (L : List Nat), AUHist d dmax X g n →
    AUHist d dmax (X.setRefs X.world.extCons (fun i => if i ∈ L then f i else X.world.extCosts i)) g n
  | [], h => by simpa using (show AUHist d dmax (X.setRefs X.world.extCons X.world.extCosts) g n from h)
  | a :: L, h => by
    have h1 := auhist_refsCost f L h
    have h2 := AUHist.ok (op := .api (.refsCost a (f a))) h1 ⟨trivial, trivial⟩ rfl trivial
    have e : World.upd (fun i => if i ∈ L then f i else X.world.extCosts i) a (f a) =
        fun i => if i ∈ a :: L then f i else X.world.extCosts i := by
      funext i
      unfold World.upd
      by_cases hi : i = a
      · simp [hi]
      · simp [hi]
    change AUHist d dmax (X.setRefs X.world.extCons (World.upd (fun i => if i ∈ L then f i else X.world.extCosts i) a (f a))) g n at h2
    rw [e] at h2
    exact h2

theorem auhist_refs (C Q : List Nat) (f k : Nat → Nat) (h : AUHist d dmax X g n) :
    AUHist d dmax (X.setRefs (fun i => if i ∈ C then f i else X.world.extCons i) (fun i => if i ∈ Q then k i else X.world.extCosts i)) g n :=
  auhist_refsCost k Q (auhist_refsConstr f C h)

/-- When the client holds everything, an aborted `solve` is a failed one. -/
theorem throw_failed {f k : Nat → Nat} (ht : X.solveThrow env = some (X', q))
    (h1 : ∀ i ∈ X'.world.ctl.spConstr ++ X'.world.ctl.spEqConstr ++ X'.world.ctl.spIneqConstr ++ X'.world.ctl.spBoundConstr, 2 ≤ f i)
    (h2 : ∀ i ∈ X'.world.ctl.spCost, 1 ≤ k i) :
    (X.setRefs f k).solve (World.failing env) =
      some ((X'.setRefs f k).clock (some (env.t2 - env.t1)) (some (env.t3 - env.t0)), false, q) := by
  have e : (X.setRefs f k).solveThrow (World.failing env) = (X.setRefs f k).solveThrow env := rfl
  rw [solve_eq, e, refs_solveThrow, ht]
  obtain ⟨X1, p, l, s, -, hp, hl, -, -, hX⟩ := solveThrow_inv ht
  have hps : X'.world.ctl.ps = some p := by
    rw [hX]; exact (LMPC.makeQPForm_fixed hl).ps.trans hp
  have hd : X'.world.ctl.checkDelete f k = X'.world.ctl := by
    simp only [List.mem_append] at h1
    exact World.checkDelete_held (fun i hi => h1 i (by simp [hi])) (fun i hi => h1 i (by simp [hi])) (fun i hi => h1 i (by simp [hi]))
      (fun i hi => h1 i (by simp [hi])) h2
  simp only [Option.map_some, Option.bind_some]
  have e2 : (X'.setRefs f k).world.ctl.ps = some p := hps
  simp only [World.finish, e2, Option.bind_some]
  have e3 : (X'.setRefs f k).world.ctl.checkDelete (X'.setRefs f k).world.extCons (X'.setRefs f k).world.extCosts = X'.world.ctl := hd
  rw [e3]
  rfl

/-- A `solve` aborted by the solver is simulated by an ordinary history, up to the time measurements. -/
theorem auhist_solverThrew (h : AUHist d dmax X g n) (ho : UOk d X g (.api (.solve env))) (ht : X.solveThrow env = some (X', q)) :
    ∃ a b, AUHist d dmax (X'.clock a b) (unext g X True (.api (.solve env))) (countRows n X X' (.api (.solve env))) := by
  obtain ⟨x1, x2⟩ := refs_same ht
  generalize hC : X'.world.ctl.spConstr ++ X'.world.ctl.spEqConstr ++ X'.world.ctl.spIneqConstr ++ X'.world.ctl.spBoundConstr = C
  generalize hQ : X'.world.ctl.spCost = Q
  have h1 := auhist_refs C Q (fun _ => 2) (fun _ => 1) h
  generalize hf : (fun i => if i ∈ C then 2 else X.world.extCons i) = f at h1
  generalize hk : (fun i => if i ∈ Q then 1 else X.world.extCosts i) = k at h1
  have hs := throw_failed (f := f) (k := k) ht (by rw [hC, ← hf]; intro i hi; simp [hi]) (by rw [hQ, ← hk]; intro i hi; simp [hi])
  have ho1 : UOk d (X.setRefs f k) g (.api (.solve (World.failing env))) :=
    ⟨⟨ho.1.1, ⟨ho.1.2.sol, fun q _ hq => by simp [World.failing] at hq, ho.1.2.init⟩⟩, trivial⟩
  have h2 := AUHist.ok (op := .api (.solve (World.failing env))) h1 ho1
    (show (X.setRefs f k).step dmax (.api (.solve (World.failing env))) = .ok _ by simp only [UWorld.step, hs]; rfl) trivial
  have h3 := auhist_refs C Q X.world.extCons X.world.extCosts h2
  refine ⟨some (env.t2 - env.t1), some (env.t3 - env.t0), ?_⟩
  have c1 : (fun i => if i ∈ C then X.world.extCons i else f i) = X'.world.extCons := by
    rw [x1, ← hf]; funext i; by_cases hi : i ∈ C <;> simp [hi]
  have c2 : (fun i => if i ∈ Q then X.world.extCosts i else k i) = X'.world.extCosts := by
    rw [x2, ← hk]; funext i; by_cases hi : i ∈ Q <;> simp [hi]
  change AUHist d dmax (setRefs (fun i => if i ∈ C then X.world.extCons i else f i)
    (fun i => if i ∈ Q then X.world.extCosts i else k i) (clock _ _ (X'.setRefs f k))) _ _ at h3
  rw [c1, c2] at h3
  exact h3

/-- A history in which any client code may throw inside `solve` reaches, up to the time measurements, what one reaches in which
only `update` functions do. -/
theorem xhist_auhist (h : XHist d dmax X g n) : ∃ a b, AUHist d dmax (X.clock a b) g n := by
  induction h with
  | @start X h => exact ⟨X.world.ctl.solveTime, X.world.ctl.solveAndBuildTime, .start h⟩
  | @ok X X' g n op h o hs hr ih =>
    obtain ⟨a, b, ih⟩ := ih
    obtain ⟨f, hf, he⟩ := ClockFollows.step (dmax := dmax) (X := X) (a := a) (b := b) op
    rw [hs] at he
    obtain ⟨a', b', hw⟩ := hf X'
    refine ⟨a', b', ?_⟩
    have := AUHist.ok ih (clock_uok o) (he.trans (congrArg Res.ok hw)) (by rw [clock_countRows]; exact hr)
    rw [clock_unext, clock_countRows] at this
    exact this
  | @thrown X X' g n op e h o hs ih =>
    obtain ⟨a, b, ih⟩ := ih
    obtain ⟨f, hf, he⟩ := ClockFollows.step (dmax := dmax) (X := X) (a := a) (b := b) op
    rw [hs] at he
    obtain ⟨a', b', hw⟩ := hf X'
    refine ⟨a', b', ?_⟩
    have := AUHist.thrown ih (clock_uok o) (he.trans (congrArg (Res.thrown e) hw))
    rw [clock_unext] at this
    exact this
  | @aborted X X' g n junk u h ha ih =>
    obtain ⟨a, b, ih⟩ := ih
    have ha' : (X.clock a b).solveUserThrow junk u = some (X'.clock a b) := by rw [clock_solveUserThrow, ha]; rfl
    refine ⟨a, b, ?_⟩
    have := AUHist.aborted ih ha'
    rw [show abortGhost g (X.clock a b) u = abortGhost g X u by cases u <;> rfl] at this
    exact this
  | @solverThrew X X' g n env q h o ht ih =>
    obtain ⟨a, b, ih⟩ := ih
    have ht' : (X.clock a b).solveThrow env = some (X'.clock a b, q) := by rw [clock_solveThrow, ht]; rfl
    obtain ⟨a', b', k⟩ := auhist_solverThrew ih (clock_uok o) ht'
    rw [clock_unext, clock_countRows] at k
    exact ⟨a', b', k⟩

end UWorld
end Copra
