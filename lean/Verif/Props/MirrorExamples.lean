import Verif.Props.Mirror
import Verif.Props.ScaleExamples
import Verif.Props.InitExamples

/-! # C108 on a concrete program: two points on a line, left and right of the origin -/

namespace Copra
open Spec

set_option linter.unusedSectionVars false
set_option maxRecDepth 100000

namespace Ex
open World

/-- Two states, two controls, two steps. -/
def dMi : Dims := ⟨2, 2, 2⟩

def consMi (i : Nat) : Constr ℚ :=
  if i = 0 then Constr.mkTrajectory (mat 2 2 [[1, 0], [0, -1]]) (evec [.fin 5, .fin 5]) true
  else Constr.mkCtrlBound (evec [.fin (-1), .fin (-1)]) (evec [.fin 1, .fin 1])

def costsMi (i : Nat) : Cost ℚ :=
  if i = 0 then Cost.mkTrajectory (mat 2 2 [[1, 0], [0, 1]]) (vec [0, 0])
  else Cost.mkControl (mat 2 2 [[1, 0], [0, 1]]) (vec [1, -1])

def mi0 : World ℚ := { w0 with cons := consMi, costs := costsMi }

theorem mi0_init : World.Init mi0 := by
  obtain ⟨a, _, _, e⟩ := w0_init
  refine ⟨a, fun i => ?_, fun i => ?_, e⟩
  · show World.FreshConstr (consMi i)
    unfold consMi
    split
    · exact .inl ⟨_, _, _, rfl⟩
    · exact .inr (.inr (.inr (.inr ⟨_, _, rfl⟩)))
  · show World.FreshCost (costsMi i)
    unfold costsMi
    split
    · exact .inl ⟨_, _, rfl⟩
    · exact .inr (.inr (.inl ⟨_, _, rfl⟩))

def opSysMi : Op ℚ := .system 0 (mat 2 2 [[1, 0], [0, 1]]) (mat 2 2 [[1, 0], [0, 1]]) (vec [0, 0]) (vec [1, -1]) 2

def mi1 := after 1000 mi0 opSysMi
def mi2 := after 1000 mi1 opCtl
def mi3 := after 1000 mi2 (.addConstraint 0 jk)
def mi4 := after 1000 mi3 (.addConstraint 2 jk)
def mi5 := after 1000 mi4 (.addCost 1 jk)
def mi6 := after 1000 mi5 (.addCost 0 jk)

theorem hmi6 : ∃ g : Ghost, Hist dMi 1000 Careful mi6 g ∧ g.fresh 0 ∧ g.clean := by
  have a1 := hist_after (d := dMi) (dmax := 1000) (E := Careful) (op := opSysMi) (.start mi0_init) ⟨rfl, rfl, rfl⟩
    ⟨trivial, trivial, trivial⟩ (by decide +kernel)
  have a2 := hist_after (op := opCtl) a1 (show HasSystem mi1 0 by unfold HasSystem; decide +kernel)
    ⟨trivial, trivial, trivial⟩ (by decide +kernel : okB 1000 mi1 _ = true)
  have a3 := hist_after (op := .addConstraint 0 jk) a2 (fun h => absurd h (by decide +kernel : (mi2.cons 0).kind ≠ .ctrlBound))
    ⟨trivial, trivial, trivial⟩ (by decide +kernel : okB 1000 mi2 _ = true)
  have a4 := hist_after (op := .addConstraint 2 jk) a3 (fun _ => (by decide +kernel : mi3.ctl.spBoundConstr = []))
    ⟨trivial, trivial, trivial⟩ (by decide +kernel : okB 1000 mi3 _ = true)
  have a5 := hist_after (op := .addCost 1 jk) a4 trivial ⟨trivial, trivial, trivial⟩ (by decide +kernel : okB 1000 mi4 _ = true)
  have a6 := hist_after (op := .addCost 0 jk) a5 trivial ⟨trivial, trivial, trivial⟩ (by decide +kernel : okB 1000 mi5 _ = true)
  exact ⟨_, a6, Or.inr ⟨trivial, rfl⟩, trivial⟩

/-- The minimiser: the two points move in opposite directions. -/
def yMi : Vec ℚ :=
  let e : ℚ := 1 / 1000000
  let D := (3 + e) * (2 + e) - 1
  vec [-(2 + e) / D, (2 + e) / D, 1 / D, -1 / D]

/-- A solver that answers `yMi` on problems with four variables. -/
def envMi : SolveEnv ℚ := { env yMi true with answer := fun q => (true, if q.nrVar = 4 then yMi else Vec.zero q.nrVar) }

def rMi : World ℚ × Bool × QP ℚ := (mi6.solve envMi).getD (mi6, false, q13)

theorem sMi : mi6.solve envMi = some (rMi.1, true, rMi.2.2) := by
  obtain ⟨r, hr⟩ := Option.isSome_iff_exists.1 (by decide +kernel : (mi6.solve envMi).isSome = true)
  have h1 : rMi = r := by unfold rMi; rw [hr]; rfl
  have h2 : rMi.2.1 = true := by decide +kernel
  rw [hr, ← h2, h1]

theorem solveMi {g : Ghost} (h : Hist dMi 1000 Careful mi6 g) (c : g.clean) :
    PlainSolve dMi 1000 mi6 g 0 envMi rMi.1 true rMi.2.2 where
  hist := h.mono fun _ _ h => ⟨h.1, h.2.1⟩
  allowed := ⟨by decide +kernel, (fun h => absurd (congrArg Option.isSome h) (by decide +kernel : mi6.ctl.sol.isSome ≠ false)),
    fun q _ _ => by
      show (if q.nrVar = 4 then yMi else Vec.zero q.nrVar).rows = q.nrVar
      split
      · next h => rw [h]; rfl
      · rfl, fun h => absurd h (by decide +kernel)⟩
  ps := by decide +kernel
  plain := by decide +kernel
  clean := fun _ => c
  honest := honestOf (by decide +kernel)
  solve := sMi

/-- The mirror image of the line. -/
def TMi : Mat ℚ := mat 2 2 [[0, -1], [-1, 0]]

theorem imageMi {X1 X2 : Nat → Nat → ℚ} (h : MirrorX dMi TMi X1 X2) (k : Nat) (hk : k ≤ 2) : X2 k 0 = -X1 k 1 ∧ X2 k 1 = -X1 k 0 := by
  have a := h k hk 0 (by decide)
  have b := h k hk 1 (by decide)
  have s : ∀ f : Nat → ℚ, ∑ j ∈ Finset.range dMi.n, f j = f 0 + f 1 := fun f => by
    show ∑ j ∈ Finset.range 2, f j = _
    rw [Finset.sum_range_succ, Finset.sum_range_one]
  rw [s] at a b
  have e : TMi.e 0 0 = 0 ∧ TMi.e 0 1 = -1 ∧ TMi.e 1 0 = -1 ∧ TMi.e 1 1 = 0 := by decide +kernel
  rw [e.1, e.2.1] at a
  rw [e.2.2.1, e.2.2.2] at b
  constructor <;> linarith

theorem mirroredMi : Mirrored dMi (Equiv.swap 0 1) (fun _ => (-1 : ℚ)) TMi mi6 0 mi6 0 where
  perm := by
    intro c
    show Equiv.swap 0 1 c < 2 ↔ c < 2
    rw [Equiv.swap_apply_def]
    split
    · next h => subst h; decide
    · split
      · next h => subst h; decide
      · exact Iff.rfl
  sign := fun _ => .inr rfl
  A := by decide +kernel
  B := by decide +kernel
  bias := by decide +kernel
  cons := by
    intro X1 X2 h U
    rw [(by decide +kernel : mi6.ctl.spConstr = [0, 2])]
    simp only [List.forall_mem_cons, List.not_mem_nil, false_imp_iff, implies_true, and_true]
    have s : ∀ f : Nat → ℚ, ∑ j ∈ Finset.range dMi.n, f j = f 0 + f 1 := fun f => by
      show ∑ j ∈ Finset.range 2, f j = _
      rw [Finset.sum_range_succ, Finset.sum_range_one]
    have h0 : ∀ X : Nat → Nat → ℚ, ∀ V, (mi6.cons 0).userData.Holds dMi X V ↔ ∀ k ≤ 2, X k 0 ≤ 5 ∧ -X k 1 ≤ 5 := by
      intro X V
      show TrajectoryStep dMi X true (mat 2 2 [[1, 0], [0, -1]]) (evec [.fin 5, .fin 5]) ↔ _
      refine forall₂_congr fun k _ => ?_
      constructor
      · intro H
        have a := H 0 (by decide)
        have b := H 1 (by decide)
        rw [s] at a b
        have a : (1 : ℚ) * X k 0 + 0 * X k 1 ≤ 5 := a
        have b : (0 : ℚ) * X k 0 + -1 * X k 1 ≤ 5 := b
        constructor <;> linarith
      · intro H r hr
        have hr : r < 2 := hr
        rw [s]
        interval_cases r
        · show (1 : ℚ) * X k 0 + 0 * X k 1 ≤ 5
          linarith [H.1]
        · show (0 : ℚ) * X k 0 + -1 * X k 1 ≤ 5
          linarith [H.2]
    have h2 : ∀ X : Nat → Nat → ℚ, ∀ V : Nat → ℚ, (mi6.cons 2).userData.Holds dMi X V ↔
        ∀ k < 2, (-1 ≤ V (k * 2) ∧ V (k * 2) ≤ 1) ∧ -1 ≤ V (k * 2 + 1) ∧ V (k * 2 + 1) ≤ 1 := by
      intro X V
      show CtrlBoundStep dMi V (evec [.fin (-1), .fin (-1)]) (evec [.fin 1, .fin 1]) ↔ _
      refine forall₂_congr fun k _ => ?_
      constructor
      · exact fun H => ⟨H 0 (by decide), H 1 (by decide)⟩
      · intro H c hc
        have hc : c < 2 := hc
        interval_cases c
        · exact H.1
        · exact H.2
    have m0 : ∀ k, mirrorU dMi.m (Equiv.swap 0 1) (fun _ => (-1 : ℚ)) U (k * 2) = -U (k * 2 + 1) := fun k => by
      have := mirrorU_ctrl (m := 2) (π := Equiv.swap 0 1) (σ := fun _ => (-1 : ℚ)) U k (c := 0) (by decide)
      rw [Nat.add_zero, Equiv.swap_apply_left] at this
      rw [show dMi.m = 2 from rfl, this]; ring
    have m1 : ∀ k, mirrorU dMi.m (Equiv.swap 0 1) (fun _ => (-1 : ℚ)) U (k * 2 + 1) = -U (k * 2) := fun k => by
      have := mirrorU_ctrl (m := 2) (π := Equiv.swap 0 1) (σ := fun _ => (-1 : ℚ)) U k (c := 1) (by decide)
      rw [Equiv.swap_apply_right, Nat.add_zero] at this
      rw [show dMi.m = 2 from rfl, this]; ring
    rw [h0, h0, h2, h2]
    refine and_congr (forall₂_congr fun k hk => ?_) (forall₂_congr fun k _ => ?_)
    · rw [(imageMi h k hk).1, (imageMi h k hk).2, neg_neg, and_comm]
    · rw [m0, m1]
      constructor <;> intro H <;> refine ⟨⟨?_, ?_⟩, ?_, ?_⟩ <;> linarith [H.1.1, H.1.2, H.2.1, H.2.2]
  costs := by
    intro X1 X2 h U
    rw [(by decide +kernel : mi6.ctl.spCost = [1, 0])]
    simp only [List.map_cons, List.map_nil, List.sum_cons, List.sum_nil]
    have s : ∀ f : Nat → ℚ, ∑ j ∈ Finset.range 2, f j = f 0 + f 1 := fun f => by
      rw [Finset.sum_range_succ, Finset.sum_range_one]
    have s3 : ∀ f : Nat → ℚ, ∑ j ∈ Finset.range 3, f j = f 0 + f 1 + f 2 := fun f => by
      rw [Finset.sum_range_succ, s]
    have v0 : ∀ X : Nat → Nat → ℚ, ∀ V, (mi6.costs 0).userData.value dMi X V =
        (X 0 0 ^ 2 + X 0 1 ^ 2) + (X 1 0 ^ 2 + X 1 1 ^ 2) + (X 2 0 ^ 2 + X 2 1 ^ 2) := by
      intro X V
      show (∑ k ∈ Finset.range 3, ∑ r ∈ Finset.range 2, (1 : ℚ) *
        ((∑ c ∈ Finset.range 2, (mat 2 2 [[1, 0], [0, 1]]).e r c * X k c) - (vec [0, 0]).e r) ^ 2) = _
      simp only [s3, s]
      simp [mat, vec]
    have v1 : ∀ X : Nat → Nat → ℚ, ∀ V : Nat → ℚ, (mi6.costs 1).userData.value dMi X V =
        ((V 0 - 1) ^ 2 + (V 1 + 1) ^ 2) + ((V 2 - 1) ^ 2 + (V 3 + 1) ^ 2) := by
      intro X V
      show (∑ k ∈ Finset.range 2, ∑ r ∈ Finset.range 2, (1 : ℚ) *
        ((∑ c ∈ Finset.range 2, (mat 2 2 [[1, 0], [0, 1]]).e r c * V (k * 2 + c)) - (vec [1, -1]).e r) ^ 2) = _
      simp only [s]
      simp [mat, vec]
    have m : ∀ k, mirrorU 2 (Equiv.swap 0 1) (fun _ => (-1 : ℚ)) U (k * 2) = -U (k * 2 + 1) ∧
        mirrorU 2 (Equiv.swap 0 1) (fun _ => (-1 : ℚ)) U (k * 2 + 1) = -U (k * 2) := fun k => by
      have a := mirrorU_ctrl (m := 2) (π := Equiv.swap 0 1) (σ := fun _ => (-1 : ℚ)) U k (c := 0) (by decide)
      have b := mirrorU_ctrl (m := 2) (π := Equiv.swap 0 1) (σ := fun _ => (-1 : ℚ)) U k (c := 1) (by decide)
      rw [Nat.add_zero, Equiv.swap_apply_left] at a
      rw [Equiv.swap_apply_right, Nat.add_zero] at b
      exact ⟨by rw [a]; ring, by rw [b]; ring⟩
    have a0 := m 0
    have a1 := m 1
    simp only [Nat.zero_mul, Nat.zero_add, Nat.one_mul] at a0 a1
    rw [v0, v0, v1, v1, show dMi.m = 2 from rfl, a0.1, a0.2, a1.1, a1.2, (imageMi h 0 (by decide)).1, (imageMi h 0 (by decide)).2,
      (imageMi h 1 (by decide)).1, (imageMi h 1 (by decide)).2, (imageMi h 2 (by decide)).1, (imageMi h 2 (by decide)).2]
    ring
  bounded := Iff.rfl

/-- C108 applies: what the two points do is symmetric, for every solver that returns a minimiser. -/
example : ∀ k < 2, rMi.1.ctl.control.e (k * 2) = -rMi.1.ctl.control.e (k * 2 + 1) := by
  obtain ⟨g, h, f, c⟩ := hmi6
  have S := solveMi h c
  have P := psd_of_pd (c29_hessian S.hist (fun _ _ h => h.2) S.allowed S.plain S.solve)
  rw [(by decide +kernel : rMi.2.2.nrVar = rMi.2.2.c.rows)] at P
  intro k hk
  have := (c108_symmetric S mirroredMi (by unfold MirrorStart; decide +kernel) (by
    intro i hi hps
    rw [(by decide +kernel : mi6.ctl.spCost = [1, 0])] at hi ⊢
    simp only [List.mem_cons, List.not_mem_nil, or_false] at hi
    rcases hi with rfl | rfl
    · exact hps.elim
    · exact ⟨f, rfl⟩) (optimal_of_stationary P (by decide +kernel) (by decide +kernel))).1 k hk 0 (by decide)
  rw [Nat.add_zero, Equiv.swap_apply_left, neg_one_mul] at this
  exact this

/-! ## An initial-state controller: one state, one control, mirrored at 0 -/

def dMj : Dims := ⟨1, 1, 2⟩

def mj0 : World ℚ :=
  { w0 with
    cons := fun _ => Constr.mkCtrlBound (evec [.fin (-1)]) (evec [.fin 1])
    costs := fun _ => Cost.mkTrajectory (mat 1 1 [[1]]) (vec [0]) }

theorem mj0_init : World.Init mj0 := by
  obtain ⟨a, _, _, e⟩ := w0_init
  exact ⟨a, fun i => .inr (.inr (.inr (.inr ⟨_, _, rfl⟩))), fun i => .inl ⟨_, _, rfl⟩, e⟩

def opSysMj : Op ℚ := .system 0 (mat 1 1 [[1]]) (mat 1 1 [[1]]) (vec [0]) (vec [1]) 2

def mj1 := after 1000 mj0 opSysMj
def mj2 := after 1000 mj1 (.constructPs true solver 0 jk)
def mj3 := after 1000 mj2 (.addConstraint 2 jk)
def mj4 := after 1000 mj3 (.addCost 0 jk)
def mj5 := after 1000 mj4 (.resetInitialStateBounds (evec [.fin (-5)]) (evec [.fin 5]))

theorem hmj5 : ∃ g : Ghost, Hist dMj 1000 Careful mj5 g ∧ g.fresh 0 ∧ g.clean := by
  have a1 := hist_after (d := dMj) (dmax := 1000) (E := Careful) (op := opSysMj) (.start mj0_init) ⟨rfl, rfl, rfl⟩
    ⟨trivial, trivial, trivial⟩ (by decide +kernel)
  have a2 := hist_after (op := .constructPs true solver 0 jk) a1 (show HasSystem mj1 0 by unfold HasSystem; decide +kernel)
    ⟨trivial, trivial, trivial⟩ (by decide +kernel)
  have a3 := hist_after (op := .addConstraint 2 jk) a2 (fun _ => (by decide +kernel : mj2.ctl.spBoundConstr = []))
    ⟨trivial, trivial, trivial⟩ (by decide +kernel : okB 1000 mj2 _ = true)
  have a4 := hist_after (op := .addCost 0 jk) a3 trivial ⟨trivial, trivial, trivial⟩ (by decide +kernel : okB 1000 mj3 _ = true)
  have a5 := hist_after (op := .resetInitialStateBounds (evec [.fin (-5)]) (evec [.fin 5])) a4 trivial ⟨trivial, trivial, trivial⟩
    (by decide +kernel : okB 1000 mj4 _ = true)
  exact ⟨_, a5, Or.inr ⟨trivial, rfl⟩, trivial⟩

def envMj : SolveEnv ℚ := { envI (vec [0, 0, 0]) true with answer := fun q => (true, Vec.zero q.nrVar) }

def rMj : World ℚ × Bool × QP ℚ := (mj5.solve envMj).getD (mj5, false, q13)

theorem sMj : mj5.solve envMj = some (rMj.1, true, rMj.2.2) := by
  obtain ⟨r, hr⟩ := Option.isSome_iff_exists.1 (by decide +kernel : (mj5.solve envMj).isSome = true)
  have h1 : rMj = r := by unfold rMj; rw [hr]; rfl
  have h2 : rMj.2.1 = true := by decide +kernel
  rw [hr, ← h2, h1]

theorem solveMj {g : Ghost} (h : Hist dMj 1000 Careful mj5 g) (f : g.fresh 0) (c : g.clean) :
    InitSolve dMj 1000 mj5 g 0 envMj rMj.1 true rMj.2.2 where
  hist := h.mono fun _ _ h => ⟨h.1, h.2.1⟩
  allowed := ⟨by decide +kernel, (fun h => absurd (congrArg Option.isSome h) (by decide +kernel : mj5.ctl.sol.isSome ≠ false)),
    fun q _ _ => rfl, fun _ => by
      refine ⟨by decide +kernel, by decide +kernel, by decide +kernel, by decide +kernel, by decide +kernel, fun M h1 h2 => ⟨h1, h2⟩⟩⟩
  ps := by decide +kernel
  init := by decide +kernel
  clean := fun _ => c
  honest := honestOf (by decide +kernel)
  fresh := by
    intro i hi _
    rw [(by decide +kernel : mj5.ctl.spCost = [0])] at hi ⊢
    rw [List.mem_singleton.1 hi]
    exact ⟨f, rfl⟩
  inverse := trueInverse (vec [0, 0, 0]) true
  solve := sMj

theorem mirroredMj : Mirrored dMj (Equiv.refl _) (fun _ => (-1 : ℚ)) (mat 1 1 [[-1]]) mj5 0 mj5 0 where
  perm := fun _ => Iff.rfl
  sign := fun _ => .inr rfl
  A := by decide +kernel
  B := by decide +kernel
  bias := by decide +kernel
  cons := by
    intro X1 X2 h U
    rw [(by decide +kernel : mj5.ctl.spConstr = [2])]
    simp only [List.forall_mem_cons, List.not_mem_nil, false_imp_iff, implies_true, and_true]
    have h2 : ∀ X : Nat → Nat → ℚ, ∀ V : Nat → ℚ, (mj5.cons 2).userData.Holds dMj X V ↔ ∀ k < 2, -1 ≤ V (k * 1) ∧ V (k * 1) ≤ 1 := by
      intro X V
      show CtrlBoundStep dMj V (evec [.fin (-1)]) (evec [.fin 1]) ↔ _
      refine forall₂_congr fun k _ => ?_
      constructor
      · exact fun H => H 0 (by decide)
      · intro H c hc
        have hc : c < 1 := hc
        obtain rfl : c = 0 := by omega
        exact H
    rw [h2, h2]
    refine forall₂_congr fun k _ => ?_
    have := mirrorU_ctrl (m := 1) (π := Equiv.refl _) (σ := fun _ => (-1 : ℚ)) U k (c := 0) (by decide)
    rw [Nat.add_zero, Equiv.refl_apply, Nat.add_zero] at this
    rw [show dMj.m = 1 from rfl, this]
    constructor <;> intro H <;> constructor <;> linarith [H.1, H.2]
  costs := by
    intro X1 X2 h U
    rw [(by decide +kernel : mj5.ctl.spCost = [0])]
    simp only [List.map_cons, List.map_nil, List.sum_cons, List.sum_nil]
    have v0 : ∀ X : Nat → Nat → ℚ, ∀ V, (mj5.costs 0).userData.value dMj X V = ∑ k ∈ Finset.range 3, X k 0 ^ 2 := by
      intro X V
      show (∑ k ∈ Finset.range 3, ∑ r ∈ Finset.range 1, (1 : ℚ) *
        ((∑ c ∈ Finset.range 1, (mat 1 1 [[1]]).e r c * X k c) - (vec [0]).e r) ^ 2) = _
      simp [mat, vec]
    rw [v0, v0]
    congr 1
    refine Finset.sum_congr rfl fun k hk => ?_
    have a := h k (Nat.lt_succ_iff.1 (Finset.mem_range.1 hk)) 0 (by decide)
    rw [show dMj.n = 1 from rfl, Finset.sum_range_one] at a
    rw [a]
    show (-1 * X1 k 0) ^ 2 = _
    ring
  bounded := Iff.rfl

/-- C108 applies to initial-state controllers: `x` and `U` are feasible exactly when `-x` and `-U` are, and both signs rank
control sequences alike. -/
example (x U V : Nat → ℚ) :
    (Feasible rMj.2.2 (joined dMj (fun j => -x j) fun j => -U j) ↔ Feasible rMj.2.2 (joined dMj x U)) ∧
    objective rMj.2.2 (joined dMj (fun j => -x j) fun j => -U j) - objective rMj.2.2 (joined dMj (fun j => -x j) fun j => -V j) =
      objective rMj.2.2 (joined dMj x U) - objective rMj.2.2 (joined dMj x V) := by
  obtain ⟨g, h, f, c⟩ := hmj5
  have S := solveMj h f c
  have m : ∀ W : Nat → ℚ, mirrorU dMj.m (Equiv.refl _) (fun _ => (-1 : ℚ)) W = fun j => -W j := by
    intro W
    funext j
    have := mirrorU_ctrl (m := 1) (π := Equiv.refl _) (σ := fun _ => (-1 : ℚ)) W j (c := 0) (by decide)
    rw [Nat.add_zero, Nat.mul_one, Equiv.refl_apply, Nat.add_zero, neg_one_mul] at this
    exact this
  have hx : MirrorStart dMj (mat 1 1 [[-1]]) x fun j => -x j := by
    intro i hi
    have hi : i < 1 := hi
    obtain rfl : i = 0 := by omega
    rw [show dMj.n = 1 from rfl, Finset.sum_range_one]
    show -x 0 = -1 * x 0
    ring
  have A := c108_feasible_init S S mirroredMj hx (by
    have b : mj5.ctl.x0lb.e 0 = .fin (-5) ∧ mj5.ctl.x0ub.e 0 = .fin 5 := by decide +kernel
    unfold InitBounds
    have one : ∀ P : Nat → Prop, (∀ j < dMj.n, P j) ↔ P 0 := fun P => by
      show (∀ j < 1, P j) ↔ _
      exact ⟨fun h => h 0 (by decide), fun h j hj => by obtain rfl : j = 0 := by omega
                                                        exact h⟩
    rw [one, one, b.1, b.2]
    show (-5 : ℚ) ≤ -x 0 ∧ -x 0 ≤ 5 ↔ (-5 : ℚ) ≤ x 0 ∧ x 0 ≤ 5
    constructor <;> intro H <;> constructor <;> linarith [H.1, H.2]) U
  have B := c108_objective_init S S mirroredMj hx U V
  rw [m] at A
  rw [m, m] at B
  exact ⟨A, B⟩

end Ex
end Copra
