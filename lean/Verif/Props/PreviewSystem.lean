import Verif.Proofs.PreviewSystem
import Mathlib.Logic.Relation
import Mathlib.Tactic.NormNum
import Mathlib.Data.Rat.Defs

/-! # Properties C01-C06: the preview system -/

namespace Copra
open Spec

variable {K : Type} [Field K]

/-! ## C04: acceptance and atomicity of `system` -/

/-- The data of a `system` call is consistent. -/
def ConsistentData (A B : Mat K) (w x0 : Vec K) (N : Int) : Prop :=
  A.rows = x0.rows ∧ A.cols = x0.rows ∧ B.rows = x0.rows ∧ w.rows = x0.rows ∧ 0 < N

/-- All derived `int` dimensions are representable. -/
def RepresentableData (A B : Mat K) (N : Int) : Prop :=
  N + 1 ≤ intMax ∧ A.cols ≤ intMax ∧ B.cols ≤ intMax ∧ A.cols * (N + 1) ≤ intMax ∧ B.cols * N ≤ intMax

/-- C04: inconsistent data is rejected with `domain_error` and nothing is changed; consistent
representable data is accepted, the object then holds exactly the given data and is marked as not
updated; and the only undefined case is consistent data whose derived dimensions overflow. -/
theorem c04_system_accepts_iff (ps : PreviewSystem K) (A B : Mat K) (w x0 : Vec K) (N : Int) :
    (¬ ConsistentData A B w x0 N → ps.system A B w x0 N = .thrown .domainError ps) ∧
    (ConsistentData A B w x0 N → RepresentableData A B N →
      ∃ ps', ps.system A B w x0 N = .ok ps' ∧ ps'.A = A ∧ ps'.B = B ∧ ps'.d = w ∧ ps'.x0 = x0 ∧
        (ps'.nrUStep : Int) = N ∧ (ps'.nrXStep : Int) = N + 1 ∧ ps'.xDim = A.cols ∧ ps'.uDim = B.cols ∧
        ps'.fullXDim = ps'.xDim * ps'.nrXStep ∧ ps'.fullUDim = ps'.uDim * ps'.nrUStep ∧
        ps'.isUpdated = false) ∧
    (ConsistentData A B w x0 N → ¬ RepresentableData A B N → ps.system A B w x0 N = .ub) := by
  have hcond : ConsistentData A B w x0 N → ps.system A B w x0 N =
      Res.ofOption (PreviewSystem.systemBody A B w x0 N.toNat) := by
    rintro ⟨h1, h2, h3, h4, h5⟩
    unfold PreviewSystem.system
    rw [if_neg (by omega), if_neg (by omega), if_neg (by omega), if_neg (by omega), if_neg (by omega)]
  have hrep : 0 < N → (RepresentableData A B N ↔ (N.toNat + 1 ≤ intMax ∧ A.cols ≤ intMax ∧
      B.cols ≤ intMax ∧ A.cols * (N.toNat + 1) ≤ intMax ∧ B.cols * N.toNat ≤ intMax)) := by
    intro hN
    obtain ⟨n, rfl⟩ : ∃ n : Nat, N = n := ⟨N.toNat, by omega⟩
    unfold RepresentableData
    rw [Int.toNat_natCast]
    constructor
    · rintro ⟨a, b, c, d, e⟩; exact ⟨by omega, b, c, by exact_mod_cast d, by exact_mod_cast e⟩
    · rintro ⟨a, b, c, d, e⟩; exact ⟨by omega, b, c, by exact_mod_cast d, by exact_mod_cast e⟩
  refine ⟨?_, ?_, ?_⟩
  · intro h
    unfold PreviewSystem.system
    split; · rfl
    split; · rfl
    split; · rfl
    split; · rfl
    split; · rfl
    exact absurd (by unfold ConsistentData; omega) h
  · intro h hr
    rw [hcond h]
    obtain ⟨h1, h2, h3, h4, h5⟩ := h
    rw [hrep h5] at hr
    cases hb : PreviewSystem.systemBody A B w x0 N.toNat with
    | none => exact absurd hr (systemBody_none_iff.1 hb)
    | some ps' =>
      obtain ⟨hok, hA, hB, hd, hx, hu⟩ := systemBody_spec (by omega) (by omega) (by omega) (by omega)
        (by omega) hb
      have D := hok.dims
      refine ⟨ps', rfl, hA, hB, hd, hx, ?_, ?_, D.xDim, D.uDim, ?_, ?_, hu⟩
      · rw [D.nrU]; simp; omega
      · rw [D.nrX]; simp; omega
      · rw [D.fullX, D.xDim, D.nrX]
      · rw [D.fullU, D.uDim, D.nrU]
  · intro h hr
    rw [hcond h]
    rw [hrep h.2.2.2.2] at hr
    rw [systemBody_none_iff.2 hr]
    rfl

/-- What an accepted `system` call establishes. -/
theorem system_ok {ps ps' : PreviewSystem K} {A B : Mat K} {w x0 : Vec K} {N : Int}
    (h : ps.system A B w x0 N = .ok ps') :
    SysOk ⟨A.cols, B.cols, N.toNat⟩ ps' ∧ ps'.A = A ∧ ps'.B = B ∧ ps'.d = w ∧ ps'.x0 = x0 ∧
      ps'.isUpdated = false ∧ x0.rows = A.cols := by
  have hc : ConsistentData A B w x0 N := by
    by_contra hc
    rw [(c04_system_accepts_iff ps A B w x0 N).1 hc] at h
    cases h
  obtain ⟨h1, h2, h3, h4, h5⟩ := hc
  unfold PreviewSystem.system at h
  rw [if_neg (by omega), if_neg (by omega), if_neg (by omega), if_neg (by omega), if_neg (by omega)] at h
  cases hb : PreviewSystem.systemBody A B w x0 N.toNat with
  | none => rw [hb] at h; cases h
  | some q =>
    rw [hb] at h
    cases h
    obtain ⟨hok, hA, hB, hd, hx, hu⟩ := systemBody_spec (by omega) (by omega) (by omega) (by omega)
      (by omega) hb
    exact ⟨hok, hA, hB, hd, hx, hu, h2.symm⟩

/-! ## C05: updates of an accepted system are in bounds -/

/-- Run `updateSystem` `k` times. -/
def updateTimes : Nat → PreviewSystem K → Option (PreviewSystem K)
  | 0, ps => some ps
  | k + 1, ps => do
    let ps' ← ps.updateSystem
    updateTimes k ps'

theorem updateTimes_ok {d : Dims} : ∀ (k : Nat) {ps : PreviewSystem K}, SysOk d ps →
    Ok (updateTimes k ps) fun ps' => SysOk d ps' ∧ ps'.A = ps.A ∧ ps'.B = ps.B ∧ ps'.d = ps.d ∧
      ps'.x0 = ps.x0 ∧ (0 < k → ps'.isUpdated = true)
  | 0, ps, h => Ok.pure ⟨h, rfl, rfl, rfl, rfl, fun h => absurd h (by omega)⟩
  | k + 1, ps, h => by
    apply Ok.bind
    refine (updateSystem_ok h).mono ?_
    rintro ps' ⟨h1, _, h3, h4, h5, h6, h7⟩
    cases k with
    | zero => exact Ok.pure ⟨h1, h4, h5, h6, h7, fun _ => h3⟩
    | succ k =>
      refine (updateTimes_ok (k + 1) h1).mono ?_
      rintro q ⟨q1, q2, q3, q4, q5, q6⟩
      exact ⟨q1, q2.trans h4, q3.trans h5, q4.trans h6, q5.trans h7, fun _ => q6 (by omega)⟩

/-- C05: after an accepted `system` call any number of updates completes without an out-of-range or
dimension-mismatched access. -/
theorem c05_update_in_bounds {ps ps' : PreviewSystem K} {A B : Mat K} {w x0 : Vec K} {N : Int}
    (h : ps.system A B w x0 N = .ok ps') (k : Nat) :
    ∃ ps'', updateTimes k ps' = some ps'' ∧ (0 < k → ps''.isUpdated = true) := by
  obtain ⟨ps'', h1, h2⟩ := updateTimes_ok k (system_ok h).1
  exact ⟨ps'', h1, h2.2.2.2.2.2⟩

/-! ## C01: prediction equals simulation -/

/-- C01: after an accepted `system` call and at least one update, `Phi x0 + Psi U + xi` (row by row) is
the state sequence simulated from the initial state under `U`. -/
theorem c01_prediction_is_simulation {ps ps1 ps2 : PreviewSystem K} {A B : Mat K} {w x0 : Vec K}
    {N : Int} (hs : ps.system A B w x0 N = .ok ps1) {t : Nat} (ht : 0 < t)
    (hu : updateTimes t ps1 = some ps2) (U : Nat → K) :
    ps2.Phi.rows = A.cols * (N.toNat + 1) ∧ ps2.Phi.cols = A.cols ∧
    ps2.Psi.rows = A.cols * (N.toNat + 1) ∧ ps2.Psi.cols = B.cols * N.toNat ∧
    ps2.xi.rows = A.cols * (N.toNat + 1) ∧
    ∀ k ≤ N.toNat, ∀ r < A.cols,
      (∑ c ∈ Finset.range A.cols, ps2.Phi.e (k * A.cols + r) c * x0.e c)
        + (∑ j ∈ Finset.range (B.cols * N.toNat), ps2.Psi.e (k * A.cols + r) j * U j)
        + ps2.xi.e (k * A.cols + r)
      = sim ⟨A.cols, B.cols, N.toNat⟩ A B w x0.e U k r := by
  obtain ⟨hok, hA, hB, hd, hx, _, _⟩ := system_ok hs
  obtain ⟨h1, h2, h3, h4, h5, h6⟩ := (updateTimes_ok t hok).of_eq hu
  have D := h1.dims
  refine ⟨D.Phir, D.Phic, D.Psir, D.Psic, D.xir, ?_⟩
  intro k hk r hr
  have := predC_eq_sim (h1.pred (h6 ht)) x0.e U k hk r hr
  rw [h2, h3, h4, hA, hB, hd] at this
  exact this

/-! ## C03: causality -/

/-- Simulation up to step `k` only reads controls before `k`. -/
theorem sim_causal (d : Dims) (A B : Mat K) (w : Vec K) (x0 U V : Nat → K) :
    ∀ k, (∀ j < k, ∀ c < d.m, U (j * d.m + c) = V (j * d.m + c)) →
      ∀ r, sim d A B w x0 U k r = sim d A B w x0 V k r
  | 0, _, _ => rfl
  | k + 1, h, r => by
    have ih := sim_causal d A B w x0 U V k fun j hj => h j (by omega)
    show _ + _ + _ = _ + _ + _
    congr 1
    congr 1
    · exact Finset.sum_congr rfl fun c _ => by rw [ih c]
    · exact Finset.sum_congr rfl fun c hc => by
        rw [ctrl, ctrl, h k (by omega) c (Finset.mem_range.1 hc)]

/-- C03: the predicted state `x_k` is the same for controls that agree before step `k`, and the first
block of the prediction is the initial state. -/
theorem c03_causal {ps ps1 ps2 : PreviewSystem K} {A B : Mat K} {w x0 : Vec K} {N : Int}
    (hs : ps.system A B w x0 N = .ok ps1) {t : Nat} (ht : 0 < t)
    (hu : updateTimes t ps1 = some ps2) (U V : Nat → K) (k : Nat) (hk : k ≤ N.toNat)
    (hUV : ∀ j < k, ∀ c < B.cols, U (j * B.cols + c) = V (j * B.cols + c)) (r : Nat) (hr : r < A.cols) :
    (∑ c ∈ Finset.range A.cols, ps2.Phi.e (k * A.cols + r) c * x0.e c)
        + (∑ j ∈ Finset.range (B.cols * N.toNat), ps2.Psi.e (k * A.cols + r) j * U j)
        + ps2.xi.e (k * A.cols + r)
      = (∑ c ∈ Finset.range A.cols, ps2.Phi.e (k * A.cols + r) c * x0.e c)
        + (∑ j ∈ Finset.range (B.cols * N.toNat), ps2.Psi.e (k * A.cols + r) j * V j)
        + ps2.xi.e (k * A.cols + r) ∧
    (∑ c ∈ Finset.range A.cols, ps2.Phi.e r c * x0.e c)
        + (∑ j ∈ Finset.range (B.cols * N.toNat), ps2.Psi.e r j * U j) + ps2.xi.e r = x0.e r := by
  have h1 := (c01_prediction_is_simulation hs ht hu U).2.2.2.2.2
  have h2 := (c01_prediction_is_simulation hs ht hu V).2.2.2.2.2
  constructor
  · rw [h1 k hk r hr, h2 k hk r hr]
    exact sim_causal ⟨A.cols, B.cols, N.toNat⟩ A B w x0.e U V k hUV r
  · have := h1 0 (Nat.zero_le _) r hr
    simpa [sim] using this

/-! ## C02: prediction matrices depend on the current system only -/

/-- One thing a client can do to a preview system. -/
inductive PsStep : PreviewSystem K → PreviewSystem K → Prop
  | accepted {ps ps' A B w x0 N} : ps.system A B w x0 N = .ok ps' → PsStep ps ps'
  | rejected {ps ps' A B w x0 N e} : ps.system A B w x0 N = .thrown e ps' → PsStep ps ps'
  | xInit {ps} (x : Vec K) : PsStep ps (ps.setXInit x)
  | setDynamics {ps} (A B : Mat K) (w : Vec K) : PsStep ps (ps.setDynamics A B w)
  | update {ps ps'} : ps.updateSystem = some ps' → PsStep ps ps'

/-- Invariant of every history: nothing accepted yet, or consistent with an accepted call. -/
def SysHist (ps : PreviewSystem K) : Prop := ps.nrUStep = 0 ∨ ∃ d, SysAny d ps

theorem updateStep_nrU {ps ps' : PreviewSystem K} {i : Nat} (h : PreviewSystem.updateStep i ps = some ps') :
    ps'.nrUStep = ps.nrUStep := by
  unfold PreviewSystem.updateStep at h
  simp only [Option.bind_eq_bind, Option.bind_eq_some_iff] at h
  obtain ⟨_, _, _, _, _, _, _, _, _, _, _, _, _, _, _, _, _, _, _, _, _, _, h⟩ := h
  cases h
  rfl

theorem updateSystem_nrU {ps ps' : PreviewSystem K} (h : ps.updateSystem = some ps') :
    ps'.nrUStep = ps.nrUStep := by
  unfold PreviewSystem.updateSystem at h
  simp only [Option.bind_eq_bind, Option.bind_eq_some_iff] at h
  obtain ⟨_, _, _, _, _, _, q, hq, h⟩ := h
  cases h
  show q.nrUStep = _
  unfold loop at hq
  have key : ∀ (l : List Nat) (s q : PreviewSystem K),
      l.foldlM (fun s i => PreviewSystem.updateStep i s) s = some q → q.nrUStep = s.nrUStep := by
    intro l
    induction l with
    | nil => intro s q h; cases h; rfl
    | cons x l ih =>
      intro s q h
      rw [List.foldlM_cons] at h
      simp only [Option.bind_eq_bind, Option.bind_eq_some_iff] at h
      obtain ⟨s', h1, h2⟩ := h
      rw [ih s' q h2, updateStep_nrU h1]
  rw [key _ _ _ hq]

theorem PsStep.hist {ps ps' : PreviewSystem K} (h : SysHist ps) (hs : PsStep ps ps') : SysHist ps' := by
  cases hs with
  | accepted hs => exact Or.inr ⟨_, (system_ok hs).1.any⟩
  | @rejected _ A B w x0 N e hs =>
    have : ps' = ps := by
      unfold PreviewSystem.system at hs
      split at hs; · cases hs; rfl
      split at hs; · cases hs; rfl
      split at hs; · cases hs; rfl
      split at hs; · cases hs; rfl
      split at hs; · cases hs; rfl
      cases hb : PreviewSystem.systemBody A B w x0 N.toNat <;> rw [hb] at hs <;> cases hs
    rw [this]; exact h
  | xInit x =>
    rcases h with h | ⟨d, h⟩
    · exact Or.inl h
    · exact Or.inr ⟨d, h.setXInit x⟩
  | setDynamics A B w =>
    rcases h with h | ⟨d, h⟩
    · exact Or.inl h
    · exact Or.inr ⟨d, h.setDynamics A B w⟩
  | update hu =>
    rcases h with h | ⟨d, h⟩
    · exact Or.inl (by rw [updateSystem_nrU hu, h])
    · exact Or.inr ⟨d, (h.update hu).1.any⟩

theorem hist_of_history {ps : PreviewSystem K}
    (h : Relation.ReflTransGen PsStep (PreviewSystem.default : PreviewSystem K) ps) : SysHist ps := by
  induction h with
  | refl => exact Or.inl rfl
  | tail _ hs ih => exact hs.hist ih

/-- C02, for one preview system and any history of calls on it: once a `system` call has been accepted
(`nrUStep` is positive), if the next update is not undefined then the dynamics fit the accepted
dimensions, and the prediction matrices it produces are those of a brand new preview system built from
the current `A`, `B`, `d` and horizon; the same holds for the matrices already present whenever the
object is marked as updated; and updating once more changes none of them. -/
theorem c02_history_independent {ps : PreviewSystem K}
    (hist : Relation.ReflTransGen PsStep (PreviewSystem.default : PreviewSystem K) ps)
    (hacc : 0 < ps.nrUStep) {ps' : PreviewSystem K} (hu : ps.updateSystem = some ps')
    (x : Vec K) (hx : x.rows = ps.A.rows) :
    (∀ q, PreviewSystem.construct ps.A ps.B ps.d x ps.nrUStep = .ok q → ∀ q', q.updateSystem = some q' →
      MatEq ps'.Phi q'.Phi ∧ MatEq ps'.Psi q'.Psi ∧ VecEq ps'.xi q'.xi ∧
      (ps.isUpdated = true → MatEq ps.Phi q'.Phi ∧ MatEq ps.Psi q'.Psi ∧ VecEq ps.xi q'.xi)) ∧
    (∃ q q', PreviewSystem.construct ps.A ps.B ps.d x ps.nrUStep = .ok q ∧ q.updateSystem = some q') ∧
    (∃ ps'', ps'.updateSystem = some ps'' ∧
      MatEq ps''.Phi ps'.Phi ∧ MatEq ps''.Psi ps'.Psi ∧ VecEq ps''.xi ps'.xi) := by
  rcases hist_of_history hist with h0 | ⟨d, h⟩
  · omega
  obtain ⟨hok', P', hu', eA, eB, ed, ex⟩ := h.update hu
  have D := updateSystem_dynShape h.shape hu
  have hdims : (⟨ps.A.cols, ps.B.cols, (ps.nrUStep : Int).toNat⟩ : Dims) = d := by
    rw [D.Ac, D.Bc, h.shape.nrU, Int.toNat_natCast]
  refine ⟨?_, ?_, ?_⟩
  · intro q hq q' hq'
    obtain ⟨qok, qA, qB, qd, _⟩ := system_ok hq
    rw [hdims] at qok
    obtain ⟨q'ok, Q', _, fA, fB, fd, _⟩ := (updateSystem_ok qok).of_eq hq'
    obtain ⟨a, b, c⟩ := P'.unique Q' hok'.dims.toSysShape q'ok.dims.toSysShape
      (by rw [eA, fA, qA]) (by rw [eB, fB, qB]) (by rw [ed, fd, qd])
    refine ⟨a, b, c, fun hup => ?_⟩
    exact (h.upd hup).2.unique Q' h.shape q'ok.dims.toSysShape
      (by rw [fA, qA]) (by rw [fB, qB]) (by rw [fd, qd])
  · have hN := h.shape.Npos
    have hb := h.shape.fullXle
    have hc := h.shape.fullUle
    have hrep : RepresentableData ps.A ps.B (ps.nrUStep : Int) := by
      unfold RepresentableData
      rw [D.Ac, D.Bc, h.shape.nrU]
      have := h.shape.Nle
      exact ⟨by omega, h.shape.nle, h.shape.mle, by exact_mod_cast hb, by exact_mod_cast hc⟩
    obtain ⟨q, hq, _⟩ := (c04_system_accepts_iff PreviewSystem.default ps.A ps.B ps.d x
      (ps.nrUStep : Int)).2.1 ⟨hx.symm, by rw [D.Ac, hx, D.Ar], by rw [D.Br, hx, D.Ar],
        by rw [D.dr, hx, D.Ar], by omega⟩ hrep
    obtain ⟨q', hq', _⟩ := updateSystem_ok (system_ok hq).1
    exact ⟨q, q', hq, hq'⟩
  · obtain ⟨ps'', h1, ok'', P'', _, fA, fB, fd, _⟩ := updateSystem_ok hok'
    refine ⟨ps'', h1, ?_⟩
    exact P''.unique P' ok''.dims.toSysShape hok'.dims.toSysShape fA fB fd

/-! ## C06: a new initial state needs no update -/

/-- C06 (prediction part): after `xInit(x)` on an updated system, without any further update, the
prediction from the (new) stored initial state is the simulation from `x`; the object is still marked as
updated. -/
theorem c06_xInit_no_update {ps ps1 ps2 : PreviewSystem K} {A B : Mat K} {w x0 : Vec K} {N : Int}
    (hs : ps.system A B w x0 N = .ok ps1) {t : Nat} (ht : 0 < t)
    (hu : updateTimes t ps1 = some ps2) (x : Vec K) (U : Nat → K) :
    (ps2.setXInit x).isUpdated = true ∧ (ps2.setXInit x).x0 = x ∧
    ∀ k ≤ N.toNat, ∀ r < A.cols,
      (∑ c ∈ Finset.range A.cols, (ps2.setXInit x).Phi.e (k * A.cols + r) c * (ps2.setXInit x).x0.e c)
        + (∑ j ∈ Finset.range (B.cols * N.toNat), (ps2.setXInit x).Psi.e (k * A.cols + r) j * U j)
        + (ps2.setXInit x).xi.e (k * A.cols + r)
      = sim ⟨A.cols, B.cols, N.toNat⟩ A B w x.e U k r := by
  obtain ⟨hok, hA, hB, hd, hx, _, _⟩ := system_ok hs
  obtain ⟨h1, h2, h3, h4, h5, h6⟩ := (updateTimes_ok t hok).of_eq hu
  refine ⟨h6 ht, rfl, ?_⟩
  intro k hk r hr
  have := predC_eq_sim (h1.pred (h6 ht)) x.e U k hk r hr
  rw [h2, h3, h4, hA, hB, hd] at this
  exact this

/-! ## The hypotheses are met -/

/-- A double integrator with horizon 3 over the rationals. -/
def exA : Mat ℚ := ⟨2, 2, fun i j => if i = j then 1 else if i = 0 then 1/10 else 0⟩
def exB : Mat ℚ := ⟨2, 1, fun i _ => if i = 0 then 1/200 else 1/10⟩
def exd : Vec ℚ := ⟨2, fun i => if i = 0 then 0 else -1⟩
def exx : Vec ℚ := ⟨2, fun i => if i = 0 then 5 else 2⟩

theorem ex_accepted : ∃ ps, PreviewSystem.construct exA exB exd exx 3 = .ok ps := by
  obtain ⟨ps, h, _⟩ := (c04_system_accepts_iff PreviewSystem.default exA exB exd exx 3).2.1
    (by unfold ConsistentData exA exB exd exx; decide)
    (by unfold RepresentableData exA exB intMax; norm_num)
  exact ⟨ps, h⟩

/-- Hypotheses of C01, C03, C05, C06 and C02 are satisfiable together: an accepted, twice updated system. -/
example : ∃ ps1 ps2 : PreviewSystem ℚ, PreviewSystem.default.system exA exB exd exx 3 = .ok ps1 ∧
    updateTimes 2 ps1 = some ps2 ∧ 0 < ps2.nrUStep ∧
    Relation.ReflTransGen PsStep (PreviewSystem.default : PreviewSystem ℚ) ps2 := by
  obtain ⟨ps1, h1⟩ := ex_accepted
  obtain ⟨ps2, h2, _⟩ := c05_update_in_bounds h1 2
  have hok := (updateTimes_ok 2 (system_ok h1).1).of_eq h2
  refine ⟨ps1, ps2, h1, h2, ?_, ?_⟩
  · rw [hok.1.dims.nrU]; decide
  · simp only [updateTimes, Option.bind_eq_bind, Option.bind_eq_some_iff] at h2
    obtain ⟨q, hq, q', hq', h⟩ := h2
    cases h
    exact ((Relation.ReflTransGen.refl.tail (.accepted h1)).tail (.update hq)).tail (.update hq')

/-- A rejected call and an overflowing one. -/
example : (PreviewSystem.default : PreviewSystem ℚ).system exA exB exd exx 0
    = .thrown .domainError PreviewSystem.default :=
  (c04_system_accepts_iff _ exA exB exd exx 0).1 (by unfold ConsistentData; omega)

example : (PreviewSystem.default : PreviewSystem ℚ).system exA exB exd exx 2147483647 = .ub :=
  (c04_system_accepts_iff _ exA exB exd exx _).2.2 (by unfold ConsistentData exA exB exd exx; decide)
    (by unfold RepresentableData intMax; norm_num)

end Copra
