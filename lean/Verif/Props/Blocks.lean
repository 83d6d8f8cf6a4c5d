import Verif.Props.InitState2
import Verif.Props.Bounds
import Verif.Props.EndToEndExamples

/-! # C14-C18 at the level of a solve: where each registered constraint is in the problem handed to the solver -/

namespace Copra
open Spec

set_option linter.unusedSectionVars false
set_option maxRecDepth 100000

section
variable {K : Type} [Field K] [LinearOrder K] [IsStrictOrderedRing K]

/-- The rows of one element of a stack. -/
theorem Stack.block {L : List Nat} {sz : Nat → Nat} {F : Nat → Nat → Nat → K} {g : Nat → Nat → Ext K} {cols : Nat}
    {A : Mat K} {b : Vec (Ext K)} (h : Stack L sz F g cols A b) (R : K → Ext K → Prop) (x : Nat → K) {pre post : List Nat}
    {i : Nat} (hl : L = pre ++ i :: post) :
    (∀ t, total sz pre ≤ t → t < total sz (pre ++ [i]) → R (rowValue A x t) (b.e t)) ↔
      ∀ r < sz i, R (∑ j ∈ Finset.range cols, F i r j * x j) (g i r) := by
  have e : ∀ r < sz i, (R (rowValue A x (total sz pre + r)) (b.e (total sz pre + r)) ↔
        R (∑ j ∈ Finset.range cols, F i r j * x j) (g i r)) := by
    intro r hr
    obtain ⟨h1, h2⟩ := h.at_ pre i post hl r hr
    have : rowValue A x (total sz pre + r) = ∑ j ∈ Finset.range cols, F i r j * x j := by
      unfold rowValue
      rw [h.cols]
      apply Finset.sum_congr rfl; intro j hj
      rw [h1 j (Finset.mem_range.1 hj)]
    rw [this, h2]
  have ht : total sz (pre ++ [i]) = total sz pre + sz i := by simp [total]
  rw [ht]
  constructor
  · intro H r hr
    exact (e r hr).1 (H _ (Nat.le_add_right _ _) (by omega))
  · intro H t h1 h2
    have := (e (t - total sz pre) (by omega)).2 (H _ (by omega))
    rwa [Nat.add_sub_cancel' h1] at this

namespace World

/-- **C14-C17, in the problem**: in every history, the inequality rows handed to the solver are the blocks of the
registered inequality constraints in the order they were added, and each block is satisfied by the controls `U` exactly
when its constraint holds on the simulation under `U`; the same for equalities.  (`Honest` excludes only trajectory
bounds with finite lower entries, C17; without it the block means `AsBuilt`.) -/
theorem c14_rows_in_problem {d : Dims} {dmax : K} {E : World K → Op K → Prop} {w w' : World K} {g : Ghost} {env : SolveEnv K}
    {b : Bool} {q : QP K} {p : Nat} (h : Hist d dmax E w g) (hE : ∀ w op, E w op → NoBoundSpan w op)
    (ho : OpOk d w g (.solve env)) (hi : w.ctl.isInit = false) (hs : w.solve env = some (w', b, q)) (hp : w.ctl.ps = some p) :
    (∀ pre i post, (w.ctl.spConstr.filter fun i => (w.cons i).constraintType = .inequality) = pre ++ i :: post →
      ∀ U, ((∀ t, rowCount w pre ≤ t → t < rowCount w (pre ++ [i]) → Ext.fin (rowValue q.Aineq U t) ≤ q.bineq.e t) ↔
          (w.cons i).userData.AsBuilt d (Spec.traj d w p U) U) ∧
        ((w.cons i).userData.Honest →
          ((w.cons i).userData.AsBuilt d (Spec.traj d w p U) U ↔ (w.cons i).userData.Holds d (Spec.traj d w p U) U))) ∧
    (∀ pre i post, (w.ctl.spConstr.filter fun i => (w.cons i).constraintType = .equality) = pre ++ i :: post →
      ∀ U, (∀ t, rowCount w pre ≤ t → t < rowCount w (pre ++ [i]) → Ext.fin (rowValue q.Aeq U t) = q.beq.e t) ↔
          (w.cons i).userData.Holds d (Spec.traj d w p U) U) ∧
    q.Aineq.rows = rowCount w (w.ctl.spConstr.filter fun i => (w.cons i).constraintType = .inequality) ∧
    q.Aeq.rows = rowCount w (w.ctl.spConstr.filter fun i => (w.cons i).constraintType = .equality) := by
  obtain ⟨p', hp', S⟩ := h.good.solved ho.2 hs
  rw [hp] at hp'; cases hp'
  have C := h.good.canUpdate hp
  have A := S.plain hi
  obtain ⟨t1, t2, t3⟩ := C.typed
  have rc : ∀ L, rowCount w L = total (fun i => (w'.cons i).nrConstr) L := fun L => by
    rw [rowCount_total]; exact (total_congr fun i _ => ((S.heap.frame i).nr)).symm
  have hl : ∀ i ∈ w.ctl.spConstr, LinesCurrent (w.cons i) := fun i _ => h.lines hE i
  rw [← C.part.eq, ← C.part.ineq]
  refine ⟨fun pre i post e U => ⟨?_, fun hh => ?_⟩, fun pre i post e U => ?_, by rw [rc]; exact A.ineq.rows, by rw [rc]; exact A.eq.rows⟩
  · obtain ⟨a1, a2, a3⟩ := t2 i (by rw [e]; simp)
    rw [rc, rc, A.ineq.block (fun a b => Ext.fin a ≤ b) U e, ← sem_asBuilt (C.cons i a1) (hl i a1), ← S.rows a1 a2 U, a3]
    simp [Rel]
  · obtain ⟨a1, a2, a3⟩ := t2 i (by rw [e]; simp)
    exact hh.iff (C.cons i a1).boundSize
  · obtain ⟨a1, a2, a3⟩ := t1 i (by rw [e]; simp)
    have ho : (w.cons i).userData.Honest := by
      have hk : (w.cons i).kind ≠ .trajBound := by
        intro hk; unfold Constr.ineq at a3; rw [hk] at a3; simp at a3
      unfold Constr.userData
      cases h : (w.cons i).kind <;> simp only <;> first | trivial | exact absurd h hk | (split <;> trivial)
    rw [rc, rc, A.eq.block (fun a b => Ext.fin a = b) U e, ← ho.iff (C.cons i a1).boundSize,
      ← sem_asBuilt (C.cons i a1) (hl i a1), ← S.rows a1 a2 U, a3]
    simp [Rel]

/-- **C18, in the problem**: with one registered control bound the bounds handed to the solver are the user's lower and
upper vectors at every step, in every history. -/
theorem c18_bounds_in_problem {d : Dims} {dmax : K} {E : World K → Op K → Prop} {w w' : World K} {g : Ghost}
    {env : SolveEnv K} {b : Bool} {q : QP K} {i : Nat} (h : Hist d dmax E w g) (ho : OpOk d w g (.solve env))
    (hi : w.ctl.spBoundConstr = [i]) (hs : w.solve env = some (w', b, q)) :
    (∃ l u, (w.cons i).userData = .ctrlBound l u) ∧
    ∀ (U : Nat → K) (X : Nat → Nat → K),
      (∀ j < d.m * d.N, q.lb.e ((if w.ctl.isInit then d.n else 0) + j) ≤ Ext.fin (U j) ∧
        Ext.fin (U j) ≤ q.ub.e ((if w.ctl.isInit then d.n else 0) + j)) ↔ (w.cons i).userData.Holds d X U := by
  refine ⟨?_, fun U X => c37_replaced_partial h ho hi hs U X⟩
  obtain ⟨p, hp, S⟩ := h.good.solved ho.2 hs
  obtain ⟨_, _, t3⟩ := (h.good.canUpdate hp).typed
  obtain ⟨a1, a2⟩ := t3 i (by rw [hi]; exact List.mem_singleton_self _)
  unfold Constr.userData
  rw [a2]
  simp only
  split <;> exact ⟨_, _, rfl⟩

end World
end

namespace Ex

/-- The premises are met at the world `w12` (a controller with a registered trajectory, control and mixed constraint
history) and its solve. -/
example := World.c14_rows_in_problem h12 (fun _ _ h => h.1) o13 plain12 s13 ps12
example := World.c18_bounds_in_problem h12 o13 bound12 s13

end Ex
end Copra
