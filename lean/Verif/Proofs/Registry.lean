import Verif.Proofs.Frames

/-! # Registries of the controller over arbitrary histories -/

namespace Copra
open Spec

set_option linter.unusedSectionVars false
set_option linter.unusedSimpArgs false

variable {K : Type} [Field K]

/-! ## Outcomes of one call -/

namespace World

/-- `op` returns normally or throws (caught by the client), leading to `w'`. -/
def Steps (dmax : K) (w : World K) (op : Op K) (w' : World K) : Prop :=
  w.step dmax op = .ok w' ∨ ∃ e, w.step dmax op = .thrown e w'

/-- Induction over histories. -/
theorem run_induct {dmax : K} {P : World K → Prop} (hs : ∀ w op w', P w → Steps dmax w op w' → P w') :
    ∀ (ops : List (Op K)) {w w' : World K}, P w → w.run dmax ops = some w' → P w' := by
  intro ops
  induction ops with
  | nil => intro w w' h0 h; simp only [run, Option.some.injEq] at h; rw [← h]; exact h0
  | cons op ops ih =>
    intro w w' h0 h
    unfold run at h
    cases e : w.step dmax op with
    | ok w1 => rw [e] at h; exact ih (hs w op w1 h0 (Or.inl e)) h
    | thrown x w1 => rw [e] at h; exact ih (hs w op w1 h0 (Or.inr ⟨x, e⟩)) h
    | ub => rw [e] at h; cases h

theorem Reachable.induct {dmax : K} {P : World K → Prop} (h0 : ∀ w, Init w → P w)
    (hs : ∀ w op w', P w → Steps dmax w op w' → P w') {w : World K} (h : Reachable dmax w) : P w := by
  obtain ⟨w0, ops, hi, hr⟩ := h
  exact run_induct hs ops (h0 w0 hi) hr

theorem upd_same {α : Type} (h : Nat → α) (i : Nat) (a : α) : upd h i a i = a := if_pos rfl

theorem upd_ne {α : Type} (h : Nat → α) {i j : Nat} (a : α) (hj : j ≠ i) : upd h i a j = h j := if_neg hj

theorem upd_rel {α : Type} {R : α → α → Prop} (hr : ∀ a, R a a) {h : Nat → α} {i : Nat} {a : α} (ha : R (h i) a)
    (j : Nat) : R (h j) (upd h i a j) := by
  by_cases hj : j = i
  · subst hj; rw [upd_same]; exact ha
  · rw [upd_ne _ _ hj]; exact hr _

theorem upd_self {α : Type} (h : Nat → α) (i : Nat) : upd h i (h i) = h := by
  funext j
  by_cases hj : j = i
  · subst hj; exact upd_same _ _ _
  · exact upd_ne _ _ hj

end World

/-! ## checkDelete -/

namespace LMPC

theorem checkList_eq (limit : Nat) (other : Nat → Nat) (L : List Nat) :
    checkList limit other [] L = L.filter fun i => limit < other i + L.count i := by
  have key : ∀ (rest kept : List Nat),
      (∀ i, limit < other i + L.count i → (kept ++ rest).count i = L.count i) →
      (∀ i, (kept ++ rest).count i ≤ L.count i) →
      checkList limit other kept rest = kept ++ rest.filter fun i => limit < other i + L.count i := by
    intro rest
    induction rest with
    | nil => intro kept _ _; simp [checkList]
    | cons x rest ih =>
      intro kept h1 h2
      unfold checkList
      by_cases hx : limit < other x + L.count x
      · have e := h1 x hx
        rw [if_neg (by rw [e]; omega), ih (kept ++ [x]) (by simpa using h1) (by simpa using h2),
          List.filter_cons_of_pos (by simpa using hx)]
        simp
      · have e := h2 x
        rw [if_pos (by omega), List.filter_cons_of_neg (by simpa using hx)]
        refine ih kept ?_ ?_
        · intro i hi
          rw [← h1 i hi]
          have : x ≠ i := by rintro rfl; exact hx hi
          simp [List.count_append, List.count_cons, this]
        · intro i
          refine le_trans ?_ (h2 i)
          simp only [List.count_append, List.count_cons]
          omega
  have := key L [] (by simp) (by simp)
  simpa using this

theorem erase_filter {p : Nat → Bool} {l : List Nat} {i : Nat} :
    (l.erase i).filter p = if p i then (l.filter p).erase i else l.filter p := by
  induction l with
  | nil => simp
  | cons x l ih =>
    by_cases hx : x = i
    · subst hx
      by_cases hp : p x <;> simp [hp]
    · rw [List.erase_cons_tail (by simpa using hx)]
      by_cases hp : p x
      · rw [List.filter_cons_of_pos hp, List.filter_cons_of_pos hp, ih, List.erase_cons_tail (by simpa using hx)]
        split <;> rfl
      · rw [List.filter_cons_of_neg hp, List.filter_cons_of_neg hp, ih]

/-- The list of constraints is partitioned by type. -/
structure Partition (cons : Nat → Constr K) (l : LMPC K) : Prop where
  eq : l.spEqConstr = l.spConstr.filter fun i => (cons i).constraintType = .equality
  ineq : l.spIneqConstr = l.spConstr.filter fun i => (cons i).constraintType = .inequality
  bound : l.spBoundConstr = l.spConstr.filter fun i => (cons i).constraintType = .bound

theorem count_filter_type {cons : Nat → Constr K} {L : List Nat} {t : CFlag} (i : Nat) :
    (L.filter fun i => (cons i).constraintType = t).count i =
      if (cons i).constraintType = t then L.count i else 0 := by
  split
  · rename_i h; rw [List.count_filter (by simpa using h)]
  · rename_i h
    apply List.count_eq_zero_of_not_mem
    simp [h]

theorem Partition.congr {cons cons' : Nat → Constr K} {l : LMPC K}
    (h : ∀ i, (cons' i).constraintType = (cons i).constraintType) (hp : Partition cons l) : Partition cons' l := by
  constructor
  · rw [hp.eq]; simp only [h]
  · rw [hp.ineq]; simp only [h]
  · rw [hp.bound]; simp only [h]

theorem Partition.of_lists {cons : Nat → Constr K} {l l' : LMPC K} (hp : Partition cons l)
    (h0 : l'.spConstr = l.spConstr) (h1 : l'.spEqConstr = l.spEqConstr) (h2 : l'.spIneqConstr = l.spIneqConstr)
    (h3 : l'.spBoundConstr = l.spBoundConstr) : Partition cons l' :=
  ⟨by rw [h1, h0, hp.eq], by rw [h2, h0, hp.ineq], by rw [h3, h0, hp.bound]⟩

theorem Partition.nil {cons : Nat → Constr K} {l : LMPC K} (h0 : l.spConstr = []) (h1 : l.spEqConstr = [])
    (h2 : l.spIneqConstr = []) (h3 : l.spBoundConstr = []) : Partition cons l :=
  ⟨by rw [h0, h1]; rfl, by rw [h0, h2]; rfl, by rw [h0, h3]; rfl⟩

/-- Number of references to constraint `i` held by the typed lists. -/
theorem Partition.counts {cons : Nat → Constr K} {l : LMPC K} (hp : Partition cons l) (i : Nat) :
    l.spEqConstr.count i + l.spIneqConstr.count i + l.spBoundConstr.count i = l.spConstr.count i := by
  rw [hp.eq, hp.ineq, hp.bound, count_filter_type, count_filter_type, count_filter_type]
  cases (cons i).constraintType <;> simp

/-- The effect of `checkDelete` on partitioned registries: a constraint is dropped exactly when it is
registered once and nobody outside references it; a cost likewise. -/
theorem checkDelete_lists {cons : Nat → Constr K} {l : LMPC K} (hp : Partition cons l) (ec ek : Nat → Nat) :
    let l' := l.checkDelete ec ek
    let keep := fun i => decide (2 < ec i + 2 * l.spConstr.count i)
    l'.spConstr = l.spConstr.filter keep ∧ l'.spEqConstr = l.spEqConstr.filter keep ∧
    l'.spIneqConstr = l.spIneqConstr.filter keep ∧ l'.spBoundConstr = l.spBoundConstr.filter keep ∧
    l'.spCost = l.spCost.filter (fun i => decide (1 < ek i + l.spCost.count i)) ∧
    l' = { l with spConstr := l'.spConstr, spEqConstr := l'.spEqConstr, spIneqConstr := l'.spIneqConstr,
                  spBoundConstr := l'.spBoundConstr, spCost := l'.spCost } := by
  have hc := hp.counts
  intro l' keep
  have e0 : l'.spConstr = l.spConstr.filter keep := by
    show checkList _ _ [] _ = _
    rw [checkList_eq]
    apply List.filter_congr
    intro i _
    have := hc i
    simp only [keep]
    congr 1
    rw [eq_iff_iff]; omega
  have c0 : ∀ i, (l.spConstr.filter keep).count i = if keep i then l.spConstr.count i else 0 := by
    intro i
    split
    · rename_i h; rw [List.count_filter h]
    · rename_i h; apply List.count_eq_zero_of_not_mem; simp [h]
  have cE : ∀ i, (l.spEqConstr.filter keep).count i = if keep i then l.spEqConstr.count i else 0 := by
    intro i
    split
    · rename_i h; rw [List.count_filter h]
    · rename_i h; apply List.count_eq_zero_of_not_mem; simp [h]
  have cI : ∀ i, (l.spIneqConstr.filter keep).count i = if keep i then l.spIneqConstr.count i else 0 := by
    intro i
    split
    · rename_i h; rw [List.count_filter h]
    · rename_i h; apply List.count_eq_zero_of_not_mem; simp [h]
  have zero : ∀ {t t' : CFlag} {i : Nat}, t ≠ t' → i ∈ (l.spConstr.filter fun i => (cons i).constraintType = t) →
      (l.spConstr.filter fun i => (cons i).constraintType = t').count i = 0 := by
    intro t t' i hne hi
    simp only [List.mem_filter, decide_eq_true_eq] at hi
    rw [count_filter_type, if_neg]
    rw [hi.2]; exact hne
  have e1 : l'.spEqConstr = l.spEqConstr.filter keep := by
    show checkList _ _ [] _ = _
    rw [checkList_eq]
    apply List.filter_congr
    intro i hi
    have := hc i
    have h0 : l.spIneqConstr.count i = 0 := by rw [hp.eq] at hi; rw [hp.ineq]; exact zero (by simp) hi
    have h1 : l.spBoundConstr.count i = 0 := by rw [hp.eq] at hi; rw [hp.bound]; exact zero (by simp) hi
    show decide (2 < ec i + l'.spConstr.count i + l.spIneqConstr.count i + l.spBoundConstr.count i + l.spEqConstr.count i) = _
    rw [e0, c0, h0, h1]
    simp only [keep, ite_self]
    rw [decide_eq_decide]
    split
    · rename_i h; simp only [decide_eq_true_eq] at h; omega
    · rename_i h; simp only [decide_eq_true_eq] at h; omega
  have e2 : l'.spIneqConstr = l.spIneqConstr.filter keep := by
    show checkList _ _ [] _ = _
    rw [checkList_eq]
    apply List.filter_congr
    intro i hi
    have := hc i
    have h0 : l.spEqConstr.count i = 0 := by rw [hp.ineq] at hi; rw [hp.eq]; exact zero (by simp) hi
    have h1 : l.spBoundConstr.count i = 0 := by rw [hp.ineq] at hi; rw [hp.bound]; exact zero (by simp) hi
    show decide (2 < ec i + l'.spConstr.count i + l'.spEqConstr.count i + l.spBoundConstr.count i + l.spIneqConstr.count i) = _
    rw [e0, e1, c0, cE, h0, h1]
    simp only [keep, ite_self]
    rw [decide_eq_decide]
    split
    · rename_i h; simp only [decide_eq_true_eq] at h; omega
    · rename_i h; simp only [decide_eq_true_eq] at h; omega
  have e3 : l'.spBoundConstr = l.spBoundConstr.filter keep := by
    show checkList _ _ [] _ = _
    rw [checkList_eq]
    apply List.filter_congr
    intro i hi
    have := hc i
    have h0 : l.spEqConstr.count i = 0 := by rw [hp.bound] at hi; rw [hp.eq]; exact zero (by simp) hi
    have h1 : l.spIneqConstr.count i = 0 := by rw [hp.bound] at hi; rw [hp.ineq]; exact zero (by simp) hi
    show decide (2 < ec i + l'.spConstr.count i + l'.spEqConstr.count i + l'.spIneqConstr.count i + l.spBoundConstr.count i) = _
    rw [e0, e1, e2, c0, cE, cI, h0, h1]
    simp only [keep, ite_self]
    rw [decide_eq_decide]
    split
    · rename_i h; simp only [decide_eq_true_eq] at h; omega
    · rename_i h; simp only [decide_eq_true_eq] at h; omega
  have e4 : l'.spCost = l.spCost.filter (fun i => decide (1 < ek i + l.spCost.count i)) := by
    show checkList _ _ [] _ = _
    rw [checkList_eq]
  exact ⟨e0, e1, e2, e3, e4, rfl⟩

theorem filter_filter_comm {p q : Nat → Bool} {l : List Nat} : (l.filter p).filter q = (l.filter q).filter p := by
  rw [List.filter_filter, List.filter_filter]
  congr 1; funext i; exact Bool.and_comm _ _

theorem Partition.checkDelete {cons : Nat → Constr K} {l : LMPC K} (hp : Partition cons l) (ec ek : Nat → Nat) :
    Partition cons (l.checkDelete ec ek) := by
  obtain ⟨e0, e1, e2, e3, _⟩ := checkDelete_lists hp ec ek
  constructor
  · rw [e0, e1, hp.eq]; exact filter_filter_comm
  · rw [e0, e2, hp.ineq]; exact filter_filter_comm
  · rw [e0, e3, hp.bound]; exact filter_filter_comm

theorem Partition.add {cons : Nat → Constr K} {l l' : LMPC K} {i : Nat} (hp : Partition cons l)
    (h : l.addConstraintByType i (cons i) = some l') : Partition cons l' := by
  unfold addConstraintByType at h
  cases ht : (cons i).constraintType <;> rw [ht] at h <;> simp only at h
  · simp only [Option.bind_eq_bind, Option.bind_eq_some_iff, Option.pure_def, Option.some.injEq] at h
    obtain ⟨_, _, rfl⟩ := h
    constructor
    · simp [hp.eq, List.filter_append, ht]
    · simp [hp.ineq, List.filter_append, ht]
    · simp [hp.bound, List.filter_append, ht]
  · simp only [Option.bind_eq_bind, Option.bind_eq_some_iff, Option.pure_def, Option.some.injEq] at h
    obtain ⟨_, _, rfl⟩ := h
    constructor
    · simp [hp.eq, List.filter_append, ht]
    · simp [hp.ineq, List.filter_append, ht]
    · simp [hp.bound, List.filter_append, ht]
  · cases h
    constructor
    · simp [hp.eq, List.filter_append, ht]
    · simp [hp.ineq, List.filter_append, ht]
    · simp [hp.bound, List.filter_append, ht]

/-- Removal on partitioned registries: never undefined, erases the first occurrence. -/
theorem Partition.remove {cons : Nat → Constr K} {l : LMPC K} (hp : Partition cons l) (i : Nat) :
    l.removeConstraint i (cons i) = some { l with
      spConstr := l.spConstr.erase i
      spEqConstr := l.spEqConstr.erase i
      spIneqConstr := l.spIneqConstr.erase i
      spBoundConstr := l.spBoundConstr.erase i } := by
  unfold removeConstraint
  have nm : ∀ t, (cons i).constraintType ≠ t → i ∉ l.spConstr.filter (fun j => (cons j).constraintType = t) := by
    intro t ht; simp [ht]
  have em : ∀ {L : List Nat}, i ∉ L → L.erase i = L := fun h => List.erase_of_not_mem h
  by_cases hi : i ∈ l.spConstr
  · rw [if_pos hi]
    cases ht : (cons i).constraintType <;> simp only
    · have hm : i ∈ l.spEqConstr := by rw [hp.eq]; simp [hi, ht]
      have a : i ∉ l.spIneqConstr := by rw [hp.ineq]; exact nm _ (by rw [ht]; simp)
      have b : i ∉ l.spBoundConstr := by rw [hp.bound]; exact nm _ (by rw [ht]; simp)
      simp only [eraseFind?, if_pos hm, Option.bind_eq_bind, Option.bind_some, Option.pure_def, em a, em b]
    · have hm : i ∈ l.spIneqConstr := by rw [hp.ineq]; simp [hi, ht]
      have a : i ∉ l.spEqConstr := by rw [hp.eq]; exact nm _ (by rw [ht]; simp)
      have b : i ∉ l.spBoundConstr := by rw [hp.bound]; exact nm _ (by rw [ht]; simp)
      simp only [eraseFind?, if_pos hm, Option.bind_eq_bind, Option.bind_some, Option.pure_def, em a, em b]
    · have hm : i ∈ l.spBoundConstr := by rw [hp.bound]; simp [hi, ht]
      have a : i ∉ l.spEqConstr := by rw [hp.eq]; exact nm _ (by rw [ht]; simp)
      have b : i ∉ l.spIneqConstr := by rw [hp.ineq]; exact nm _ (by rw [ht]; simp)
      simp only [eraseFind?, if_pos hm, Option.bind_eq_bind, Option.bind_some, Option.pure_def, em a, em b]
  · rw [if_neg hi]
    have a : i ∉ l.spEqConstr := by rw [hp.eq]; simp [hi]
    have b : i ∉ l.spIneqConstr := by rw [hp.ineq]; simp [hi]
    have c : i ∉ l.spBoundConstr := by rw [hp.bound]; simp [hi]
    rw [em hi, em a, em b, em c]

theorem Partition.erase {cons : Nat → Constr K} {l : LMPC K} (hp : Partition cons l) (i : Nat) :
    Partition cons { l with
      spConstr := l.spConstr.erase i
      spEqConstr := l.spEqConstr.erase i
      spIneqConstr := l.spIneqConstr.erase i
      spBoundConstr := l.spBoundConstr.erase i } := by
  have key : ∀ t, (l.spConstr.filter fun j => decide ((cons j).constraintType = t)).erase i =
      (l.spConstr.erase i).filter fun j => decide ((cons j).constraintType = t) := by
    intro t
    rw [erase_filter]
    split
    · rfl
    · rename_i h
      apply List.erase_of_not_mem
      simp only [decide_eq_true_eq] at h
      simp [h]
  constructor
  · show l.spEqConstr.erase i = _; rw [hp.eq]; exact key _
  · show l.spIneqConstr.erase i = _; rw [hp.ineq]; exact key _
  · show l.spBoundConstr.erase i = _; rw [hp.bound]; exact key _

end LMPC
end Copra
