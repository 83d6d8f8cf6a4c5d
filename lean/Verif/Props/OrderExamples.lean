import Verif.Props.Order
import Verif.Props.InitExamples

/-! # C51 applied to two programs that register the same objects in opposite orders -/

namespace Copra
open Spec

set_option linter.unusedSectionVars false
set_option maxRecDepth 100000

namespace Ex
open World

def m7 := after 1000 a6 (.addCost 1 jk)
def n3 := after 1000 w2 (.addConstraint 2 jk')
def n4 := after 1000 n3 (.addConstraint 0 jk')
def n5 := after 1000 n4 (.addCost 1 jk')
def n6 := after 1000 n5 (.addCost 0 jk')

theorem hm7 : ∃ g : Ghost, Hist d 1000 Careful m7 g ∧ g.fresh 0 ∧ g.clean :=
  ⟨_, hist_after (op := .addCost 1 jk) ha6 trivial ⟨trivial, trivial, trivial⟩ (by decide +kernel : okB 1000 a6 _ = true),
    Or.inl (Or.inr ⟨trivial, rfl⟩), trivial⟩

theorem hn6 : ∃ g : Ghost, Hist d 1000 Careful n6 g ∧ g.fresh 0 ∧ g.clean := by
  have b3 := hist_after (op := .addConstraint 2 jk') h2 (fun _ => (by decide +kernel : w2.ctl.spBoundConstr = [])) ⟨trivial, trivial, trivial⟩
    (by decide +kernel : okB 1000 w2 _ = true)
  have b4 := hist_after (op := .addConstraint 0 jk') b3 (fun h => absurd h (by decide +kernel : (n3.cons 0).kind ≠ .ctrlBound))
    ⟨trivial, trivial, trivial⟩ (by decide +kernel : okB 1000 n3 _ = true)
  have b5 := hist_after (op := .addCost 1 jk') b4 trivial ⟨trivial, trivial, trivial⟩ (by decide +kernel : okB 1000 n4 _ = true)
  have b6 := hist_after (op := .addCost 0 jk') b5 trivial ⟨trivial, trivial, trivial⟩ (by decide +kernel : okB 1000 n5 _ = true)
  exact ⟨_, b6, Or.inr ⟨trivial, rfl⟩, trivial⟩

theorem same51 : SamePermuted m7 0 n6 0 := by
  have l1 : m7.ctl.spConstr = [0, 2] := by decide +kernel
  have l2 : n6.ctl.spConstr = [2, 0] := by decide +kernel
  have l3 : m7.ctl.spCost = [0, 1] := by decide +kernel
  have l4 : n6.ctl.spCost = [1, 0] := by decide +kernel
  refine ⟨rfl, rfl, rfl, by decide +kernel, ⟨[0, 2], by rw [l2]; decide, ?_⟩, ⟨[0, 1], by rw [l4]; decide, ?_⟩⟩
  · rw [l1]
    refine .cons ?_ (.cons ?_ .nil)
    · unfold Constr.userData
      rw [(by decide +kernel : (m7.cons 0).kind = .trajectory), (by decide +kernel : (n6.cons 0).kind = .trajectory)]
      show _ ∧ _ ∧ _
      decide +kernel
    · unfold Constr.userData
      rw [(by decide +kernel : (m7.cons 2).kind = .ctrlBound), (by decide +kernel : (n6.cons 2).kind = .ctrlBound),
        (by decide +kernel : (m7.cons 2).fullSizeEntry = false), (by decide +kernel : (n6.cons 2).fullSizeEntry = false)]
      show _ ∧ _
      decide +kernel
  · rw [l3]
    refine .cons ?_ (.cons ?_ .nil)
    · unfold Cost.userData
      rw [(by decide +kernel : (m7.costs 0).kind = .trajectory), (by decide +kernel : (n6.costs 0).kind = .trajectory)]
      show _ ∧ _ ∧ _
      decide +kernel
    · unfold Cost.userData
      rw [(by decide +kernel : (m7.costs 1).kind = .control), (by decide +kernel : (n6.costs 1).kind = .control)]
      show _ ∧ _ ∧ _
      decide +kernel

/-- C51 applies. -/
example : ∃ r r', m7.solve opt = some r ∧ n6.solve opt = some r' ∧ SameProblem r.2.2 r'.2.2 := by
  obtain ⟨g1, h1, f1, c1⟩ := hm7
  obtain ⟨g2, h2, f2, c2⟩ := hn6
  have o1 := solvable (w := m7) (by decide +kernel) (by decide +kernel) (by decide +kernel) g1
  have o2 := solvable (w := n6) (by decide +kernel) (by decide +kernel) (by decide +kernel) g2
  obtain ⟨v1, b1, q1, s1, _⟩ := c50_solve_defined h1 o1
  obtain ⟨v2, b2, q2, s2, _⟩ := c50_solve_defined h2 o2
  refine ⟨_, _, s1, s2, c51_order_independent h1 h2 (fun _ _ h => h.1) (fun _ _ h => h.1) o1 o2 (by decide +kernel) (by decide +kernel)
    (by decide +kernel) (by decide +kernel) same51 ?_ ?_ (fun _ => c1) (fun _ => c2) s1 s2⟩
  · intro i hi hps
    rw [(by decide +kernel : m7.ctl.spCost = [0, 1])] at hi ⊢
    simp only [List.mem_cons, List.not_mem_nil, or_false] at hi
    rcases hi with rfl | rfl
    · exact ⟨f1, rfl⟩
    · unfold Cost.userData at hps
      rw [(by decide +kernel : (m7.costs 1).kind = .control)] at hps
      exact hps.elim
  · intro i hi hps
    rw [(by decide +kernel : n6.ctl.spCost = [1, 0])] at hi ⊢
    simp only [List.mem_cons, List.not_mem_nil, or_false] at hi
    rcases hi with rfl | rfl
    · unfold Cost.userData at hps
      rw [(by decide +kernel : (n6.costs 1).kind = .control)] at hps
      exact hps.elim
    · exact ⟨f2, rfl⟩

/-! ## Initial-state controllers: C51 and C57 -/

def j2 := after 1000 w1 (.constructPs true solver 0 jk')
def j3 := after 1000 j2 (.addConstraint 2 jk')
def j4 := after 1000 j3 (.addConstraint 0 jk')
def j5 := after 1000 j4 (.addCost 0 jk')
def k3 := after 1000 j2 (.addConstraint 0 jk')
def k4 := after 1000 k3 (.addConstraint 2 jk')
def k5 := after 1000 k4 (.addCost 0 jk')

theorem hj2 : Hist d 1000 Careful j2 ⟨fun _ => False, fun _ => False, fun _ => False, True⟩ := by
  have a1 := hist_after (d := d) (dmax := 1000) (E := Careful) (op := opSys) (.start w0_init) ⟨rfl, rfl, rfl⟩
    ⟨trivial, trivial, trivial⟩ (by decide +kernel)
  exact hist_after (op := .constructPs true solver 0 jk') a1 (show HasSystem w1 0 by unfold HasSystem; decide +kernel)
    ⟨trivial, trivial, trivial⟩ (by decide +kernel)

theorem hj5 : ∃ g : Ghost, Hist d 1000 Careful j5 g ∧ g.fresh 0 ∧ g.clean := by
  have b3 := hist_after (op := .addConstraint 2 jk') hj2 (fun _ => (by decide +kernel : j2.ctl.spBoundConstr = []))
    ⟨trivial, trivial, trivial⟩ (by decide +kernel : okB 1000 j2 _ = true)
  have b4 := hist_after (op := .addConstraint 0 jk') b3 (fun h => absurd h (by decide +kernel : (j3.cons 0).kind ≠ .ctrlBound))
    ⟨trivial, trivial, trivial⟩ (by decide +kernel : okB 1000 j3 _ = true)
  exact ⟨_, hist_after (op := .addCost 0 jk') b4 trivial ⟨trivial, trivial, trivial⟩ (by decide +kernel : okB 1000 j4 _ = true),
    Or.inr ⟨trivial, rfl⟩, trivial⟩

theorem hk5 : ∃ g : Ghost, Hist d 1000 Careful k5 g ∧ g.fresh 0 ∧ g.clean := by
  have b3 := hist_after (op := .addConstraint 0 jk') hj2 (fun h => absurd h (by decide +kernel : (j2.cons 0).kind ≠ .ctrlBound))
    ⟨trivial, trivial, trivial⟩ (by decide +kernel : okB 1000 j2 _ = true)
  have b4 := hist_after (op := .addConstraint 2 jk') b3 (fun _ => (by decide +kernel : k3.ctl.spBoundConstr = []))
    ⟨trivial, trivial, trivial⟩ (by decide +kernel : okB 1000 k3 _ = true)
  exact ⟨_, hist_after (op := .addCost 0 jk') b4 trivial ⟨trivial, trivial, trivial⟩ (by decide +kernel : okB 1000 k4 _ = true),
    Or.inr ⟨trivial, rfl⟩, trivial⟩

theorem sameInverse (y y' : Vec ℚ) (ok ok' : Bool) : SameInverse d (envI y ok) (envI y' ok') := by
  intro M M' hr hc h
  have e : ∀ i < 2, ∀ j < 2, M.e i j = M'.e i j := fun i hi j hj => h.2.2 i (by rw [hr]; exact hi) j (by rw [hc]; exact hj)
  refine ⟨h.1, h.2.1, fun i hi j hj => ?_⟩
  have hi : i < 2 := by
    have : (inv2 M).rows = 2 := hr
    rw [show ((envI y ok).inverse M).rows = 2 from this] at hi; exact hi
  have hj : j < 2 := by
    have : (inv2 M).cols = 2 := hc
    rw [show ((envI y ok).inverse M).cols = 2 from this] at hj; exact hj
  show (if i = j then M.e (1 - i) (1 - j) else - M.e i j) / (M.e 0 0 * M.e 1 1 - M.e 0 1 * M.e 1 0) =
    (if i = j then M'.e (1 - i) (1 - j) else - M'.e i j) / (M'.e 0 0 * M'.e 1 1 - M'.e 0 1 * M'.e 1 0)
  rw [e i hi j hj, e (1 - i) (by omega) (1 - j) (by omega), e 0 (by omega) 0 (by omega), e 1 (by omega) 1 (by omega),
    e 0 (by omega) 1 (by omega), e 1 (by omega) 0 (by omega)]

/-- C51 applies to initial-state controllers. -/
example : ∃ r r', i5.solve (envI yI true) = some r ∧ j5.solve (envI yI false) = some r' ∧ SameProblem r.2.2 r'.2.2 := by
  obtain ⟨g2, h2, f2, c2⟩ := hj5
  have o2 : OpOk d j5 g2 (.solve (envI yI false)) :=
    ⟨(by decide +kernel : j5.ctl.ps ≠ none), contractI rfl (by decide +kernel) (by decide +kernel)⟩
  obtain ⟨v1, b1, q1, s1, _⟩ := c50_solve_defined hi5 (oI5 (y := yI) rfl true)
  obtain ⟨v2, b2, q2, s2, _⟩ := c50_solve_defined h2 o2
  have l1 : i5.ctl.spConstr = [0, 2] := by decide +kernel
  have l2 : j5.ctl.spConstr = [2, 0] := by decide +kernel
  have l3 : i5.ctl.spCost = [0] := by decide +kernel
  have l4 : j5.ctl.spCost = [0] := by decide +kernel
  have same : SamePermuted i5 0 j5 0 := by
    refine ⟨rfl, rfl, rfl, by decide +kernel, ⟨[0, 2], by rw [l2]; decide, ?_⟩, ⟨[0], by rw [l4], ?_⟩⟩
    · rw [l1]
      refine .cons ?_ (.cons ?_ .nil)
      · unfold Constr.userData
        rw [(by decide +kernel : (i5.cons 0).kind = .trajectory), (by decide +kernel : (j5.cons 0).kind = .trajectory)]
        show _ ∧ _ ∧ _
        decide +kernel
      · unfold Constr.userData
        rw [(by decide +kernel : (i5.cons 2).kind = .ctrlBound), (by decide +kernel : (j5.cons 2).kind = .ctrlBound),
          (by decide +kernel : (i5.cons 2).fullSizeEntry = false), (by decide +kernel : (j5.cons 2).fullSizeEntry = false)]
        show _ ∧ _
        decide +kernel
    · rw [l3]
      refine .cons ?_ .nil
      unfold Cost.userData
      rw [(by decide +kernel : (i5.costs 0).kind = .trajectory), (by decide +kernel : (j5.costs 0).kind = .trajectory)]
      show _ ∧ _ ∧ _
      decide +kernel
  refine ⟨_, _, s1, s2, c51_order_independent_init hi5 h2 (fun _ _ h => h.1) (fun _ _ h => h.1) (oI5 rfl true) o2 (by decide +kernel)
    (by decide +kernel) (by decide +kernel) (by decide +kernel) same ⟨by decide +kernel, by decide +kernel, by decide +kernel, by decide +kernel⟩
    (sameInverse _ _ _ _) freshI5 ?_ (fun _ => trivial) (fun _ => c2) s1 s2⟩
  intro i hi _
  rw [l4] at hi ⊢
  rw [List.mem_singleton.1 hi]
  exact ⟨f2, rfl⟩

/-- C57 applies to initial-state controllers: other contents of uninitialised memory, another answer of the solver. -/
example : ∃ r r', i5.solve (envI yI true) = some r ∧ k5.solve (envI yI false) = some r' ∧ QPEq r.2.2 r'.2.2 := by
  obtain ⟨g2, h2, f2, c2⟩ := hk5
  have o2 : OpOk d k5 g2 (.solve (envI yI false)) :=
    ⟨(by decide +kernel : k5.ctl.ps ≠ none), contractI rfl (by decide +kernel) (by decide +kernel)⟩
  obtain ⟨v1, b1, q1, s1, _⟩ := c50_solve_defined hi5 (oI5 (y := yI) rfl true)
  obtain ⟨v2, b2, q2, s2, _⟩ := c50_solve_defined h2 o2
  have l1 : i5.ctl.spConstr = [0, 2] := by decide +kernel
  have l2 : k5.ctl.spConstr = [0, 2] := by decide +kernel
  have l3 : i5.ctl.spCost = [0] := by decide +kernel
  have l4 : k5.ctl.spCost = [0] := by decide +kernel
  have same : SameDeclared i5 0 k5 0 := by
    refine ⟨rfl, rfl, rfl, by decide +kernel, ?_, ?_⟩
    · rw [l1, l2]
      refine .cons ?_ (.cons ?_ .nil)
      · unfold Constr.userData
        rw [(by decide +kernel : (i5.cons 0).kind = .trajectory), (by decide +kernel : (k5.cons 0).kind = .trajectory)]
        show _ ∧ _ ∧ _
        decide +kernel
      · unfold Constr.userData
        rw [(by decide +kernel : (i5.cons 2).kind = .ctrlBound), (by decide +kernel : (k5.cons 2).kind = .ctrlBound),
          (by decide +kernel : (i5.cons 2).fullSizeEntry = false), (by decide +kernel : (k5.cons 2).fullSizeEntry = false)]
        show _ ∧ _
        decide +kernel
    · rw [l3, l4]
      refine .cons ?_ .nil
      unfold Cost.userData
      rw [(by decide +kernel : (i5.costs 0).kind = .trajectory), (by decide +kernel : (k5.costs 0).kind = .trajectory)]
      show _ ∧ _ ∧ _
      decide +kernel
  refine ⟨_, _, s1, s2, c57_problem_determined_init hi5 h2 (fun _ _ h => h.1) (fun _ _ h => h.1) (oI5 rfl true) o2 (by decide +kernel)
    (by decide +kernel) (by decide +kernel) (by decide +kernel) same ⟨by decide +kernel, by decide +kernel, by decide +kernel, by decide +kernel⟩
    (sameInverse _ _ _ _) freshI5 ?_ (fun _ => trivial) (fun _ => c2) s1 s2⟩
  intro i hi _
  rw [l4] at hi ⊢
  rw [List.mem_singleton.1 hi]
  exact ⟨f2, rfl⟩

end Ex
end Copra
