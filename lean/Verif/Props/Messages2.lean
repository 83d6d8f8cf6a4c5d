import Verif.Props.Messages
import Verif.Model.AutoSpan

/-! # Column, weight and span mismatches (C82) -/

namespace Copra.Messages
section
variable {K : Type} [Field K]

set_option linter.unusedSectionVars false
set_option maxRecDepth 100000

/-- The message says `"<name> has <n> cols"`. -/
def StatesCols (msg : List Char) (name : List Char) (n : Nat) : Prop :=
  (name ++ " has ".toList ++ num n ++ " cols".toList) <:+: msg

instance (msg name : List Char) (n : Nat) : Decidable (StatesCols msg name n) := by unfold StatesCols; infer_instance

/-- The message says `"<name> should have <a> or <b> cols"`. -/
def Wants (msg : List Char) (name : List Char) (a b : Nat) : Prop :=
  (name ++ " should have ".toList ++ num a ++ " or ".toList ++ num b ++ " cols".toList) <:+: msg

/-- The message says `"<n1> and <n2> should respectively have <x> and <u> cols or <X> and <U> cols"`. -/
def WantsBoth (msg n1 n2 : List Char) (x u X U : Nat) : Prop :=
  (n1 ++ " and ".toList ++ n2 ++ " should respectively have ".toList ++ num x ++ " and ".toList ++ num u
    ++ " cols or ".toList ++ num X ++ " and ".toList ++ num U ++ " cols".toList) <:+: msg

theorem onColsOnPSDim_states (n : List Char) (c a b : Nat) :
    StatesCols (onColsOnPSDim n c a b) n c ∧ Wants (onColsOnPSDim n c a b) n a b := by
  constructor
  · refine ⟨n ++ " should have ".toList ++ num a ++ " or ".toList ++ num b ++ " cols. But ".toList, ".".toList, ?_⟩
    unfold onColsOnPSDim
    rw [show " cols.".toList = " cols".toList ++ ".".toList from rfl]
    simp only [List.append_assoc]
  · refine ⟨[], ". But ".toList ++ n ++ " has ".toList ++ num c ++ " cols.".toList, ?_⟩
    unfold onColsOnPSDim
    rw [show " cols. But ".toList = " cols".toList ++ ". But ".toList from rfl]
    simp only [List.append_assoc, List.nil_append]

theorem onColsOnPSXUDim_states (n1 n2 : List Char) (c1 c2 x u X U : Nat) :
    StatesCols (onColsOnPSXUDim n1 n2 c1 c2 x u X U) n1 c1 ∧ StatesCols (onColsOnPSXUDim n1 n2 c1 c2 x u X U) n2 c2 ∧
    WantsBoth (onColsOnPSXUDim n1 n2 c1 c2 x u X U) n1 n2 x u X U := by
  refine ⟨?_, ?_, ?_⟩
  · refine ⟨n1 ++ " and ".toList ++ n2 ++ " should respectively have ".toList ++ num x ++ " and ".toList ++ num u
      ++ " cols or ".toList ++ num X ++ " and ".toList ++ num U ++ " cols. But ".toList,
      " and ".toList ++ n2 ++ " has ".toList ++ num c2 ++ " cols.".toList, ?_⟩
    unfold onColsOnPSXUDim
    rw [show " cols and ".toList = " cols".toList ++ " and ".toList from rfl]
    simp only [List.append_assoc]
  · refine ⟨n1 ++ " and ".toList ++ n2 ++ " should respectively have ".toList ++ num x ++ " and ".toList ++ num u
      ++ " cols or ".toList ++ num X ++ " and ".toList ++ num U ++ " cols. But ".toList ++ n1 ++ " has ".toList
      ++ num c1 ++ " cols and ".toList, ".".toList, ?_⟩
    unfold onColsOnPSXUDim
    rw [show " cols.".toList = " cols".toList ++ ".".toList from rfl]
    simp only [List.append_assoc]
  · refine ⟨[], ". But ".toList ++ n1 ++ " has ".toList ++ num c1 ++ " cols and ".toList ++ n2 ++ " has ".toList
      ++ num c2 ++ " cols.".toList, ?_⟩
    unfold onColsOnPSXUDim
    rw [show " cols. But ".toList = " cols".toList ++ ". But ".toList from rfl]
    simp only [List.append_assoc, List.nil_append]

/-- **C82** (constraints, partial): when the rows agree but the columns fit neither a step nor the horizon, the exception of
`addConstraint` for a trajectory, control or mixed constraint names the matrix, states how many columns it has and which
numbers are accepted.  Missing: bound constraints (`c82_false_bounds`). -/
theorem c82_constraint_partial (ps : PreviewSystem K) (c : Constr K) :
    (c.kind = .trajectory → c.E.rows = c.f.rows → c.E.cols ≠ ps.xDim → c.E.cols ≠ ps.fullXDim →
      ∃ m, constrMessage ps c = some m ∧ StatesCols m "E".toList c.E.cols ∧ Wants m "E".toList ps.xDim ps.fullXDim) ∧
    (c.kind = .control → c.hasBeenInitialized = false → c.G.rows = c.f.rows → c.G.cols ≠ ps.uDim →
      c.G.cols ≠ ps.fullUDim →
      ∃ m, constrMessage ps c = some m ∧ StatesCols m "G".toList c.G.cols ∧ Wants m "G".toList ps.uDim ps.fullUDim) ∧
    (c.kind = .mixed → c.E.rows = c.f.rows → c.G.rows = c.f.rows →
      ¬ (c.E.cols = ps.xDim ∧ c.G.cols = ps.uDim) → ¬ (c.E.cols = ps.fullXDim ∧ c.G.cols = ps.fullUDim) →
      ∃ m, constrMessage ps c = some m ∧ StatesCols m "E".toList c.E.cols ∧ StatesCols m "G".toList c.G.cols ∧
        WantsBoth m "E".toList "G".toList ps.xDim ps.uDim ps.fullXDim ps.fullUDim) := by
  refine ⟨?_, ?_, ?_⟩
  · intro hk h1 h2 h3
    refine ⟨_, ?_, onColsOnPSDim_states _ _ _ _⟩
    simp only [constrMessage, hk]
    rw [if_neg (by simpa using h1), if_neg (by tauto)]
  · intro hk h0 h1 h2 h3
    refine ⟨_, ?_, onColsOnPSDim_states _ _ _ _⟩
    simp only [constrMessage, hk]
    rw [if_neg (by simp [h0]), if_neg (by simpa using h1), if_neg (by tauto)]
  · intro hk h1 h2 h3 h4
    refine ⟨_, ?_, onColsOnPSXUDim_states _ _ _ _ _ _ _ _⟩
    simp only [constrMessage, hk]
    rw [if_neg (by simpa using h1), if_neg (by simpa using h2), if_neg (by tauto)]

/-- **C82** (costs, partial): the same for `addCost` with a trajectory, control or mixed cost.  Missing: target costs
(`c82_false_target`). -/
theorem c82_cost_partial (ps : PreviewSystem K) (c : Cost K) :
    (c.kind = .trajectory → c.M.rows = c.p.rows → c.M.cols ≠ ps.xDim → c.M.cols ≠ ps.fullXDim →
      ∃ m, costMessage ps c = some m ∧ StatesCols m "M".toList c.M.cols ∧ Wants m "M".toList ps.xDim ps.fullXDim) ∧
    (c.kind = .control → c.N.rows = c.p.rows → c.N.cols ≠ ps.uDim → c.N.cols ≠ ps.fullUDim →
      ∃ m, costMessage ps c = some m ∧ StatesCols m "N".toList c.N.cols ∧ Wants m "N".toList ps.uDim ps.fullUDim) ∧
    (c.kind = .mixed → c.M.rows = c.p.rows → c.N.rows = c.p.rows →
      ¬ (c.M.cols = ps.xDim ∧ c.N.cols = ps.uDim) → ¬ (c.M.cols = ps.fullXDim ∧ c.N.cols = ps.fullUDim) →
      ∃ m, costMessage ps c = some m ∧ StatesCols m "M".toList c.M.cols ∧ StatesCols m "N".toList c.N.cols ∧
        WantsBoth m "M".toList "N".toList ps.xDim ps.uDim ps.fullXDim ps.fullUDim) := by
  refine ⟨?_, ?_, ?_⟩
  · intro hk h1 h2 h3
    refine ⟨_, ?_, onColsOnPSDim_states _ _ _ _⟩
    simp only [costMessage, hk]
    rw [if_neg (by simpa using h1), if_neg (by tauto)]
  · intro hk h1 h2 h3
    refine ⟨_, ?_, onColsOnPSDim_states _ _ _ _⟩
    simp only [costMessage, hk]
    rw [if_neg (by simpa using h1), if_neg (by tauto)]
  · intro hk h1 h2 h3 h4
    refine ⟨_, ?_, onColsOnPSXUDim_states _ _ _ _ _ _ _ _⟩
    simp only [costMessage, hk]
    rw [if_neg (by simpa using h1), if_neg (by simpa using h2), if_neg (by tauto)]

/-- **C82** (`PreviewSystem::system`): a state matrix that is not square is reported with its name and both sizes. -/
theorem c82_square (state control : Mat K) (bias xInit : Vec K) (N : Int) (h1 : xInit.rows = state.rows)
    (h2 : state.rows ≠ state.cols) :
    ∃ m, systemMessage state control bias xInit N = some m ∧
      ("state should be a squared matrix but it is a (".toList ++ num state.rows ++ "-by-".toList ++ num state.cols
        ++ ") matrix".toList) <:+: m := by
  refine ⟨onSquareMat "state".toList state.rows state.cols, ?_, [], ".".toList, ?_⟩
  · unfold systemMessage; rw [if_neg (by simpa using h1), if_pos h2]
  · unfold onSquareMat
    rw [show ") matrix.".toList = ") matrix".toList ++ ".".toList from rfl,
      show "state should be a squared matrix but it is a (".toList = "state".toList ++ " should be a squared matrix but it is a (".toList from rfl]
    simp only [List.append_assoc, List.nil_append]

/-- A message exists exactly when `weights(w)` throws. -/
theorem weightsMessage_iff (c : Cost K) (w : Vec K) :
    (weightsMessage c w).isSome = true ↔ ∃ e c', c.setWeights w = .thrown e c' := by
  unfold weightsMessage Cost.setWeights
  split_ifs <;> simp [ne_thrown]

/-- **C82** (`weights`): rejected weights are reported with the number of rows they have and the number the cost has. -/
theorem c82_weights (c : Cost K) (w : Vec K) {m : List Char} (h : weightsMessage c w = some m) :
    States m "weights".toList w.rows ∧
    ("weights should have exactly ".toList ++ num c.weights.rows ++ " rows".toList) <:+: m := by
  unfold weightsMessage at h
  split_ifs at h
  injection h with h
  subst h
  constructor
  · refine ⟨"weights".toList ++ " should have exactly ".toList ++ num c.weights.rows ++ " rows. But ".toList, ".".toList, ?_⟩
    unfold onRowsOnDim
    rw [show " rows.".toList = " rows".toList ++ ".".toList from rfl]
    simp only [List.append_assoc]
  · refine ⟨[], ". But ".toList ++ "weights".toList ++ " has ".toList ++ num w.rows ++ " rows.".toList, ?_⟩
    unfold onRowsOnDim
    rw [show " rows. But ".toList = " rows".toList ++ ". But ".toList from rfl,
      show "weights should have exactly ".toList = "weights".toList ++ " should have exactly ".toList from rfl]
    simp only [List.append_assoc, List.nil_append]

/-- A message exists exactly when `AutoSpan::spanMatrix` throws. -/
theorem spanMessage_iff (mat : Mat K) (newDim addCols : Nat) :
    (spanMessage mat.rows newDim).isSome = true ↔ ∃ e m, AutoSpan.spanMatrix mat newDim addCols = .thrown e m := by
  unfold spanMessage AutoSpan.spanMatrix
  simp only
  split_ifs <;> simp_all [ne_thrown]

/-- A message exists exactly when `AutoSpan::spanVector` throws. -/
theorem spanMessage_vector_iff {α : Type} (junk : Nat → α) (v : Vec α) (newDim : Nat) :
    (spanMessage v.rows newDim).isSome = true ↔ ∃ e m, AutoSpan.spanVector junk v newDim = .thrown e m := by
  unfold spanMessage AutoSpan.spanVector
  simp only
  split_ifs <;> simp_all [ne_thrown]

/-- **C82** (`autoSpan`): a rejected span states both dimensions. -/
theorem c82_span (rows newDim : Nat) {m : List Char} (h : spanMessage rows newDim = some m) :
    ("desired dimension (".toList ++ num newDim ++ ")".toList) <:+: m ∧
    ("number of rows (".toList ++ num rows ++ ")".toList) <:+: m := by
  unfold spanMessage at h
  split_ifs at h
  injection h with h
  subst h
  constructor
  · refine ⟨"Can not span the matrix to the desired new dimension. The  ".toList,
      " is not a multiple of the number of rows (".toList ++ num rows ++ ").".toList, ?_⟩
    unfold onBadNewDim
    rw [show ") is not a multiple of the number of rows (".toList = ")".toList ++ " is not a multiple of the number of rows (".toList from rfl,
      show "Can not span the matrix to the desired new dimension. The  desired dimension (".toList =
        "Can not span the matrix to the desired new dimension. The  ".toList ++ "desired dimension (".toList from rfl]
    simp only [List.append_assoc]
  · refine ⟨"Can not span the matrix to the desired new dimension. The  desired dimension (".toList ++ num newDim
      ++ ") is not a multiple of the ".toList, ".".toList, ?_⟩
    unfold onBadNewDim
    rw [show ").".toList = ")".toList ++ ".".toList from rfl,
      show ") is not a multiple of the number of rows (".toList =
        ") is not a multiple of the ".toList ++ "number of rows (".toList from rfl]
    simp only [List.append_assoc]

/-- **C82** (`what()`): whatever the message, the text of the exception ends with it and starts with the place of the
`throw`. -/
theorem c82_what (file func msg : List Char) (line : Nat) :
    msg <:+ what file func line msg ∧ ("In file: ".toList ++ file ++ "(line ".toList ++ num line) <+: what file func line msg := by
  unfold what
  constructor
  · exact List.suffix_append _ _
  · exact ⟨"): [In function: ".toList ++ func ++ "]\n".toList ++ msg, by simp only [List.append_assoc]⟩

/-- C82 is false for target costs: the check is on the columns of `M`, the message is about its rows
(src/costFunctions.cpp 95-96): it can demand exactly what it then reports as found. -/
theorem c82_false_target (ps : PreviewSystem K) (c : Cost K) (hk : c.kind = .target) (h1 : c.M.rows = c.p.rows)
    (h2 : c.M.cols ≠ ps.xDim) :
    costMessage ps c = some ("M should have ".toList ++ num ps.xDim ++ " rows. But M has ".toList ++ num c.M.rows
      ++ " rows.".toList) := by
  simp only [costMessage, hk]
  rw [if_neg (by simpa using h1), if_pos h2]
  unfold onRowsOnPSxDim
  rw [show "M should have ".toList = "M".toList ++ " should have ".toList from rfl,
    show " rows. But M has ".toList = " rows. But ".toList ++ "M".toList ++ " has ".toList from rfl]
  simp only [List.append_assoc]

/-- C82 is false for bound constraints: the check is on the rows of `lower`, the message is about its columns
(src/constraints.cpp 275, 353), so it says "1 cols" whatever the mismatch. -/
theorem c82_false_bounds (ps : PreviewSystem K) (c : Constr K) (h1 : c.lower.rows = c.upper.rows) :
    (c.kind = .trajBound → c.lower.rows ≠ ps.xDim → c.lower.rows ≠ ps.fullXDim →
      constrMessage ps c = some (onColsOnPSDim "lower".toList 1 ps.xDim ps.fullXDim)) ∧
    (c.kind = .ctrlBound → c.hasBeenInitialized = false → c.lower.rows ≠ ps.uDim → c.lower.rows ≠ ps.fullUDim →
      constrMessage ps c = some (onColsOnPSDim "lower".toList 1 ps.uDim ps.fullUDim)) := by
  constructor
  · intro hk h2 h3
    simp only [constrMessage, hk]
    rw [if_neg (by simpa using h1), if_neg (by tauto)]
  · intro hk h0 h2 h3
    simp only [constrMessage, hk]
    rw [if_neg (by simp [h0]), if_neg (by simpa using h1), if_neg (by tauto)]

/-! ## What survives of a row mismatch (C53) -/

theorem num_pos (n : Nat) : 0 < (num n).length := by
  unfold num
  rw [List.length_pos_iff]
  intro h
  have : Nat.repr n = "" := String.toList_injective h
  exact Nat.repr_ne_empty this

/-- The hint about `autoSpan` overwrites the beginning of the message; the row count of the second argument is behind
it. -/
theorem askAutoSpan_second (n1 n2 : List Char) (r1 r2 : Nat) (h1 : 1 ≤ n1.length) (h2 : 1 ≤ n2.length) :
    States (onRowsAskAutoSpan n1 n2 r1 r2) n2 r2 := by
  have e : onRows n1 n2 r1 r2 = (n1 ++ " and ".toList ++ n2 ++ " should have same number of rows. ".toList ++ n1 ++ " has ".toList
      ++ num r1 ++ " rows and ".toList) ++ ((n2 ++ " has ".toList ++ num r2 ++ " rows".toList) ++ ".".toList) := by
    unfold onRows
    rw [show " rows.".toList = " rows".toList ++ ".".toList from rfl]
    simp only [List.append_assoc]
  unfold onRowsAskAutoSpan overwrite
  rw [e, List.drop_append_of_le_length]
  · refine ⟨" Maybe you have forgottent to call autoSpanMatrix method?\n".toList ++ List.drop
      " Maybe you have forgottent to call autoSpanMatrix method?\n".toList.length (n1 ++ " and ".toList ++ n2 ++
      " should have same number of rows. ".toList ++ n1 ++ " has ".toList ++ num r1 ++ " rows and ".toList), ".".toList, ?_⟩
    simp only [List.append_assoc]
  · have := num_pos r1
    simp only [List.length_append]
    have l1 : " and ".toList.length = 5 := rfl
    have l2 : " should have same number of rows. ".toList.length = 34 := rfl
    have l3 : " has ".toList.length = 5 := rfl
    have l4 : " rows and ".toList.length = 10 := rfl
    have l5 : " Maybe you have forgottent to call autoSpanMatrix method?\n".toList.length = 58 := rfl
    omega

/-- C53 (partial, constraints and costs): every row mismatch reported by `addConstraint` and `addCost` states the row
count of the right-hand side (`f`, `upper` or `p`).  Missing: the name and row count of the first argument
(`c53_false_autoSpan`). -/
theorem c53_second_partial (ps : PreviewSystem K) (c : Constr K) (k : Cost K) :
    (c.kind = .trajectory → c.E.rows ≠ c.f.rows →
      ∃ m, constrMessage ps c = some m ∧ States m "f".toList c.f.rows) ∧
    (c.kind = .control → c.hasBeenInitialized = false → c.G.rows ≠ c.f.rows →
      ∃ m, constrMessage ps c = some m ∧ States m "f".toList c.f.rows) ∧
    (c.kind = .mixed → c.E.rows ≠ c.f.rows ∨ c.G.rows ≠ c.f.rows →
      ∃ m, constrMessage ps c = some m ∧ States m "f".toList c.f.rows) ∧
    (c.kind = .trajBound ∨ (c.kind = .ctrlBound ∧ c.hasBeenInitialized = false) → c.lower.rows ≠ c.upper.rows →
      ∃ m, constrMessage ps c = some m ∧ States m "upper".toList c.upper.rows) ∧
    (k.kind = .trajectory ∨ k.kind = .target → k.M.rows ≠ k.p.rows →
      ∃ m, costMessage ps k = some m ∧ States m "p".toList k.p.rows) ∧
    (k.kind = .control → k.N.rows ≠ k.p.rows →
      ∃ m, costMessage ps k = some m ∧ States m "p".toList k.p.rows) ∧
    (k.kind = .mixed → k.M.rows ≠ k.p.rows ∨ k.N.rows ≠ k.p.rows →
      ∃ m, costMessage ps k = some m ∧ States m "p".toList k.p.rows) := by
  refine ⟨?_, ?_, ?_, ?_, ?_, ?_, ?_⟩
  · intro hk h
    refine ⟨_, (by simp only [constrMessage, hk]; rw [if_pos h]), ?_⟩; exact askAutoSpan_second _ _ _ _ (by decide) (by decide)
  · intro hk h0 h
    refine ⟨_, (by simp only [constrMessage, hk]; rw [if_neg (by simp [h0]), if_pos h]), ?_⟩; exact askAutoSpan_second _ _ _ _ (by decide) (by decide)
  · intro hk h
    by_cases h1 : c.E.rows ≠ c.f.rows
    · refine ⟨_, (by simp only [constrMessage, hk]; rw [if_pos h1]), ?_⟩; exact askAutoSpan_second _ _ _ _ (by decide) (by decide)
    · refine ⟨_, (by simp only [constrMessage, hk]; rw [if_neg h1, if_pos (h.resolve_left h1)]), ?_⟩; exact askAutoSpan_second _ _ _ _ (by decide) (by decide)
  · rintro (hk | ⟨hk, h0⟩) h
    · refine ⟨_, (by simp only [constrMessage, hk]; rw [if_pos h]), ?_⟩; exact askAutoSpan_second _ _ _ _ (by decide) (by decide)
    · refine ⟨_, (by simp only [constrMessage, hk]; rw [if_neg (by simp [h0]), if_pos h]), ?_⟩; exact askAutoSpan_second _ _ _ _ (by decide) (by decide)
  · rintro (hk | hk) h
    · refine ⟨_, (by simp only [costMessage, hk]; rw [if_pos h]), ?_⟩; exact askAutoSpan_second _ _ _ _ (by decide) (by decide)
    · refine ⟨_, (by simp only [costMessage, hk]; rw [if_pos h]), ?_⟩; exact askAutoSpan_second _ _ _ _ (by decide) (by decide)
  · intro hk h
    refine ⟨_, (by simp only [costMessage, hk]; rw [if_pos h]), ?_⟩; exact askAutoSpan_second _ _ _ _ (by decide) (by decide)
  · intro hk h
    by_cases h1 : k.M.rows ≠ k.p.rows
    · refine ⟨_, (by simp only [costMessage, hk]; rw [if_pos h1]), ?_⟩; exact askAutoSpan_second _ _ _ _ (by decide) (by decide)
    · refine ⟨_, (by simp only [costMessage, hk]; rw [if_neg h1, if_pos (h.resolve_left h1)]), ?_⟩; exact askAutoSpan_second _ _ _ _ (by decide) (by decide)

end

/-- A system with two states, one control and two steps. -/
def psEx : PreviewSystem ℚ := { PreviewSystem.default with xDim := 2, uDim := 1, fullXDim := 6, fullUDim := 2 }

/-- C82 is false for target costs, concretely: the message does not even contain the number of columns. -/
theorem c82_false_target_concrete : ∃ m, costMessage psEx (Cost.mkTarget (.identity 2 5) (.zero 2)) = some m ∧
    String.ofList m = "M should have 2 rows. But M has 2 rows." ∧ ¬ StatesCols m "M".toList 5 :=
  ⟨_, rfl, by decide, by decide⟩

example := (c82_constraint_partial psEx (Constr.mkTrajectory (.identity 1 3) (.const 1 (.fin 0)))).1 rfl rfl (by decide) (by decide)
example := (c82_cost_partial psEx (Cost.mkMixed (.identity 1 2) (.identity 1 2) (.zero 1))).2.2 rfl rfl rfl (by decide) (by decide)
example := c82_square (K := ℚ) (.identity 2 3) (.identity 2 1) (.zero 2) (.zero 2) 4 rfl (by decide)
example := c82_weights (Cost.mkTrajectory (K := ℚ) (.identity 3 3) (.zero 3)) (.zero 2) rfl
example := c82_span 2 5 rfl
example := (c53_second_partial psEx (Constr.mkTrajectory (.identity 2 2) (.const 4 (.fin 0)))
  (Cost.mkControl (.identity 2 1) (.zero 4))).1 rfl (by decide)
example := (c53_second_partial psEx (Constr.mkTrajectory (.identity 2 2) (.const 4 (.fin 0)))
  (Cost.mkControl (.identity 2 1) (.zero 4))).2.2.2.2.2.1 rfl (by decide)
example := (c82_false_bounds psEx (Constr.mkTrajBound (.const 4 (.fin 0)) (.const 4 (.fin 1))) rfl).1 rfl (by decide) (by decide)

end Copra.Messages
