import Verif.Model.Constraints
import Verif.Model.Costs

/-! # Model of `src/debugUtils.cpp` (error messages)

Strings are lists of characters.  `std::to_string` of a row count is `Nat.repr`.  The functions below give the
`MESSAGE` argument of `EXCEPTION` (include/debugUtils.h 40); `what` is the text of the exception. -/

namespace Copra.Messages
variable {K : Type}

/-- `std::to_string(n)`. Uses: src/debugUtils.cpp 10-111. -/
def num (n : Nat) : List Char := (Nat.repr n).toList

/-- `fancy_throw`, include/debugUtils.h 32-36: what `what()` of the exception returns.  `file`, `line` and `func` are
`__FILE__`, `__LINE__` and `__func__` at the place of the `throw`. -/
def what (file func : List Char) (line : Nat) (msg : List Char) : List Char :=
  "In file: ".toList ++ file ++ "(line ".toList ++ num line ++ "): [In function: ".toList ++ func ++ "]\n".toList ++ msg

/-- `throwMsgOnRows`, src/debugUtils.cpp 10-17.  Only the row counts of the matrices are used. -/
def onRows (n1 n2 : List Char) (r1 r2 : Nat) : List Char :=
  n1 ++ " and ".toList ++ n2 ++ " should have same number of rows. ".toList ++ n1 ++ " has ".toList
    ++ num r1 ++ " rows and ".toList ++ n2 ++ " has ".toList ++ num r2 ++ " rows.".toList

/-- `std::ostringstream os(init); os << s; os.str()`: the put position of a string stream opened with
the default mode `out` is the beginning, so the output overwrites the initial contents. Uses: src/debugUtils.cpp 19-24. -/
def overwrite (init s : List Char) : List Char := s ++ init.drop s.length

/-- `throwMsgOnRowsAskAutoSpan`, src/debugUtils.cpp 19-24. -/
def onRowsAskAutoSpan (n1 n2 : List Char) (r1 r2 : Nat) : List Char :=
  overwrite (onRows n1 n2 r1 r2) " Maybe you have forgottent to call autoSpanMatrix method?\n".toList

/-- `throwMsgOnSquareMat`, src/debugUtils.cpp 26-33. -/
def onSquareMat (n : List Char) (rows cols : Nat) : List Char :=
  n ++ " should be a squared matrix but it is a (".toList ++ num rows ++ "-by-".toList ++ num cols
    ++ ") matrix.".toList

/-- `throwMsgOnRowsOnDim`, src/debugUtils.cpp 35-41. -/
def onRowsOnDim (n : List Char) (rows dim : Nat) : List Char :=
  n ++ " should have exactly ".toList ++ num dim ++ " rows. But ".toList ++ n ++ " has ".toList
    ++ num rows ++ " rows.".toList

/-- `throwMsgOnRowsOnPSxDim`, src/debugUtils.cpp 43-49. -/
def onRowsOnPSxDim (n : List Char) (rows xDim : Nat) : List Char :=
  n ++ " should have ".toList ++ num xDim ++ " rows. But ".toList ++ n ++ " has ".toList
    ++ num rows ++ " rows.".toList

/-- `throwMsgOnColsOnPSXDim` / `throwMsgOnColsOnPSUDim`, src/debugUtils.cpp 67-81. -/
def onColsOnPSDim (n : List Char) (cols dim fullDim : Nat) : List Char :=
  n ++ " should have ".toList ++ num dim ++ " or ".toList ++ num fullDim ++ " cols. But ".toList ++ n
    ++ " has ".toList ++ num cols ++ " cols.".toList

/-- `throwMsgOnColsOnPSXUDim`, src/debugUtils.cpp 93-102. -/
def onColsOnPSXUDim (n1 n2 : List Char) (cols1 cols2 xDim uDim fullXDim fullUDim : Nat) : List Char :=
  n1 ++ " and ".toList ++ n2 ++ " should respectively have ".toList ++ num xDim ++ " and ".toList
    ++ num uDim ++ " cols or ".toList ++ num fullXDim ++ " and ".toList ++ num fullUDim
    ++ " cols. But ".toList ++ n1 ++ " has ".toList ++ num cols1 ++ " cols and ".toList ++ n2
    ++ " has ".toList ++ num cols2 ++ " cols.".toList

/-- `throwMsgOnBadNewDim`, src/debugUtils.cpp 104-111. -/
def onBadNewDim (rows newDim : Nat) : List Char :=
  "Can not span the matrix to the desired new dimension. The  desired dimension (".toList
    ++ num newDim ++ ") is not a multiple of the number of rows (".toList ++ num rows ++ ").".toList

/-- The message of the exception thrown by `PreviewSystem::system`, src/PreviewSystem.cpp 19-33, if
any. -/
def systemMessage (state control : Mat K) (bias xInit : Vec K) (numberOfSteps : Int) :
    Option (List Char) :=
  if xInit.rows ≠ state.rows then some (onRows "xInit".toList "state".toList xInit.rows state.rows)
  else if state.rows ≠ state.cols then some (onSquareMat "state".toList state.rows state.cols)
  else if xInit.rows ≠ control.rows then
    some (onRows "xInit".toList "control".toList xInit.rows control.rows)
  else if xInit.rows ≠ bias.rows then some (onRows "xInit".toList "state".toList xInit.rows bias.rows)
  else if numberOfSteps ≤ 0 then
    some "The number of step sould be a positive number! ".toList
  else none

/-- The message of the exception thrown by `initializeConstraint`, src/constraints.cpp 47-58, 108-128,
173-185, 265-276, 335-354, if any. -/
def constrMessage (ps : PreviewSystem K) (c : Constr K) : Option (List Char) :=
  match c.kind with
  | .trajectory =>
    if c.E.rows ≠ c.f.rows then some (onRowsAskAutoSpan "E".toList "f".toList c.E.rows c.f.rows)
    else if c.E.cols = ps.xDim ∨ c.E.cols = ps.fullXDim then none
    else some (onColsOnPSDim "E".toList c.E.cols ps.xDim ps.fullXDim)
  | .control =>
    if c.hasBeenInitialized then some ("You have initialized a ControlConstraint twice. As move " ++
      "semantics are used, you can't do so.").toList
    else if c.G.rows ≠ c.f.rows then some (onRowsAskAutoSpan "G".toList "f".toList c.G.rows c.f.rows)
    else if c.G.cols = ps.uDim ∨ c.G.cols = ps.fullUDim then none
    else some (onColsOnPSDim "G".toList c.G.cols ps.uDim ps.fullUDim)
  | .mixed =>
    if c.E.rows ≠ c.f.rows then some (onRowsAskAutoSpan "E".toList "f".toList c.E.rows c.f.rows)
    else if c.G.rows ≠ c.f.rows then some (onRowsAskAutoSpan "G".toList "f".toList c.G.rows c.f.rows)
    else if (c.E.cols = ps.xDim ∧ c.G.cols = ps.uDim) ∨
      (c.E.cols = ps.fullXDim ∧ c.G.cols = ps.fullUDim) then none
    else some (onColsOnPSXUDim "E".toList "G".toList c.E.cols c.G.cols ps.xDim ps.uDim ps.fullXDim
      ps.fullUDim)
  | .trajBound =>
    if c.lower.rows ≠ c.upper.rows then
      some (onRowsAskAutoSpan "lower".toList "upper".toList c.lower.rows c.upper.rows)
    else if c.lower.rows = ps.xDim ∨ c.lower.rows = ps.fullXDim then none
    else some (onColsOnPSDim "lower".toList 1 ps.xDim ps.fullXDim)
  | .ctrlBound =>
    if c.hasBeenInitialized then some ("You have initialized a ControlBoundConstraint twice. As " ++
      "move semantics are used, you can't do so.").toList
    else if c.lower.rows ≠ c.upper.rows then
      some (onRowsAskAutoSpan "lower".toList "upper".toList c.lower.rows c.upper.rows)
    else if c.lower.rows = ps.uDim ∨ c.lower.rows = ps.fullUDim then none
    else some (onColsOnPSDim "lower".toList 1 ps.uDim ps.fullUDim)

/-- The message of the exception thrown by `initializeCost`, src/costFunctions.cpp 47-60, 91-97,
125-136, 176-192, if any. -/
def costMessage (ps : PreviewSystem K) (c : Cost K) : Option (List Char) :=
  match c.kind with
  | .trajectory =>
    if c.M.rows ≠ c.p.rows then some (onRowsAskAutoSpan "M".toList "p".toList c.M.rows c.p.rows)
    else if c.M.cols = ps.xDim ∨ c.M.cols = ps.fullXDim then none
    else some (onColsOnPSDim "M".toList c.M.cols ps.xDim ps.fullXDim)
  | .target =>
    if c.M.rows ≠ c.p.rows then some (onRowsAskAutoSpan "M".toList "p".toList c.M.rows c.p.rows)
    else if c.M.cols ≠ ps.xDim then some (onRowsOnPSxDim "M".toList c.M.rows ps.xDim)
    else none
  | .control =>
    if c.N.rows ≠ c.p.rows then some (onRowsAskAutoSpan "N".toList "p".toList c.N.rows c.p.rows)
    else if c.N.cols = ps.uDim ∨ c.N.cols = ps.fullUDim then none
    else some (onColsOnPSDim "N".toList c.N.cols ps.uDim ps.fullUDim)
  | .mixed =>
    if c.M.rows ≠ c.p.rows then some (onRowsAskAutoSpan "M".toList "p".toList c.M.rows c.p.rows)
    else if c.N.rows ≠ c.p.rows then some (onRowsAskAutoSpan "N".toList "p".toList c.N.rows c.p.rows)
    else if (c.M.cols = ps.xDim ∧ c.N.cols = ps.uDim) ∨
      (c.M.cols = ps.fullXDim ∧ c.N.cols = ps.fullUDim) then none
    else some (onColsOnPSXUDim "M".toList "N".toList c.M.cols c.N.cols ps.xDim ps.uDim ps.fullXDim
      ps.fullUDim)

/-- The message of the exception thrown by `CostFunction::weights`, include/costFunctions.h 54-67, if any. -/
def weightsMessage (c : Cost K) (w : Vec K) : Option (List Char) :=
  if w.rows = c.weights.rows then none
  else if w.rows = 0 then none
  else if c.weights.rows % w.rows = 0 then none
  else some (onRowsOnDim "weights".toList w.rows c.weights.rows)

/-- The message of the exception thrown by `AutoSpan::spanMatrix` and `AutoSpan::spanVector`,
src/AutoSpan.cpp 13-22, 32-41, for an argument with `rows` rows, if any. -/
def spanMessage (rows newDim : Nat) : Option (List Char) :=
  if newDim = rows then none
  else if rows = 0 then none
  else if newDim / rows * rows ≠ newDim then some (onBadNewDim rows newDim)
  else none

end Copra.Messages
