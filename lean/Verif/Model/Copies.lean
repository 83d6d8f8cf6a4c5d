import Verif.Model.LMPC

/-! # Copies of constraints, costs and preview systems

`PreviewSystem` (include/PreviewSystem.h 22-68) and the concrete constraint and cost classes (include/constraints.h
114-307, include/costFunctions.h 103-219) declare neither copy constructors nor copy assignments nor moves, so the
compiler provides memberwise ones (the base classes declare a defaulted virtual destructor only, include/constraints.h 49,
include/costFunctions.h 29).  A copy has the members of the original, including those that record that it was initialised. -/

namespace Copra.World
variable {K : Type}

/-- `j = std::make_shared<T>(*i)`, or `*j = *i`, for a constraint `i` of class `T`.
Implicit copy operations of the classes at include/constraints.h 114-307. -/
def copyConstr (w : World K) (j i : Nat) : World K := { w with cons := upd w.cons j (w.cons i) }

/-- `j = std::make_shared<T>(*i)`, or `*j = *i`, for a cost `i` of class `T`.
Implicit copy operations of the classes at include/costFunctions.h 103-219. -/
def copyCost (w : World K) (j i : Nat) : World K := { w with costs := upd w.costs j (w.costs i) }

/-- `*p = *q` for two preview systems, or `p = std::make_shared<PreviewSystem>(*q)`.
Implicit copy operations of the class at include/PreviewSystem.h 22-68. -/
def copyPs (w : World K) (p q : Nat) : World K := { w with pss := upd w.pss p (w.pss q) }

end Copra.World
