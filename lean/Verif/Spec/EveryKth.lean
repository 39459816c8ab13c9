import Verif.Model.Iter

/-!
# Specification: every k-th item

For C159.
-/

namespace Spec
open Kairos

/-- Two calls return the same date, or both an OutOfBounds error (which may name different dates). -/
def SameDate (a b : Option (Out TT)) : Prop :=
  (∃ r : Moment, a = some (.ok (.moment r)) ∧ b = some (.ok (.moment r))) ∨
  ((∃ Y M D H MI S, a = some (.err (.outOfBounds Y M D H MI S))) ∧ ∃ Y M D H MI S, b = some (.err (.outOfBounds Y M D H MI S)))

end Spec
