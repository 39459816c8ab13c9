import Verif.Spec.Kind

/-! Specification: what an error of `calculate` tells. -/

namespace Spec
open Kairos

/-- The error says something true: CannotAdd and CannotSub name as second operand a moment or an `end_of_*` marker (which
can never be added or subtracted), the end-of errors name an amount, OutOfBounds has fields of a date that is out of
bounds in one way or another, in the range of their types. No other error occurs. -/
def Explained : ErrorKind → Prop
  | .cannotAdd _ b => b.isMoment = true ∨ endMarked b = true
  | .cannotSub _ b => b.isMoment = true ∨ endMarked b = true
  | .cannotCalculateEndOfYearOn t => t.isAAmount = true
  | .cannotCalculateEndOfMonthOn t => t.isAAmount = true
  | .outOfBounds y mo d h mi s => (-2 ^ 31 ≤ y ∧ y < 2 ^ 31) ∧ (0 ≤ mo ∧ mo < 2 ^ 32) ∧ (0 ≤ d ∧ d < 2 ^ 32) ∧
      (0 ≤ h ∧ h < 2 ^ 32) ∧ (0 ≤ mi ∧ mi < 2 ^ 32) ∧ (0 ≤ s ∧ s < 2 ^ 32)
  | _ => False

end Spec
