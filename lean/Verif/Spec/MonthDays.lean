import Verif.Spec.Calendar

/-!
# The days in a number of months (C169)
-/

namespace Spec
open Cal

/-- The days of `n` months in a row, from month `mo` of year `y` on: those up to December have their own lengths, those of later years count 30 days each. -/
def monthsInDays (y mo : Int) : Nat → Int
  | 0 => 0
  | n + 1 => monthsInDays y mo n + (if mo + n ≤ 12 then monthLen y (mo + n) else 30)

end Spec
