import Verif.Model.Chrono
import Verif.Spec.Amount

/-! Specification: where subtracting an amount from a moment goes right. -/

namespace Spec
open Kairos

/-- Where subtracting `n` units from `m`, with true answer `m'`, goes right in the code:
* seconds, minutes: fewer than (current value + 60) of them, and not back over the end of a month
  that has fewer than 31 days;
* hours: the same with 24; or exactly 24 hours before midnight of a 1st after a 30-day month;
* days: `m'` is in the same month, or in the month before and that has 31 days. -/
def SubRight (m m' : Moment) (n : Int) : TUnit → Prop
  | .second => n < m.second + 60 ∧ (m'.month = m.month ∨ m'.day = 31)
  | .minute => n < m.minute + 60 ∧ (m'.month = m.month ∨ m'.day = 31)
  | .hour => (n < m.hour + 24 ∧ (m'.month = m.month ∨ m'.day = 31)) ∨
      (n = m.hour + 24 ∧ m.day = 1 ∧ m'.day = 30)
  | .day => (m'.year = m.year ∧ m'.month = m.month) ∨
      (Cal.monthIndex m'.year m'.month = Cal.monthIndex m.year m.month - 1 ∧
        Cal.monthLen m'.year m'.month = 31)
  | _ => False

end Spec
