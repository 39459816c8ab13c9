import Verif.Model.Chrono
import Verif.Spec.Amount

/-! Specification: where adding a negative amount to a moment goes right. -/

namespace Spec
open Kairos

/-- Where adding a negative number of units to `m`, with true answer `m'`, goes right in the code: `m'` is in the month of
`m`, and every component that had to be borrowed for ends up as exactly 0.
* seconds: `m'` is in the same minute, or on a full minute in the same hour, or on a full hour of the same day, or at
  midnight;
* minutes: in the same hour, or on minute 0 of the same day, or on minute 0 of hour 0;
* hours: on the same day, or in hour 0;
* days: always. -/
def NegRight (m m' : Moment) (u : TUnit) : Prop :=
  (m'.year = m.year ∧ m'.month = m.month) ∧
  match u with
  | .second =>
      (m'.day = m.day ∧ m'.hour = m.hour ∧ m'.minute = m.minute) ∨
      (m'.day = m.day ∧ m'.hour = m.hour ∧ m'.second = 0) ∨
      (m'.day = m.day ∧ m'.minute = 0 ∧ m'.second = 0) ∨
      (m'.hour = 0 ∧ m'.minute = 0 ∧ m'.second = 0)
  | .minute =>
      (m'.day = m.day ∧ m'.hour = m.hour) ∨ (m'.day = m.day ∧ m'.minute = 0) ∨ (m'.hour = 0 ∧ m'.minute = 0)
  | .hour => m'.day = m.day ∨ m'.hour = 0
  | .day => True
  | _ => False

end Spec
