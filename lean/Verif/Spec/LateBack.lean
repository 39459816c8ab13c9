import Verif.Model.Chrono
import Verif.Spec.Amount
import Verif.Spec.Part
import Verif.Spec.Calendar

/-! Specification: by how much a difference is off. -/

namespace Spec
open Kairos

/-- How many of a unit make the unit above; nothing for days and more, which have no fixed unit above. -/
def perAbove : TUnit → Int
  | .second => 60
  | .minute => 60
  | .hour => 24
  | _ => 0

/-- The seconds in one unit above if `n` is exactly one unit above more than the current value of the component (70 minutes at ten past), otherwise nothing. -/
def tooFar (m : Moment) (u : TUnit) (n : Int) : Int :=
  if n = part m u + perAbove u then perAbove u * u.secs else 0

/-- By how many seconds subtracting `n` seconds, minutes, hours or days from `m` does not lead back far enough if it leads to `r`: in another month than that of `m`, by the days
which that month has less than 31. If `n` is exactly one unit above more than the current value of the component, it is one unit above less than that. -/
def shortBy (m r : Moment) (u : TUnit) (n : Int) : Int :=
  (if r.year = m.year ∧ r.month = m.month then 0 else 31 - Cal.monthLen r.year r.month) * 86400 - tooFar m u n

/-- The seconds that a unit has in a calendar in which every month has 31 days. -/
def secs31 : TUnit → Int
  | .second => 1
  | .minute => 60
  | .hour => 3600
  | .day => 86400
  | .month => 31 * 86400
  | .year => 12 * 31 * 86400

/-- The seconds that several amounts have together in such a calendar. -/
def sum31 (steps : List (TUnit × Int)) : Int :=
  (steps.map fun s => s.2 * secs31 s.1).sum

/-- The seconds of a date-time in a calendar in which every month has 31 days. -/
def instant31 (m : Moment) : Int :=
  (Cal.monthIndex m.year m.month * 31 + m.day) * 86400 + m.hour * 3600 + m.minute * 60 + m.second

end Spec
