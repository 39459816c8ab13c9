import Verif.Model.Chrono
import Verif.Spec.Calendar

/-! Specification: by how much a sum is off. -/

namespace Spec
open Kairos

/-- By how many days adding seconds, minutes, hours or days to `m` leads too far if it leads to `r`: nothing in the year of `m`; otherwise the days that the months from the next
1 January to the month of `r` have, beyond 30 for each of these months. (Less than nothing: too early.) -/
def lateBy (m r : Moment) : Int :=
  if r.year = m.year then 0
  else Cal.dayNumber r.year r.month 1 - Cal.dayNumber (m.year + 1) 1 1 -
    30 * (Cal.monthIndex r.year r.month - Cal.monthIndex (m.year + 1) 1)

end Spec
