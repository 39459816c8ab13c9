import Verif.Spec.Amount

/-! # Specification: one component of a moment -/

namespace Spec
open Kairos

/-- The component of a moment that belongs to a unit. -/
def part (m : Moment) : TUnit → Int
  | .second => m.second
  | .minute => m.minute
  | .hour => m.hour
  | .day => m.day
  | .month => m.month
  | .year => m.year

/-- The moment with that component replaced, on a whole second. -/
def withPart (m : Moment) : TUnit → Int → Moment
  | .second, x => { m with second := x, nano := 0 }
  | .minute, x => { m with minute := x, nano := 0 }
  | .hour, x => { m with hour := x, nano := 0 }
  | .day, x => { m with day := x, nano := 0 }
  | .month, x => { m with month := x, nano := 0 }
  | .year, x => { m with year := x, nano := 0 }

end Spec
