import Verif.Spec.Valid

/-! # Specification: the calendar repeats every 400 years -/

namespace Spec
open Kairos

/-- The same date and time `400 · k` years later (earlier, if `k` is negative). -/
def cyclesLater (k : Int) (m : Moment) : Moment := { m with year := m.year + 400 * k }

/-- Changes every moment in an expression. -/
def mapMoments (f : Moment → Moment) : TT → TT
  | .moment m => .moment (f m)
  | .addition a b => .addition (mapMoments f a) (mapMoments f b)
  | .subtraction a b => .subtraction (mapMoments f a) (mapMoments f b)
  | .endOfYear t => .endOfYear (mapMoments f t)
  | .endOfMonth t => .endOfMonth (mapMoments f t)
  | .endOfDay t => .endOfDay (mapMoments f t)
  | .endOfHour t => .endOfHour (mapMoments f t)
  | .endOfMinute t => .endOfMinute (mapMoments f t)
  | .seconds n => .seconds n
  | .minutes n => .minutes n
  | .hours n => .hours n
  | .days n => .days n
  | .months n => .months n
  | .years n => .years n

end Spec
