import Verif.Model.TimeType

/-!
# Specification: amounts of time

The meaning of expressions made only of amounts: ordinary integer arithmetic in seconds, under
60 s/min, 60 min/h, 24 h/day, 30 days/month, 12 months/year.
-/

namespace Spec
open Kairos

/-- The six units of the public constructors. -/
inductive TUnit where
  | second | minute | hour | day | month | year
deriving DecidableEq, Repr

/-- Length of a unit in seconds. -/
def TUnit.secs : TUnit → Int
  | .second => 1
  | .minute => 60
  | .hour => 60 * 60
  | .day => 24 * (60 * 60)
  | .month => 30 * (24 * (60 * 60))
  | .year => 12 * (30 * (24 * (60 * 60)))

/-- The public constructors `TimeType::seconds(n)` … `TimeType::years(n)`. -/
def amt : TUnit → Int → TT
  | .second, n => .seconds n
  | .minute, n => .minutes n
  | .hour, n => .hours n
  | .day, n => .days n
  | .month, n => .months n
  | .year, n => .years n

/-- Expressions made only of amounts with `+` and `-`. -/
inductive AmtTree where
  | amt (u : TUnit) (n : Int)
  | plus (a b : AmtTree)
  | minus (a b : AmtTree)
deriving DecidableEq, Repr

namespace AmtTree

/-- The library expression a user writes. -/
def toTT : AmtTree → TT
  | .amt u n => Spec.amt u n
  | .plus a b => a.toTT + b.toTT
  | .minus a b => a.toTT - b.toTT

/-- Its value in seconds. -/
def secs : AmtTree → Int
  | .amt u n => n * u.secs
  | .plus a b => a.secs + b.secs
  | .minus a b => a.secs - b.secs

/-- The sum of the absolute sizes of its amounts, in seconds. -/
def mag : AmtTree → Int
  | .amt u n => (if n < 0 then -n else n) * u.secs
  | .plus a b => a.mag + b.mag
  | .minus a b => a.mag + b.mag

/-- The finest unit occurring in it. -/
def finest : AmtTree → TUnit
  | .amt u _ => u
  | .plus a b => if a.finest.secs ≤ b.finest.secs then a.finest else b.finest
  | .minus a b => if a.finest.secs ≤ b.finest.secs then a.finest else b.finest

/-- Every amount is an `i64`. -/
def InRange : AmtTree → Prop
  | .amt _ n => InI64 n
  | .plus a b => a.InRange ∧ b.InRange
  | .minus a b => a.InRange ∧ b.InRange

end AmtTree
end Spec
