import Verif.Spec.Calendar
import Verif.Spec.Context
import Verif.Spec.Part

/-!
# Specification: a complete reference for one calculation step

What one operation on finished values gives, in closed form: ordinary integer arithmetic and the calendar, with no loop and no
recursion. It states what the library does, including where that is not what the calendar says: years and months counted as 360 and
30 days after the first New Year, numbers cut to 32 bits, differences that are refused, and, in the build without overflow checks,
numbers that start again at the other end of the 64 bits.
-/

namespace Spec
open Kairos

/-- How one operation ends: with a value, with this error, or by running out of 64 bits. -/
inductive Answer where
  | value (v : TT)
  | refused (e : ErrorKind)
  | overflow
deriving DecidableEq, Repr

/-- The value, if there is one. -/
def Answer.toOption : Answer → Option TT
  | .value v => some v
  | _ => none

/-- The library ends in this way. -/
def Says (a : Answer) (o : Out TT) : Prop :=
  match a with
  | .value v => o = .ok v
  | .refused e => o = .err e
  | .overflow => o = .panic

/-- The lowest 32 bits of a number, without sign. -/
def low32 (x : Int) : Int := x % 4294967296

/-- The lowest 32 bits of a number, with sign. -/
def signed32 (x : Int) : Int := (x + 2147483648) % 4294967296 - 2147483648

/-- The lowest 64 bits of a number, with sign. -/
def signed64 (x : Int) : Int := (x + 9223372036854775808) % 18446744073709551616 - 9223372036854775808

/-- The moment with these components, if there is such a moment; otherwise the error names them, except for the day, where it repeats
the hour. -/
def momentAt (c : Cfg) (y mo d h mi s : Int) : Answer :=
  if c.minYear ≤ y ∧ y ≤ c.maxYear ∧ Cal.ValidDate y mo d ∧ Cal.ValidTime h mi s then .value (.moment ⟨y, mo, d, h, mi, s, 0⟩)
  else .refused (.outOfBounds y mo h h mi s)

/-- The month of the `j`-th day of a year. -/
def monthOfDay (y j : Int) : Int :=
  if j ≤ Cal.daysBeforeMonth y 2 then 1
  else if j ≤ Cal.daysBeforeMonth y 3 then 2
  else if j ≤ Cal.daysBeforeMonth y 4 then 3
  else if j ≤ Cal.daysBeforeMonth y 5 then 4
  else if j ≤ Cal.daysBeforeMonth y 6 then 5
  else if j ≤ Cal.daysBeforeMonth y 7 then 6
  else if j ≤ Cal.daysBeforeMonth y 8 then 7
  else if j ≤ Cal.daysBeforeMonth y 9 then 8
  else if j ≤ Cal.daysBeforeMonth y 10 then 9
  else if j ≤ Cal.daysBeforeMonth y 11 then 10
  else if j ≤ Cal.daysBeforeMonth y 12 then 11
  else 12

/-- A moment plus a number, not negative, of seconds, minutes, hours or days that make up `x` seconds: the right moment up to the
end of the year of `m`; after that, `j` days after the first New Year, months have 30 days and years 360. -/
def plusSeconds (c : Cfg) (m : Moment) (x : Int) : Answer :=
  let t := m.instant + x
  let day := t / 86400
  let time := t % 86400
  let j := day - Cal.dayNumber (m.year + 1) 1 1
  if j < 0 then
    let i := day - Cal.daysBeforeYear m.year
    momentAt c m.year (monthOfDay m.year i) (i - Cal.daysBeforeMonth m.year (monthOfDay m.year i))
      (time / 3600) (time / 60 % 60) (time % 60)
  else
    momentAt c (signed32 (m.year + 1 + j / 360)) (j / 30 % 12 + 1) (j % 30 + 1) (time / 3600) (time / 60 % 60) (time % 60)

/-- A moment plus a number of units after which the component of that unit is `x`, when the number is negative or has started again at
the other end of the 64 bits: each component goes into the next larger one with the remainder rounded towards zero, so that what is
left over is negative where the component was; the month and the year stay. -/
def plusNegative (c : Cfg) (m : Moment) (u : TUnit) (x : Int) : Answer :=
  let now (v : TUnit) : Int := if v = u then x else part m v
  let s := now .second
  let mi := now .minute + s.tdiv 60
  let h := now .hour + mi.tdiv 60
  let d := now .day + h.tdiv 24
  momentAt c m.year m.month (low32 d) (low32 (h.tmod 24)) (low32 (mi.tmod 60)) (low32 (s.tmod 60))

/-- A moment plus `n` months: the same day of the month, or, within the year, as many days into the next month as are missing; a
31st beyond the year goes to the first of the month after it. The number of the month is counted in 64 bits. -/
def plusMonths (c : Cfg) (m : Moment) (n : Int) : Answer :=
  let k := signed64 (m.month + n)
  if k ≤ 0 then
    if m.day ≤ 30 then momentAt c m.year (low32 k) m.day m.hour m.minute m.second
    else momentAt c m.year (low32 (k + 1)) 1 m.hour m.minute m.second
  else if k ≤ 12 then
    if m.day ≤ Cal.monthLen m.year k then momentAt c m.year k m.day m.hour m.minute m.second
    else momentAt c m.year (k + 1) (m.day - Cal.monthLen m.year k) m.hour m.minute m.second
  else if m.day ≤ 30 then
    momentAt c (signed32 ((Cal.monthIndex m.year m.month + n) / 12)) ((Cal.monthIndex m.year m.month + n) % 12 + 1) m.day
      m.hour m.minute m.second
  else if signed64 (k + 1) ≤ 0 then momentAt c m.year (low32 (k + 1)) 1 m.hour m.minute m.second
  else
    momentAt c (signed32 ((Cal.monthIndex m.year m.month + n + 1) / 12)) ((Cal.monthIndex m.year m.month + n + 1) % 12 + 1) 1
      m.hour m.minute m.second

/-- A moment plus `n` years: 29 February becomes 1 March in a year that has no such day. -/
def plusYears (c : Cfg) (m : Moment) (n : Int) : Answer :=
  let y := signed32 (m.year + n)
  if m.month = 2 ∧ m.day = 29 ∧ Cal.isLeap y = false then momentAt c y 3 1 m.hour m.minute m.second
  else momentAt c y m.month m.day m.hour m.minute m.second

/-- A moment plus an amount. The number is added to the component of its unit, in 64 bits; a 31st needs one month more. -/
def plusAmount (c : Cfg) (m : Moment) (u : TUnit) (n : Int) : Answer :=
  if c.profile = .debug ∧ (¬ InI64 (part m u + n) ∨ u = .month ∧ m.day = 31 ∧ ¬ InI64 (m.month + n + 1)) then .overflow
  else match u with
    | .year => plusYears c m n
    | .month => plusMonths c m n
    | _ =>
      if 0 ≤ n ∧ InI64 (part m u + n) then plusSeconds c m (n * u.secs)
      else plusNegative c m u (signed64 (part m u + n))

/-- A component of a date after borrowing: when it is below `low`, `size` is added to it, once. -/
def topped (x low size : Int) : Int := if x < low then size + x else x

/-- What that costs the next larger component. The least 64-bit number has no absolute value: there the next component gains. -/
def borrowed (x low per : Int) : Int :=
  if x = -9223372036854775808 then 1 - 9223372036854775808 / per else if x < low then (-x) / per + 1 else 0

/-- A moment minus an amount: the component of the unit is lowered, and each component below its least value borrows from the next
larger one, from the seconds up to the months. -/
def minusAmount (c : Cfg) (m : Moment) (u : TUnit) (n : Int) : Answer :=
  if c.profile = .debug ∧ ¬ InI64 (part m u - n) then .overflow
  else
    let less (v : TUnit) : Int := if v = u then signed64 (part m v - n) else part m v
    let s := less .second
    let mi := less .minute - borrowed s 0 60
    let h := less .hour - borrowed mi 0 60
    let d := less .day - borrowed h 0 24
    let mo := less .month - borrowed d 1 32
    let y := less .year - borrowed mo 1 13
    momentAt c (signed32 y) (low32 (topped mo 1 12)) (low32 (topped d 1 31)) (low32 (topped h 0 24)) (low32 (topped mi 0 60))
      (low32 (topped s 0 60))

/-- Two amounts, the second added or (`sign = -1`) subtracted: counted in the finer of their units. -/
def combine (c : Cfg) (sign : Int) (u : TUnit) (n : Int) (v : TUnit) (k : Int) : Answer :=
  let w := if u.secs ≤ v.secs then u else v
  let x := n * (u.secs / w.secs)
  let y := k * (v.secs / w.secs)
  if InI64 x ∧ InI64 y ∧ InI64 (x + sign * y) then .value (amt w (x + sign * y))
  else if c.profile = .debug then .overflow
  else .value (amt w (signed64 (x + sign * y)))

/-- An amount as unit and number. -/
def asAmount : TT → Option (TUnit × Int)
  | .seconds n => some (.second, n)
  | .minutes n => some (.minute, n)
  | .hours n => some (.hour, n)
  | .days n => some (.day, n)
  | .months n => some (.month, n)
  | .years n => some (.year, n)
  | _ => none

/-- One operation on values. The last line is for expressions that are values already, or have none. -/
def oneStep (c : Cfg) : TT → Answer
  | .addition (.moment m) b =>
    match asAmount b with
    | some (u, n) => plusAmount c m u n
    | none => .refused (.cannotAdd (.moment m) b)
  | .addition a b =>
    match asAmount a, asAmount b with
    | some (u, n), some (v, k) => combine c 1 u n v k
    | _, _ => .refused (.cannotAdd a b)
  | .subtraction (.moment m) b =>
    match asAmount b with
    | some (u, n) => minusAmount c m u n
    | none => .refused (.cannotSub (.moment m) b)
  | .subtraction a b =>
    match asAmount a, asAmount b with
    | some (u, n), some (v, k) => combine c (-1) u n v k
    | _, _ => .refused (.cannotSub a b)
  | .endOfYear (.moment m) => .value (.moment ⟨m.year, 12, 31, 0, 0, 0, 0⟩)
  | .endOfMonth (.moment m) => .value (.moment ⟨m.year, m.month, Cal.monthLen m.year m.month, 0, 0, 0, 0⟩)
  | .endOfDay (.moment m) => .value (.moment ⟨m.year, m.month, m.day, 23, 59, 59, 0⟩)
  | .endOfHour (.moment m) => .value (.moment ⟨m.year, m.month, m.day, m.hour, 59, 59, 0⟩)
  | .endOfMinute (.moment m) => .value (.moment ⟨m.year, m.month, m.day, m.hour, m.minute, 59, 0⟩)
  | .endOfYear a => .refused (.cannotCalculateEndOfYearOn a)
  | .endOfMonth a | .endOfDay a | .endOfHour a | .endOfMinute a => .refused (.cannotCalculateEndOfMonthOn a)
  | t => .value t

/-- The value of a whole expression: from the inside out, one operation on values at a time. -/
def reference (c : Cfg) (t : TT) : Option TT := inside (fun x => (oneStep c x).toOption) t

/-- Go on with the value, if there is one. -/
def Answer.andThen : Answer → (TT → Answer) → Answer
  | .value v, f => f v
  | .refused e, _ => .refused e
  | .overflow, _ => .overflow

/-- How a whole expression ends: operands are calculated from left to right, except in `(x + y) - (z - w)`, and the first operation
that is refused or overflows decides. -/
def outcome (c : Cfg) : TT → Answer
  | .addition a b => (outcome c a).andThen fun x => (outcome c b).andThen fun y => oneStep c (.addition x y)
  | .subtraction a b =>
    if a.isAddition ∧ b.isSubtraction then
      (outcome c b).andThen fun y => (outcome c a).andThen fun x => oneStep c (.subtraction x y)
    else (outcome c a).andThen fun x => (outcome c b).andThen fun y => oneStep c (.subtraction x y)
  | .endOfYear t => (outcome c t).andThen fun v => oneStep c (.endOfYear v)
  | .endOfMonth t => (outcome c t).andThen fun v => oneStep c (.endOfMonth v)
  | .endOfDay t => (outcome c t).andThen fun v => oneStep c (.endOfDay v)
  | .endOfHour t => (outcome c t).andThen fun v => oneStep c (.endOfHour v)
  | .endOfMinute t => (outcome c t).andThen fun v => oneStep c (.endOfMinute v)
  | t => .value t

/-- The item at position `k` of the iterator from `m` in steps of `n` units: the steps before it, one after the other; the first one
that fails decides about all the items from there on. -/
def referenceItem (c : Cfg) (m : Moment) (u : TUnit) (n : Int) : Nat → Answer
  | 0 => .value (.moment m)
  | k + 1 => (referenceItem c m u n k).andThen fun r => oneStep c (r + amt u n)

/-- Every amount in the expression is a 64-bit number. -/
def AmountsFit : TT → Prop
  | .seconds n | .minutes n | .hours n | .days n | .months n | .years n => InI64 n
  | .moment _ => True
  | .addition a b | .subtraction a b => AmountsFit a ∧ AmountsFit b
  | .endOfYear t | .endOfMonth t | .endOfDay t | .endOfHour t | .endOfMinute t => AmountsFit t

end Spec
