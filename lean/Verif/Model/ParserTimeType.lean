import Verif.Model.Nom
import Verif.Model.Iter

/-!
# Model of `src/parser/timetype.rs`
-/

namespace Kairos.Parser

open Nom

/-- nom's `tag!("…")` on a literal, as in src/parser/timetype.rs:25-48. -/
def tok (s : String) : P Unit := tag s.toList

/-- `i64::from_str` on a non-empty string of ASCII digits: the decimal value, an error if it does
not fit (std; leading zeros allowed). -/
def i64FromStr (ds : List Char) : Option Int :=
  let v : Nat := ds.foldl (fun acc d => 10 * acc + (d.toNat - '0'.toNat)) 0
  if v ≤ 9223372036854775807 then some (v : Int) else none

/-- `integer` — src/parser/timetype.rs:13-21 (`str::from_utf8` cannot fail on digits). -/
def integer : P Int := alt [mapRes (ws digit) i64FromStr]

/-- `enum Unit` — src/parser/timetype.rs:51-60. -/
inductive TimeUnit where
  | second | minute | hour | day | week | month | year
deriving DecidableEq, Repr

/-- `unit_parser` — src/parser/timetype.rs:24-49. -/
def unitParser : P TimeUnit := altComplete [
  map (tok "seconds") fun _ => .second,
  map (tok "second") fun _ => .second,
  map (tok "secs") fun _ => .second,
  map (tok "sec") fun _ => .second,
  map (tok "s") fun _ => .second,
  map (tok "minutes") fun _ => .minute,
  map (tok "minute") fun _ => .minute,
  map (tok "mins") fun _ => .minute,
  map (tok "min") fun _ => .minute,
  map (tok "hours") fun _ => .hour,
  map (tok "hour") fun _ => .hour,
  map (tok "hrs") fun _ => .hour,
  map (tok "hr") fun _ => .hour,
  map (tok "days") fun _ => .day,
  map (tok "day") fun _ => .day,
  map (tok "d") fun _ => .day,
  map (tok "weeks") fun _ => .week,
  map (tok "week") fun _ => .week,
  map (tok "w") fun _ => .week,
  map (tok "months") fun _ => .month,
  map (tok "month") fun _ => .month,
  map (tok "years") fun _ => .year,
  map (tok "year") fun _ => .year,
  map (tok "yrs") fun _ => .year]

/-- `enum UnitAlias` — src/parser/timetype.rs:62-71. -/
inductive UnitAlias where
  | secondly | minutely | hourly | daily | weekly | monthly | yearly
deriving DecidableEq, Repr

/-- `impl Into<Unit> for UnitAlias` — src/parser/timetype.rs:73-85. -/
def UnitAlias.into : UnitAlias → TimeUnit
  | .secondly => .second
  | .minutely => .minute
  | .hourly => .hour
  | .daily => .day
  | .weekly => .week
  | .monthly => .month
  | .yearly => .year

/-- `enum Operator` — src/parser/timetype.rs:92-96. -/
inductive Operator where
  | plus | minus
deriving DecidableEq, Repr

/-- `operator_parser` — src/parser/timetype.rs:87-90. -/
def operatorParser : P Operator := alt [
  map (tok "+") fun _ => .plus,
  map (tok "-") fun _ => .minus]

/-- `unit_alias` — src/parser/timetype.rs:98-106. -/
def unitAlias : P UnitAlias := altComplete [
  map (tok "secondly") fun _ => .secondly,
  map (tok "minutely") fun _ => .minutely,
  map (tok "hourly") fun _ => .hourly,
  map (tok "daily") fun _ => .daily,
  map (tok "weekly") fun _ => .weekly,
  map (tok "monthly") fun _ => .monthly,
  map (tok "yearly") fun _ => .yearly]

/-- `struct Amount(i64, Unit)` — src/parser/timetype.rs:113-114. -/
structure Amount where
  number : Int
  unit : TimeUnit
deriving DecidableEq, Repr

/-- `amount_parser` — src/parser/timetype.rs:108-111. -/
def amountParser : P Amount := alt [
  bind integer fun number => bind unitParser fun unit => ret ⟨number, unit⟩,
  bind unitAlias fun unitalias => ret ⟨1, unitalias.into⟩]

/-- `Amount::into_timetype` — src/parser/timetype.rs:116-128. -/
def Amount.intoTimetype (c : Cfg) (a : Amount) : Out TT :=
  match a.unit with
  | .second => .ok (.seconds a.number)
  | .minute => .ok (.minutes a.number)
  | .hour => .ok (.hours a.number)
  | .day => .ok (.days a.number)
  | .week => TT.weeks c a.number
  | .month => .ok (.months a.number)
  | .year => .ok (.years a.number)

/-- `struct AmountExpr { amount, next }` — src/parser/timetype.rs:144-148. -/
inductive AmountExpr where
  | single (amount : Amount)
  | cons (amount : Amount) (op : Operator) (next : AmountExpr)
deriving DecidableEq, Repr

/-- The struct literal `AmountExpr { amount: amount, next: o }` — src/parser/timetype.rs:141. -/
def AmountExpr.mk (amount : Amount) : Option (Operator × AmountExpr) → AmountExpr
  | none => .single amount
  | some (op, next) => .cons amount op next

/-- `amount_expr_next` — src/parser/timetype.rs:130-135, given the recursive parser. -/
def amountExprNext (rec : P AmountExpr) : P (Operator × AmountExpr) :=
  bind operatorParser fun op =>
  bind (opt sp) fun _ =>
  bind rec fun amexp =>
  ret (op, amexp)

/-- Body of `amount_expr` — src/parser/timetype.rs:137-142, given the recursive parser. -/
def amountExprBody (rec : P AmountExpr) : P AmountExpr :=
  bind amountParser fun amount =>
  bind (opt sp) fun _ =>
  bind (opt (complete (amountExprNext rec))) fun o =>
  ret (AmountExpr.mk amount o)

/-- `amount_expr` — src/parser/timetype.rs:137-142, with a bound on the recursion depth. -/
def amountExprN : Nat → P AmountExpr
  | 0 => fun _ => .error
  | n + 1 => amountExprBody (amountExprN n)

/-- `amount_expr` — src/parser/timetype.rs:137-142. The recursion consumes input, so the input
length is enough depth: `Lemmas/Parser.lean`, `amountExpr_unfold`, proves
`amountExpr = amountExprBody amountExpr`. -/
def amountExpr : P AmountExpr := fun i => amountExprN (i.length + 1) i

/-- `AmountExpr::into_timetype` — src/parser/timetype.rs:150-163. -/
def AmountExpr.intoTimetype (c : Cfg) : AmountExpr → Out TT
  | .single a => a.intoTimetype c
  | .cons a .plus other => do
    let amount ← a.intoTimetype c
    .ok (amount + (← other.intoTimetype c))
  | .cons a .minus other => do
    let amount ← a.intoTimetype c
    .ok (amount - (← other.intoTimetype c))

/-- `iso8601::Date` (a dependency). -/
inductive IsoDate where
  | ymd (year month day : Int)
  | week (year ww d : Int)
  | ordinal (year ddd : Int)
deriving DecidableEq, Repr

/-- `iso8601::DateTime { date, time }`, with the fields of `time` that exist in the crate. -/
structure IsoDateTime where
  date : IsoDate
  hour : Int
  minute : Int
  second : Int
  millisecond : Int
  tzOffsetHours : Int
  tzOffsetMinutes : Int
deriving DecidableEq, Repr

/-- The two parsers of the `iso8601` crate (a dependency), left open. -/
structure Iso where
  parseDatetime : P IsoDateTime
  parseDate : P IsoDate

/-- `enum ExactDate` — src/parser/timetype.rs:177-184. -/
inductive ExactDate where
  | today
  | yesterday
  | tomorrow
  | iso8601Date (d : IsoDate)
  | iso8601DateTime (d : IsoDateTime)
deriving DecidableEq, Repr

/-- `exact_date_parser` — src/parser/timetype.rs:169-175. -/
def exactDateParser (iso : Iso) : P ExactDate := altComplete [
  map (tok "today") fun _ => .today,
  map (tok "yesterday") fun _ => .yesterday,
  map (tok "tomorrow") fun _ => .tomorrow,
  bind iso.parseDatetime fun d => ret (.iso8601DateTime d),
  bind iso.parseDate fun d => ret (.iso8601Date d)]

/-- `NaiveDate::from_ymd_opt(year, 1, 1) … .map(moment)` — src/parser/timetype.rs:199-202. -/
def newYear (c : Cfg) (year : Int) : Out TT := do
  let nd ← OutE.ofOption (fromYmdOpt c year 1 1) (ErrorKind.outOfBounds year 1 1 0 0 0)
  .ok (.moment (← nd.andHms 0 0 0))

/-- `ExactDate::into_timetype` — src/parser/timetype.rs:186-253. `now` is what the clock shows
(`TimeType::today`, src/timetype.rs:97-99). -/
def ExactDate.intoTimetype (c : Cfg) (now : Moment) : ExactDate → Out TT
  | .today => .ok (.moment now)
  | .yesterday => .ok (TT.moment now - TT.days 1)
  | .tomorrow => .ok (TT.moment now + TT.days 1)
  | .iso8601Date (.ymd year month day) => do
    let nd ← OutE.ofOption (fromYmdOpt c year month day) (.outOfBounds year month day 0 0 0)
    .ok (.moment (← nd.andHms 0 0 0))
  | .iso8601Date (.week year ww d) => do
    let m ← newYear c year
    .ok (m + (← TT.weeks c ww) + TT.days d)
  | .iso8601Date (.ordinal year ddd) => do
    let m ← newYear c year
    .ok (m + TT.days ddd)
  | .iso8601DateTime ⟨.ymd year month day, hour, minute, second, _, _, _⟩ =>
    (OutE.ofOption
      ((fromYmdOpt c year month day).bind (fun ndt => ndt.andHmsOpt hour minute second))
      (ErrorKind.outOfBounds year month day hour minute second)) >>= fun m => .ok (.moment m)
  | .iso8601DateTime ⟨.week year ww d, hour, minute, second, _, _, _⟩ => do
    let m ← newYear c year
    .ok (m + (← TT.weeks c ww) + TT.days d + TT.hours hour + TT.minutes minute + TT.seconds second)
  | .iso8601DateTime ⟨.ordinal year ddd, hour, minute, second, _, _, _⟩ => do
    let m ← newYear c year
    .ok (m + TT.days ddd + TT.hours hour + TT.minutes minute + TT.seconds second)

/-- `struct Date(ExactDate, Option<(Operator, AmountExpr)>)` — src/parser/timetype.rs:263-264. -/
structure PDate where
  exact : ExactDate
  offset : Option (Operator × AmountExpr)
deriving DecidableEq, Repr

/-- `date` — src/parser/timetype.rs:255-261. -/
def date (iso : Iso) : P PDate :=
  bind (exactDateParser iso) fun exact =>
  bind (opt (complete (
    bind sp fun _ =>
    bind operatorParser fun op =>
    bind sp fun _ =>
    bind amountExpr fun a =>
    ret (op, a)))) fun o =>
  ret ⟨exact, o⟩

/-- `Date::into_timetype` — src/parser/timetype.rs:266-275. -/
def PDate.intoTimetype (c : Cfg) (now : Moment) (d : PDate) : Out TT := do
  let base ← d.exact.intoTimetype c now
  match d.offset with
  | some (.plus, amount) => .ok (base + (← amount.intoTimetype c))
  | some (.minus, amount) => .ok (base - (← amount.intoTimetype c))
  | none => .ok base

/-- `enum TimeType` — src/parser/timetype.rs:277-281. -/
inductive PTimeType where
  | date (d : PDate)
  | amountExpr (a : AmountExpr)
deriving DecidableEq, Repr

/-- `TimeType::into_timetype` — src/parser/timetype.rs:283-290. -/
def PTimeType.intoTimetype (c : Cfg) (now : Moment) : PTimeType → Out TT
  | .date d => d.intoTimetype c now
  | .amountExpr a => a.intoTimetype c

/-- `timetype` — src/parser/timetype.rs:300-303. -/
def timetype (iso : Iso) : P PTimeType := alt [
  bind (date iso) fun d => ret (.date d),
  bind amountExpr fun a => ret (.amountExpr a)]

end Kairos.Parser
