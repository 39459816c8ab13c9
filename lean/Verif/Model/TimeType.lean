import Verif.Model.Util

/-!
# Model of `src/timetype.rs` (and the error type of `src/error.rs`)

The recursive functions of the evaluator are written as bodies that receive "the recursive call"
`R : Call → Out` as an argument; `run` ties the knot (with fuel) at the end of the file.
`Box`es and `.map(Box::new)` are dropped: they only move values.
-/

namespace Kairos

/-- `enum TimeType` — src/timetype.rs:22-40. -/
inductive TT where
  | seconds (i : Int)
  | minutes (i : Int)
  | hours (i : Int)
  | days (i : Int)
  | months (i : Int)
  | years (i : Int)
  | moment (m : Moment)
  | addition (a b : TT)
  | subtraction (a b : TT)
  | endOfYear (t : TT)
  | endOfMonth (t : TT)
  | endOfDay (t : TT)
  | endOfHour (t : TT)
  | endOfMinute (t : TT)
deriving DecidableEq, Repr

/-- `enum ErrorKind` — src/error.rs:3-42. `nomError` stands for the nom parse error that
`parser::parse` passes on (src/parser/mod.rs:73); its description is dropped. -/
inductive ErrorKind where
  | unknownError
  | cannotAdd (a b : TT)
  | cannotSub (a b : TT)
  | argumentErrorNotAnAmount (t : TT)
  | argumentErrorNotAMoment (name : String)
  | cannotCalculateEndOfYearOn (t : TT)
  | cannotCalculateEndOfMonthOn (t : TT)
  | cannotCompareDayTo (name : String)
  | cannotCompareMonthTo (name : String)
  | outOfBounds (y mo d h mi s : Int)
  | notADateInsideIterator
  | unknownParserError
  | nomError
deriving DecidableEq, Repr

/-- Outcome of a fallible call of the library: `Result<T>` (src/timetype.rs:8), or a panic. -/
abbrev Out (α : Type) := OutE ErrorKind α

namespace TT

/-- `impl Add` — src/timetype.rs:42-48 (and `AddAssign`, 50-54: the same value). -/
protected def add (a b : TT) : TT := .addition a b
/-- `impl Sub` — src/timetype.rs:56-62 (and `SubAssign`, 64-68). -/
protected def sub (a b : TT) : TT := .subtraction a b

instance : Add TT := ⟨TT.add⟩
instance : Sub TT := ⟨TT.sub⟩

/-- `is_a_amount` — src/timetype.rs:101-111. -/
def isAAmount : TT → Bool
  | .seconds _ | .minutes _ | .hours _ | .days _ | .months _ | .years _ => true
  | _ => false

/-- `is_moment` — src/timetype.rs:113-118. -/
def isMoment : TT → Bool
  | .moment _ => true
  | _ => false

/-- `is_addition` — src/timetype.rs:120-125. -/
def isAddition : TT → Bool
  | .addition _ _ => true
  | _ => false

/-- `is_subtraction` — src/timetype.rs:127-132. -/
def isSubtraction : TT → Bool
  | .subtraction _ _ => true
  | _ => false

/-- `weeks(i)` = `Days(i * 7)` — src/timetype.rs:151-153. The multiplication can overflow.
(`seconds`, `minutes`, `hours`, `days`, `months`, `years`, `moment`, 134-165, and
`end_of_*`, 176-226, are the constructors themselves.) -/
def weeks (c : Cfg) (i : Int) : Out TT := do .ok (.days (← c.mul i 7))

/-- `get_seconds` — src/timetype.rs:242-252. -/
def getSeconds (c : Cfg) : TT → Out Int
  | .seconds d => .ok d
  | .minutes d => c.mulL d [60]
  | .hours d => c.mulL d [60, 60]
  | .days d => c.mulL d [60, 60, 24]
  | .months d => c.mulL d [60, 60, 24, 30]
  | .years d => c.mulL d [60, 60, 24, 30, 12]
  | _ => .ok 0

/-- `get_minutes` — src/timetype.rs:268-278. -/
def getMinutes (c : Cfg) : TT → Out Int
  | .seconds d => .ok (d.tdiv 60)
  | .minutes d => .ok d
  | .hours d => c.mulL d [60]
  | .days d => c.mulL d [60, 24]
  | .months d => c.mulL d [60, 24, 30]
  | .years d => c.mulL d [60, 24, 30, 12]
  | _ => .ok 0

/-- `get_hours` — src/timetype.rs:294-304. -/
def getHours (c : Cfg) : TT → Out Int
  | .seconds d => .ok ((d.tdiv 60).tdiv 60)
  | .minutes d => .ok (d.tdiv 60)
  | .hours d => .ok d
  | .days d => c.mulL d [24]
  | .months d => c.mulL d [24, 30]
  | .years d => c.mulL d [24, 30, 12]
  | _ => .ok 0

/-- `get_days` — src/timetype.rs:320-330. -/
def getDays (c : Cfg) : TT → Out Int
  | .seconds d => .ok (((d.tdiv 24).tdiv 60).tdiv 60)
  | .minutes d => .ok ((d.tdiv 24).tdiv 60)
  | .hours d => .ok (d.tdiv 24)
  | .days d => .ok d
  | .months d => c.mulL d [30]
  | .years d => c.mulL d [30, 12]
  | _ => .ok 0

/-- `get_months` — src/timetype.rs:346-356. -/
def getMonths (c : Cfg) : TT → Out Int
  | .seconds d => .ok ((((d.tdiv 30).tdiv 24).tdiv 60).tdiv 60)
  | .minutes d => .ok (((d.tdiv 30).tdiv 24).tdiv 60)
  | .hours d => .ok ((d.tdiv 30).tdiv 24)
  | .days d => .ok (d.tdiv 30)
  | .months d => .ok d
  | .years d => c.mulL d [12]
  | _ => .ok 0

/-- `get_years` — src/timetype.rs:372-382. -/
def getYears (_c : Cfg) : TT → Out Int
  | .seconds d => .ok (((((d.tdiv 12).tdiv 30).tdiv 24).tdiv 60).tdiv 60)
  | .minutes d => .ok ((((d.tdiv 12).tdiv 30).tdiv 24).tdiv 60)
  | .hours d => .ok (((d.tdiv 12).tdiv 30).tdiv 24)
  | .days d => .ok ((d.tdiv 12).tdiv 30)
  | .months d => .ok (d.tdiv 12)
  | .years d => .ok d
  | _ => .ok 0

/-- `get_moment` — src/timetype.rs:384-389. -/
def getMoment : TT → Option Moment
  | .moment m => some m
  | _ => none

/-- `name` — src/timetype.rs:414-433. -/
def name : TT → String
  | .addition .. => "Addition"
  | .days .. => "Days"
  | .endOfDay .. => "EndOfDay"
  | .endOfHour .. => "EndOfHour"
  | .endOfMinute .. => "EndOfMinute"
  | .endOfMonth .. => "EndOfMonth"
  | .endOfYear .. => "EndOfYear"
  | .hours .. => "Hours"
  | .minutes .. => "Minutes"
  | .moment .. => "Moment"
  | .months .. => "Months"
  | .seconds .. => "Seconds"
  | .subtraction .. => "Subtraction"
  | .years .. => "Years"

end TT

/-- Which of the five end-of markers (an index for `end_of_year` … `end_of_minute`, src/timetype.rs:473-616). -/
inductive EndKind where
  | year | month | day | hour | minute
deriving DecidableEq, Repr

/-- Which of the six amount units (an index for `add_to_seconds` … `sub_from_years`, src/timetype.rs:664-788, 945-1069). -/
inductive AmtUnit where
  | seconds | minutes | hours | days | months | years
deriving DecidableEq, Repr

/-- The mutually recursive calls of the evaluator: `do_calculate`, `end_of_*`, `add`, `add_to_*`, `sub`, `sub_from_*` — src/timetype.rs:454-1180. -/
inductive Call where
  | calculate (t : TT)
  | endOf (k : EndKind) (t : TT)
  | add (a b : TT)
  | sub (a b : TT)
  | addTo (u : AmtUnit) (amount : Int) (t : TT)
  | subFrom (u : AmtUnit) (amount : Int) (t : TT)
  | addToMoment (mom : Moment) (t : TT)
  | subFromMoment (mom : Moment) (t : TT)

namespace Eval

/-- `do_calculate` — src/timetype.rs:454-467. -/
def doCalculate (R : Call → Out TT) (tt : TT) : Out TT :=
  match tt with
  | .addition a b => R (.add a b)
  | .subtraction a b => R (.sub a b)
  | .endOfYear inner => R (.endOf .year inner)
  | .endOfMonth inner => R (.endOf .month inner)
  | .endOfDay inner => R (.endOf .day inner)
  | .endOfHour inner => R (.endOf .hour inner)
  | .endOfMinute inner => R (.endOf .minute inner)
  | x => .ok x

/-- `end_of_year` — src/timetype.rs:473-497. -/
def endOfYear (c : Cfg) (R : Call → Out TT) (tt : TT) : Out TT := do
  match (← R (.calculate tt)) with
  | .seconds a => .err (.cannotCalculateEndOfYearOn (.seconds a))
  | .minutes a => .err (.cannotCalculateEndOfYearOn (.minutes a))
  | .hours a => .err (.cannotCalculateEndOfYearOn (.hours a))
  | .days a => .err (.cannotCalculateEndOfYearOn (.days a))
  | .months a => .err (.cannotCalculateEndOfYearOn (.months a))
  | .years a => .err (.cannotCalculateEndOfYearOn (.years a))
  | .addition a b => .err (.cannotCalculateEndOfYearOn (.addition a b))
  | .subtraction a b => .err (.cannotCalculateEndOfYearOn (.subtraction a b))
  | .moment m =>
    match fromYmdOpt c m.year 12 31 with
    | some nd => do .ok (.moment (← nd.andHms 0 0 0))
    | none => .err (.outOfBounds m.year 12 31 0 0 0)
  | .endOfYear e => R (.calculate e)
  | .endOfMonth e => R (.calculate e)
  | .endOfDay e => R (.calculate e)
  | .endOfHour e => R (.calculate e)
  | .endOfMinute e => R (.calculate e)

/-- `end_of_month` — src/timetype.rs:503-529. -/
def endOfMonth (c : Cfg) (R : Call → Out TT) (tt : TT) : Out TT := do
  match (← R (.calculate tt)) with
  | .seconds a => .err (.cannotCalculateEndOfMonthOn (.seconds a))
  | .minutes a => .err (.cannotCalculateEndOfMonthOn (.minutes a))
  | .hours a => .err (.cannotCalculateEndOfMonthOn (.hours a))
  | .days a => .err (.cannotCalculateEndOfMonthOn (.days a))
  | .months a => .err (.cannotCalculateEndOfMonthOn (.months a))
  | .years a => .err (.cannotCalculateEndOfMonthOn (.years a))
  | .addition a b => .err (.cannotCalculateEndOfMonthOn (.addition a b))
  | .subtraction a b => .err (.cannotCalculateEndOfMonthOn (.subtraction a b))
  | .moment m =>
    let lastDay := asU32 (getNumOfDaysInMonth m.year m.month)
    match fromYmdOpt c m.year m.month lastDay with
    | some nd => do .ok (.moment (← nd.andHms 0 0 0))
    | none => .err (.outOfBounds m.year m.month lastDay 0 0 0)
  | .endOfYear e => R (.calculate e)
  | .endOfMonth e => R (.calculate e)
  | .endOfDay e => R (.calculate e)
  | .endOfHour e => R (.calculate e)
  | .endOfMinute e => R (.calculate e)

/-- `end_of_day` — src/timetype.rs:535-558. The error kind for amounts really is the end-of-*month* one. -/
def endOfDay (c : Cfg) (R : Call → Out TT) (tt : TT) : Out TT := do
  match (← R (.calculate tt)) with
  | .seconds a => .err (.cannotCalculateEndOfMonthOn (.seconds a))
  | .minutes a => .err (.cannotCalculateEndOfMonthOn (.minutes a))
  | .hours a => .err (.cannotCalculateEndOfMonthOn (.hours a))
  | .days a => .err (.cannotCalculateEndOfMonthOn (.days a))
  | .months a => .err (.cannotCalculateEndOfMonthOn (.months a))
  | .years a => .err (.cannotCalculateEndOfMonthOn (.years a))
  | .addition a b => .err (.cannotCalculateEndOfMonthOn (.addition a b))
  | .subtraction a b => .err (.cannotCalculateEndOfMonthOn (.subtraction a b))
  | .moment m =>
    match fromYmdOpt c m.year m.month m.day with
    | some nd => do .ok (.moment (← nd.andHms 23 59 59))
    | none => .err (.outOfBounds m.year m.month m.day 23 59 59)
  | .endOfYear e => R (.calculate e)
  | .endOfMonth e => R (.calculate e)
  | .endOfDay e => R (.calculate e)
  | .endOfHour e => R (.calculate e)
  | .endOfMinute e => R (.calculate e)

/-- `end_of_hour` — src/timetype.rs:564-587. The error kind for amounts really is the end-of-*month* one. -/
def endOfHour (c : Cfg) (R : Call → Out TT) (tt : TT) : Out TT := do
  match (← R (.calculate tt)) with
  | .seconds a => .err (.cannotCalculateEndOfMonthOn (.seconds a))
  | .minutes a => .err (.cannotCalculateEndOfMonthOn (.minutes a))
  | .hours a => .err (.cannotCalculateEndOfMonthOn (.hours a))
  | .days a => .err (.cannotCalculateEndOfMonthOn (.days a))
  | .months a => .err (.cannotCalculateEndOfMonthOn (.months a))
  | .years a => .err (.cannotCalculateEndOfMonthOn (.years a))
  | .addition a b => .err (.cannotCalculateEndOfMonthOn (.addition a b))
  | .subtraction a b => .err (.cannotCalculateEndOfMonthOn (.subtraction a b))
  | .moment m =>
    match (fromYmdOpt c m.year m.month m.day).bind (fun nd => nd.andHmsOpt m.hour 59 59) with
    | some r => .ok (.moment r)
    | none => .err (.outOfBounds m.year m.month m.day m.hour 59 59)
  | .endOfYear e => R (.calculate e)
  | .endOfMonth e => R (.calculate e)
  | .endOfDay e => R (.calculate e)
  | .endOfHour e => R (.calculate e)
  | .endOfMinute e => R (.calculate e)

/-- `end_of_minute` — src/timetype.rs:593-616. The error kind for amounts really is the end-of-*month* one. -/
def endOfMinute (c : Cfg) (R : Call → Out TT) (tt : TT) : Out TT := do
  match (← R (.calculate tt)) with
  | .seconds a => .err (.cannotCalculateEndOfMonthOn (.seconds a))
  | .minutes a => .err (.cannotCalculateEndOfMonthOn (.minutes a))
  | .hours a => .err (.cannotCalculateEndOfMonthOn (.hours a))
  | .days a => .err (.cannotCalculateEndOfMonthOn (.days a))
  | .months a => .err (.cannotCalculateEndOfMonthOn (.months a))
  | .years a => .err (.cannotCalculateEndOfMonthOn (.years a))
  | .addition a b => .err (.cannotCalculateEndOfMonthOn (.addition a b))
  | .subtraction a b => .err (.cannotCalculateEndOfMonthOn (.subtraction a b))
  | .moment m =>
    match (fromYmdOpt c m.year m.month m.day).bind (fun nd => nd.andHmsOpt m.hour m.minute 59) with
    | some r => .ok (.moment r)
    | none => .err (.outOfBounds m.year m.month m.day m.hour m.minute 59)
  | .endOfYear e => R (.calculate e)
  | .endOfMonth e => R (.calculate e)
  | .endOfDay e => R (.calculate e)
  | .endOfHour e => R (.calculate e)
  | .endOfMinute e => R (.calculate e)

/-- `add` — src/timetype.rs:618-662, arms in source order. -/
def add (R : Call → Out TT) (a b : TT) : Out TT :=
  match a, b with
  | .moment mom, thing => R (.addToMoment mom thing)
  | thing, .moment mom => .err (.cannotAdd thing (.moment mom))

  | .seconds a, other => R (.addTo .seconds a other)
  | .minutes a, other => R (.addTo .minutes a other)
  | .hours a, other => R (.addTo .hours a other)
  | .days a, other => R (.addTo .days a other)
  | .months a, other => R (.addTo .months a other)
  | .years a, other => R (.addTo .years a other)

  | .addition a b, other => do
    let bx ← R (.add a b)
    R (.add bx other)
  | other, .addition a b => do
    let bx ← R (.add a b)
    R (.add other bx)
  | .subtraction a b, other => do
    let bx ← R (.sub a b)
    R (.add other bx)
  | other, .subtraction a b => do
    let bx ← R (.calculate a)
    let rx ← R (.add other bx)
    R (.sub rx b)

  | .endOfYear e, other => .err (.cannotAdd other (.endOfYear e))
  | other, .endOfYear e => .err (.cannotAdd other (.endOfYear e))
  | .endOfMonth e, other => .err (.cannotAdd other (.endOfMonth e))
  | other, .endOfMonth e => .err (.cannotAdd other (.endOfMonth e))
  | .endOfDay e, other => .err (.cannotAdd other (.endOfDay e))
  | other, .endOfDay e => .err (.cannotAdd other (.endOfDay e))
  | .endOfHour e, other => .err (.cannotAdd other (.endOfHour e))
  | other, .endOfHour e => .err (.cannotAdd other (.endOfHour e))
  | .endOfMinute e, other => .err (.cannotAdd other (.endOfMinute e))

/-- `sub` — src/timetype.rs:901-943, arms in source order. -/
def sub (R : Call → Out TT) (a b : TT) : Out TT :=
  match a, b with
  | .moment mom, thing => R (.subFromMoment mom thing)
  | .seconds a, other => R (.subFrom .seconds a other)
  | .minutes a, other => R (.subFrom .minutes a other)
  | .hours a, other => R (.subFrom .hours a other)
  | .days a, other => R (.subFrom .days a other)
  | .months a, other => R (.subFrom .months a other)
  | .years a, other => R (.subFrom .years a other)

  | .subtraction a b, other => do
    let bx ← R (.sub a b)
    R (.sub bx other)
  | other, .subtraction a b => do
    let bx ← R (.sub a b)
    R (.sub other bx)
  | .addition a b, other => do
    let bx ← R (.add a b)
    R (.sub bx other)
  | other, .addition a b => do
    let bx ← R (.calculate a)
    let rx ← R (.sub other bx)
    R (.add rx b)

  | .endOfYear e, other => .err (.cannotSub other (.endOfYear e))
  | other, .endOfYear e => .err (.cannotSub other (.endOfYear e))
  | .endOfMonth e, other => .err (.cannotSub other (.endOfMonth e))
  | other, .endOfMonth e => .err (.cannotSub other (.endOfMonth e))
  | .endOfDay e, other => .err (.cannotSub other (.endOfDay e))
  | other, .endOfDay e => .err (.cannotSub other (.endOfDay e))
  | .endOfHour e, other => .err (.cannotSub other (.endOfHour e))
  | other, .endOfHour e => .err (.cannotSub other (.endOfHour e))
  | .endOfMinute e, other => .err (.cannotSub other (.endOfMinute e))

/-- `add_to_seconds` — src/timetype.rs:664-683. -/
def addToSeconds (c : Cfg) (R : Call → Out TT) (amount : Int) (tt : TT) : Out TT :=
  match tt with
  | .seconds a => do let r ← c.add a amount; .ok (.seconds r)
  | .minutes a => do let p ← c.mulL a [60]; let r ← c.add p amount; .ok (.seconds r)
  | .hours a => do let p ← c.mulL a [60, 60]; let r ← c.add p amount; .ok (.seconds r)
  | .days a => do let p ← c.mulL a [60, 60, 24]; let r ← c.add p amount; .ok (.seconds r)
  | .months a => do let p ← c.mulL a [60, 60, 24, 30]; let r ← c.add p amount; .ok (.seconds r)
  | .years a => do let p ← c.mulL a [60, 60, 24, 30, 12]; let r ← c.add p amount; .ok (.seconds r)
  | .moment e => .err (.cannotAdd (.seconds amount) (.moment e))
  | .endOfYear e => .err (.cannotAdd (.seconds amount) (.endOfYear e))
  | .endOfMonth e => .err (.cannotAdd (.seconds amount) (.endOfMonth e))
  | .endOfDay e => .err (.cannotAdd (.seconds amount) (.endOfDay e))
  | .endOfHour e => .err (.cannotAdd (.seconds amount) (.endOfHour e))
  | .endOfMinute e => .err (.cannotAdd (.seconds amount) (.endOfMinute e))
  | .addition b c' => do let r ← R (.add b c'); R (.addTo .seconds amount r)
  | .subtraction b c' => do let r ← R (.sub b c'); R (.addTo .seconds amount r)

/-- `add_to_minutes` — src/timetype.rs:685-704. -/
def addToMinutes (c : Cfg) (R : Call → Out TT) (amount : Int) (tt : TT) : Out TT :=
  match tt with
  | .seconds a => do let q ← c.mulL amount [60]; let r ← c.add a q; .ok (.seconds r)
  | .minutes a => do let r ← c.add a amount; .ok (.minutes r)
  | .hours a => do let p ← c.mulL a [60]; let r ← c.add p amount; .ok (.minutes r)
  | .days a => do let p ← c.mulL a [60, 24]; let r ← c.add p amount; .ok (.minutes r)
  | .months a => do let p ← c.mulL a [60, 24, 30]; let r ← c.add p amount; .ok (.minutes r)
  | .years a => do let p ← c.mulL a [60, 24, 30, 12]; let r ← c.add p amount; .ok (.minutes r)
  | .moment e => .err (.cannotAdd (.minutes amount) (.moment e))
  | .endOfYear e => .err (.cannotAdd (.minutes amount) (.endOfYear e))
  | .endOfMonth e => .err (.cannotAdd (.minutes amount) (.endOfMonth e))
  | .endOfDay e => .err (.cannotAdd (.minutes amount) (.endOfDay e))
  | .endOfHour e => .err (.cannotAdd (.minutes amount) (.endOfHour e))
  | .endOfMinute e => .err (.cannotAdd (.minutes amount) (.endOfMinute e))
  | .addition b c' => do let r ← R (.add b c'); R (.addTo .minutes amount r)
  | .subtraction b c' => do let r ← R (.sub b c'); R (.addTo .minutes amount r)

/-- `add_to_hours` — src/timetype.rs:706-725. -/
def addToHours (c : Cfg) (R : Call → Out TT) (amount : Int) (tt : TT) : Out TT :=
  match tt with
  | .seconds a => do let q ← c.mulL amount [60, 60]; let r ← c.add a q; .ok (.seconds r)
  | .minutes a => do let q ← c.mulL amount [60]; let r ← c.add a q; .ok (.minutes r)
  | .hours a => do let r ← c.add a amount; .ok (.hours r)
  | .days a => do let p ← c.mulL a [24]; let r ← c.add p amount; .ok (.hours r)
  | .months a => do let p ← c.mulL a [24, 30]; let r ← c.add p amount; .ok (.hours r)
  | .years a => do let p ← c.mulL a [24, 30, 12]; let r ← c.add p amount; .ok (.hours r)
  | .moment e => .err (.cannotAdd (.hours amount) (.moment e))
  | .endOfYear e => .err (.cannotAdd (.hours amount) (.endOfYear e))
  | .endOfMonth e => .err (.cannotAdd (.hours amount) (.endOfMonth e))
  | .endOfDay e => .err (.cannotAdd (.hours amount) (.endOfDay e))
  | .endOfHour e => .err (.cannotAdd (.hours amount) (.endOfHour e))
  | .endOfMinute e => .err (.cannotAdd (.hours amount) (.endOfMinute e))
  | .addition b c' => do let r ← R (.add b c'); R (.addTo .hours amount r)
  | .subtraction b c' => do let r ← R (.sub b c'); R (.addTo .hours amount r)

/-- `add_to_days` — src/timetype.rs:727-746. -/
def addToDays (c : Cfg) (R : Call → Out TT) (amount : Int) (tt : TT) : Out TT :=
  match tt with
  | .seconds a => do let q ← c.mulL amount [24, 60, 60]; let r ← c.add a q; .ok (.seconds r)
  | .minutes a => do let q ← c.mulL amount [24, 60]; let r ← c.add a q; .ok (.minutes r)
  | .hours a => do let q ← c.mulL amount [24]; let r ← c.add a q; .ok (.hours r)
  | .days a => do let r ← c.add a amount; .ok (.days r)
  | .months a => do let p ← c.mulL a [30]; let r ← c.add p amount; .ok (.days r)
  | .years a => do let p ← c.mulL a [30, 12]; let r ← c.add p amount; .ok (.days r)
  | .moment e => .err (.cannotAdd (.days amount) (.moment e))
  | .endOfYear e => .err (.cannotAdd (.days amount) (.endOfYear e))
  | .endOfMonth e => .err (.cannotAdd (.days amount) (.endOfMonth e))
  | .endOfDay e => .err (.cannotAdd (.days amount) (.endOfDay e))
  | .endOfHour e => .err (.cannotAdd (.days amount) (.endOfHour e))
  | .endOfMinute e => .err (.cannotAdd (.days amount) (.endOfMinute e))
  | .addition b c' => do let r ← R (.add b c'); R (.addTo .days amount r)
  | .subtraction b c' => do let r ← R (.sub b c'); R (.addTo .days amount r)

/-- `add_to_months` — src/timetype.rs:748-767. -/
def addToMonths (c : Cfg) (R : Call → Out TT) (amount : Int) (tt : TT) : Out TT :=
  match tt with
  | .seconds a => do let q ← c.mulL amount [30, 24, 60, 60]; let r ← c.add a q; .ok (.seconds r)
  | .minutes a => do let q ← c.mulL amount [30, 24, 60]; let r ← c.add a q; .ok (.minutes r)
  | .hours a => do let q ← c.mulL amount [30, 24]; let r ← c.add a q; .ok (.hours r)
  | .days a => do let q ← c.mulL amount [30]; let r ← c.add a q; .ok (.days r)
  | .months a => do let r ← c.add a amount; .ok (.months r)
  | .years a => do let p ← c.mulL a [12]; let r ← c.add p amount; .ok (.months r)
  | .moment e => .err (.cannotAdd (.months amount) (.moment e))
  | .endOfYear e => .err (.cannotAdd (.months amount) (.endOfYear e))
  | .endOfMonth e => .err (.cannotAdd (.months amount) (.endOfMonth e))
  | .endOfDay e => .err (.cannotAdd (.months amount) (.endOfDay e))
  | .endOfHour e => .err (.cannotAdd (.months amount) (.endOfHour e))
  | .endOfMinute e => .err (.cannotAdd (.months amount) (.endOfMinute e))
  | .addition b c' => do let r ← R (.add b c'); R (.addTo .months amount r)
  | .subtraction b c' => do let r ← R (.sub b c'); R (.addTo .months amount r)

/-- `add_to_years` — src/timetype.rs:769-788. -/
def addToYears (c : Cfg) (R : Call → Out TT) (amount : Int) (tt : TT) : Out TT :=
  match tt with
  | .seconds a => do let q ← c.mulL amount [12, 30, 24, 60, 60]; let r ← c.add a q; .ok (.seconds r)
  | .minutes a => do let q ← c.mulL amount [12, 30, 24, 60]; let r ← c.add a q; .ok (.minutes r)
  | .hours a => do let q ← c.mulL amount [12, 30, 24]; let r ← c.add a q; .ok (.hours r)
  | .days a => do let q ← c.mulL amount [12, 30]; let r ← c.add a q; .ok (.days r)
  | .months a => do let q ← c.mulL amount [12]; let r ← c.add a q; .ok (.months r)
  | .years a => do let r ← c.add a amount; .ok (.years r)
  | .moment e => .err (.cannotAdd (.years amount) (.moment e))
  | .endOfYear e => .err (.cannotAdd (.years amount) (.endOfYear e))
  | .endOfMonth e => .err (.cannotAdd (.years amount) (.endOfMonth e))
  | .endOfDay e => .err (.cannotAdd (.years amount) (.endOfDay e))
  | .endOfHour e => .err (.cannotAdd (.years amount) (.endOfHour e))
  | .endOfMinute e => .err (.cannotAdd (.years amount) (.endOfMinute e))
  | .addition b c' => do let r ← R (.add b c'); R (.addTo .years amount r)
  | .subtraction b c' => do let r ← R (.sub b c'); R (.addTo .years amount r)

/-- `sub_from_seconds` — src/timetype.rs:945-964. -/
def subFromSeconds (c : Cfg) (R : Call → Out TT) (amount : Int) (tt : TT) : Out TT :=
  match tt with
  | .seconds a => do let r ← c.sub amount a; .ok (.seconds r)
  | .minutes a => do let q ← c.mulL a [60]; let r ← c.sub amount q; .ok (.seconds r)
  | .hours a => do let q ← c.mulL a [60, 60]; let r ← c.sub amount q; .ok (.seconds r)
  | .days a => do let q ← c.mulL a [60, 60, 24]; let r ← c.sub amount q; .ok (.seconds r)
  | .months a => do let q ← c.mulL a [60, 60, 24, 30]; let r ← c.sub amount q; .ok (.seconds r)
  | .years a => do let q ← c.mulL a [60, 60, 24, 30, 12]; let r ← c.sub amount q; .ok (.seconds r)
  | .moment e => .err (.cannotSub (.seconds amount) (.moment e))
  | .endOfYear e => .err (.cannotSub (.seconds amount) (.endOfYear e))
  | .endOfMonth e => .err (.cannotSub (.seconds amount) (.endOfMonth e))
  | .endOfDay e => .err (.cannotSub (.seconds amount) (.endOfDay e))
  | .endOfHour e => .err (.cannotSub (.seconds amount) (.endOfHour e))
  | .endOfMinute e => .err (.cannotSub (.seconds amount) (.endOfMinute e))
  | .addition b c' => do let r ← R (.add b c'); R (.subFrom .seconds amount r)
  | .subtraction b c' => do let r ← R (.sub b c'); R (.subFrom .seconds amount r)

/-- `sub_from_minutes` — src/timetype.rs:966-985. -/
def subFromMinutes (c : Cfg) (R : Call → Out TT) (amount : Int) (tt : TT) : Out TT :=
  match tt with
  | .seconds a => do let p ← c.mulL amount [60]; let r ← c.sub p a; .ok (.seconds r)
  | .minutes a => do let r ← c.sub amount a; .ok (.minutes r)
  | .hours a => do let q ← c.mulL a [60]; let r ← c.sub amount q; .ok (.minutes r)
  | .days a => do let q ← c.mulL a [60, 24]; let r ← c.sub amount q; .ok (.minutes r)
  | .months a => do let q ← c.mulL a [60, 24, 30]; let r ← c.sub amount q; .ok (.minutes r)
  | .years a => do let q ← c.mulL a [60, 24, 30, 12]; let r ← c.sub amount q; .ok (.minutes r)
  | .moment e => .err (.cannotSub (.minutes amount) (.moment e))
  | .endOfYear e => .err (.cannotSub (.minutes amount) (.endOfYear e))
  | .endOfMonth e => .err (.cannotSub (.minutes amount) (.endOfMonth e))
  | .endOfDay e => .err (.cannotSub (.minutes amount) (.endOfDay e))
  | .endOfHour e => .err (.cannotSub (.minutes amount) (.endOfHour e))
  | .endOfMinute e => .err (.cannotSub (.minutes amount) (.endOfMinute e))
  | .addition b c' => do let r ← R (.add b c'); R (.subFrom .minutes amount r)
  | .subtraction b c' => do let r ← R (.sub b c'); R (.subFrom .minutes amount r)

/-- `sub_from_hours` — src/timetype.rs:987-1006. -/
def subFromHours (c : Cfg) (R : Call → Out TT) (amount : Int) (tt : TT) : Out TT :=
  match tt with
  | .seconds a => do let p ← c.mulL amount [60, 60]; let r ← c.sub p a; .ok (.seconds r)
  | .minutes a => do let p ← c.mulL amount [60]; let r ← c.sub p a; .ok (.minutes r)
  | .hours a => do let r ← c.sub amount a; .ok (.hours r)
  | .days a => do let q ← c.mulL a [24]; let r ← c.sub amount q; .ok (.hours r)
  | .months a => do let q ← c.mulL a [24, 30]; let r ← c.sub amount q; .ok (.hours r)
  | .years a => do let q ← c.mulL a [24, 30, 12]; let r ← c.sub amount q; .ok (.hours r)
  | .moment e => .err (.cannotSub (.hours amount) (.moment e))
  | .endOfYear e => .err (.cannotSub (.hours amount) (.endOfYear e))
  | .endOfMonth e => .err (.cannotSub (.hours amount) (.endOfMonth e))
  | .endOfDay e => .err (.cannotSub (.hours amount) (.endOfDay e))
  | .endOfHour e => .err (.cannotSub (.hours amount) (.endOfHour e))
  | .endOfMinute e => .err (.cannotSub (.hours amount) (.endOfMinute e))
  | .addition b c' => do let r ← R (.add b c'); R (.subFrom .hours amount r)
  | .subtraction b c' => do let r ← R (.sub b c'); R (.subFrom .hours amount r)

/-- `sub_from_days` — src/timetype.rs:1008-1027. -/
def subFromDays (c : Cfg) (R : Call → Out TT) (amount : Int) (tt : TT) : Out TT :=
  match tt with
  | .seconds a => do let p ← c.mulL amount [24, 60, 60]; let r ← c.sub p a; .ok (.seconds r)
  | .minutes a => do let p ← c.mulL amount [24, 60]; let r ← c.sub p a; .ok (.minutes r)
  | .hours a => do let p ← c.mulL amount [24]; let r ← c.sub p a; .ok (.hours r)
  | .days a => do let r ← c.sub amount a; .ok (.days r)
  | .months a => do let q ← c.mulL a [30]; let r ← c.sub amount q; .ok (.days r)
  | .years a => do let q ← c.mulL a [30, 12]; let r ← c.sub amount q; .ok (.days r)
  | .moment e => .err (.cannotSub (.days amount) (.moment e))
  | .endOfYear e => .err (.cannotSub (.days amount) (.endOfYear e))
  | .endOfMonth e => .err (.cannotSub (.days amount) (.endOfMonth e))
  | .endOfDay e => .err (.cannotSub (.days amount) (.endOfDay e))
  | .endOfHour e => .err (.cannotSub (.days amount) (.endOfHour e))
  | .endOfMinute e => .err (.cannotSub (.days amount) (.endOfMinute e))
  | .addition b c' => do let r ← R (.add b c'); R (.subFrom .days amount r)
  | .subtraction b c' => do let r ← R (.sub b c'); R (.subFrom .days amount r)

/-- `sub_from_months` — src/timetype.rs:1029-1048. -/
def subFromMonths (c : Cfg) (R : Call → Out TT) (amount : Int) (tt : TT) : Out TT :=
  match tt with
  | .seconds a => do let p ← c.mulL amount [30, 24, 60, 60]; let r ← c.sub p a; .ok (.seconds r)
  | .minutes a => do let p ← c.mulL amount [30, 24, 60]; let r ← c.sub p a; .ok (.minutes r)
  | .hours a => do let p ← c.mulL amount [30, 24]; let r ← c.sub p a; .ok (.hours r)
  | .days a => do let p ← c.mulL amount [30]; let r ← c.sub p a; .ok (.days r)
  | .months a => do let r ← c.sub amount a; .ok (.months r)
  | .years a => do let q ← c.mulL a [12]; let r ← c.sub amount q; .ok (.months r)
  | .moment e => .err (.cannotSub (.months amount) (.moment e))
  | .endOfYear e => .err (.cannotSub (.months amount) (.endOfYear e))
  | .endOfMonth e => .err (.cannotSub (.months amount) (.endOfMonth e))
  | .endOfDay e => .err (.cannotSub (.months amount) (.endOfDay e))
  | .endOfHour e => .err (.cannotSub (.months amount) (.endOfHour e))
  | .endOfMinute e => .err (.cannotSub (.months amount) (.endOfMinute e))
  | .addition b c' => do let r ← R (.add b c'); R (.subFrom .months amount r)
  | .subtraction b c' => do let r ← R (.sub b c'); R (.subFrom .months amount r)

/-- `sub_from_years` — src/timetype.rs:1050-1069. -/
def subFromYears (c : Cfg) (R : Call → Out TT) (amount : Int) (tt : TT) : Out TT :=
  match tt with
  | .seconds a => do let p ← c.mulL amount [12, 30, 24, 60, 60]; let r ← c.sub p a; .ok (.seconds r)
  | .minutes a => do let p ← c.mulL amount [12, 30, 24, 60]; let r ← c.sub p a; .ok (.minutes r)
  | .hours a => do let p ← c.mulL amount [12, 30, 24]; let r ← c.sub p a; .ok (.hours r)
  | .days a => do let p ← c.mulL amount [12, 30]; let r ← c.sub p a; .ok (.days r)
  | .months a => do let p ← c.mulL amount [12]; let r ← c.sub p a; .ok (.months r)
  | .years a => do let r ← c.sub amount a; .ok (.years r)
  | .moment e => .err (.cannotSub (.years amount) (.moment e))
  | .endOfYear e => .err (.cannotSub (.years amount) (.endOfYear e))
  | .endOfMonth e => .err (.cannotSub (.years amount) (.endOfMonth e))
  | .endOfDay e => .err (.cannotSub (.years amount) (.endOfDay e))
  | .endOfHour e => .err (.cannotSub (.years amount) (.endOfHour e))
  | .endOfMinute e => .err (.cannotSub (.years amount) (.endOfMinute e))
  | .addition b c' => do let r ← R (.add b c'); R (.subFrom .years amount r)
  | .subtraction b c' => do let r ← R (.sub b c'); R (.subFrom .years amount r)

/-- The tail shared by all amount arms of `add_to_moment` and `sub_from_moment`
(src/timetype.rs:804-808 and its eleven copies): build the date-time or report `OutOfBounds`.
The third argument of `OutOfBounds` is `h`, not `d`, in the code. -/
def buildMoment (c : Cfg) (p : Parts) : Out TT :=
  match (fromYmdOpt c (asI32 p.y) (asU32 p.mo) (asU32 p.d)).bind
      (fun nd => nd.andHmsOpt (asU32 p.h) (asU32 p.mi) (asU32 p.s)) with
  | some m => .ok (.moment m)
  | none => .err (.outOfBounds (asI32 p.y) (asU32 p.mo) (asU32 p.h) (asU32 p.h) (asU32 p.mi) (asU32 p.s))

/-- `add_to_moment` — src/timetype.rs:790-899. -/
def addToMoment (c : Cfg) (R : Call → Out TT) (mom : Moment) (tt : TT) : Out TT :=
  match tt with
  | .seconds a => do
    let s ← c.add mom.second a
    let p ← adjustTimesAdd c ⟨mom.year, mom.month, mom.day, mom.hour, mom.minute, s⟩
    buildMoment c p
  | .minutes a => do
    let mi ← c.add mom.minute a
    let p ← adjustTimesAdd c ⟨mom.year, mom.month, mom.day, mom.hour, mi, mom.second⟩
    buildMoment c p
  | .hours a => do
    let h ← c.add mom.hour a
    let p ← adjustTimesAdd c ⟨mom.year, mom.month, mom.day, h, mom.minute, mom.second⟩
    buildMoment c p
  | .days a => do
    let d ← c.add mom.day a
    let p ← adjustTimesAdd c ⟨mom.year, mom.month, d, mom.hour, mom.minute, mom.second⟩
    buildMoment c p
  | .months a => do
    let mo ← c.add mom.month a
    let p ← adjustTimesAdd c ⟨mom.year, mo, mom.day, mom.hour, mom.minute, mom.second⟩
    buildMoment c p
  | .years a => do
    let y ← c.add mom.year a
    let p ← adjustTimesAdd c ⟨y, mom.month, mom.day, mom.hour, mom.minute, mom.second⟩
    buildMoment c p
  | .moment e => .err (.cannotAdd (.moment mom) (.moment e))
  | .endOfYear e => .err (.cannotAdd (.moment mom) (.endOfYear e))
  | .endOfMonth e => .err (.cannotAdd (.moment mom) (.endOfMonth e))
  | .endOfDay e => .err (.cannotAdd (.moment mom) (.endOfDay e))
  | .endOfHour e => .err (.cannotAdd (.moment mom) (.endOfHour e))
  | .endOfMinute e => .err (.cannotAdd (.moment mom) (.endOfMinute e))
  | .addition a b => do let r ← R (.add a b); R (.addToMoment mom r)
  | .subtraction a b => do let r ← R (.sub a b); R (.addToMoment mom r)

/-- `sub_from_moment` — src/timetype.rs:1071-1180. -/
def subFromMoment (c : Cfg) (R : Call → Out TT) (mom : Moment) (tt : TT) : Out TT :=
  match tt with
  | .seconds a => do
    let s ← c.sub mom.second a
    let p ← adjustTimesSub c ⟨mom.year, mom.month, mom.day, mom.hour, mom.minute, s⟩
    buildMoment c p
  | .minutes a => do
    let mi ← c.sub mom.minute a
    let p ← adjustTimesSub c ⟨mom.year, mom.month, mom.day, mom.hour, mi, mom.second⟩
    buildMoment c p
  | .hours a => do
    let h ← c.sub mom.hour a
    let p ← adjustTimesSub c ⟨mom.year, mom.month, mom.day, h, mom.minute, mom.second⟩
    buildMoment c p
  | .days a => do
    let d ← c.sub mom.day a
    let p ← adjustTimesSub c ⟨mom.year, mom.month, d, mom.hour, mom.minute, mom.second⟩
    buildMoment c p
  | .months a => do
    let mo ← c.sub mom.month a
    let p ← adjustTimesSub c ⟨mom.year, mo, mom.day, mom.hour, mom.minute, mom.second⟩
    buildMoment c p
  | .years a => do
    let y ← c.sub mom.year a
    let p ← adjustTimesSub c ⟨y, mom.month, mom.day, mom.hour, mom.minute, mom.second⟩
    buildMoment c p
  | .moment e => .err (.cannotSub (.moment mom) (.moment e))
  | .endOfYear e => .err (.cannotSub (.moment mom) (.endOfYear e))
  | .endOfMonth e => .err (.cannotSub (.moment mom) (.endOfMonth e))
  | .endOfDay e => .err (.cannotSub (.moment mom) (.endOfDay e))
  | .endOfHour e => .err (.cannotSub (.moment mom) (.endOfHour e))
  | .endOfMinute e => .err (.cannotSub (.moment mom) (.endOfMinute e))
  | .addition a b => do let r ← R (.add a b); R (.subFromMoment mom r)
  | .subtraction a b => do let r ← R (.sub a b); R (.subFromMoment mom r)

/-- Dispatch of a call to the function of src/timetype.rs it stands for. -/
def body (c : Cfg) (R : Call → Out TT) : Call → Out TT
  | .calculate t => doCalculate R t
  | .endOf .year t => endOfYear c R t
  | .endOf .month t => endOfMonth c R t
  | .endOf .day t => endOfDay c R t
  | .endOf .hour t => endOfHour c R t
  | .endOf .minute t => endOfMinute c R t
  | .add a b => add R a b
  | .sub a b => sub R a b
  | .addTo .seconds n t => addToSeconds c R n t
  | .addTo .minutes n t => addToMinutes c R n t
  | .addTo .hours n t => addToHours c R n t
  | .addTo .days n t => addToDays c R n t
  | .addTo .months n t => addToMonths c R n t
  | .addTo .years n t => addToYears c R n t
  | .subFrom .seconds n t => subFromSeconds c R n t
  | .subFrom .minutes n t => subFromMinutes c R n t
  | .subFrom .hours n t => subFromHours c R n t
  | .subFrom .days n t => subFromDays c R n t
  | .subFrom .months n t => subFromMonths c R n t
  | .subFrom .years n t => subFromYears c R n t
  | .addToMoment m t => addToMoment c R m t
  | .subFromMoment m t => subFromMoment c R m t

/-- Recursion of the functions of src/timetype.rs:454-1180, with a budget `n` for the depth of the call stack (the code has none). -/
def run (c : Cfg) : Nat → Call → Out TT
  | 0, _ => .oof
  | n + 1, k => body c (run c n) k

end Eval

/-- Number of nodes of a `TimeType` (src/timetype.rs:22-40). Not in the code; used for the budget of `calculate`. -/
def TT.size : TT → Nat
  | .addition a b => a.size + b.size + 1
  | .subtraction a b => a.size + b.size + 1
  | .endOfYear t | .endOfMonth t | .endOfDay t | .endOfHour t | .endOfMinute t => t.size + 1
  | _ => 1

/-- A bound on the stack depth a call of src/timetype.rs needs. Not in the code (proved sufficient in `Lemmas/Eval.lean`). -/
def Call.depth : Call → Nat
  | .calculate t => 2 * t.size
  | .endOf _ t => 2 * t.size + 1
  | .add a b | .sub a b => 2 * (a.size + b.size) + 1
  | .addTo _ _ t | .subFrom _ _ t | .addToMoment _ t | .subFromMoment _ t => 2 * t.size + 1

/-- The evaluator with a sufficient budget. `Lemmas/Eval.lean`, `exec_unfold`: it satisfies the Rust
recursion equations `exec c k = Eval.body c (exec c) k`. -/
def exec (c : Cfg) (k : Call) : Out TT := Eval.run c (k.depth + 1) k

/-- `TimeType::calculate` — src/timetype.rs:435-437. -/
def calculate (c : Cfg) (t : TT) : Out TT := exec c (.calculate t)

end Kairos
