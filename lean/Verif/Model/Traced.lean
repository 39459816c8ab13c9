import Verif.Model.TimeType

/-!
# The functions of `src/timetype.rs` once more, writing down every call they make

The functions of `Model/TimeType.lean`, arm by arm, with the calls written down in the order in which they are made, each as often as it is made.
`Props/Work.lean` proves that what they return is what those of `Model/TimeType.lean` return.
-/

namespace Kairos

namespace Traced

/-- How a function of src/timetype.rs:454-1180 ran: the calls made, those made by the called functions included, in order, and what it
returned. -/
structure Run (α : Type) where
  made : List Call
  out : Out α

/-- `Ok` (std). -/
def Run.ok {α : Type} (a : α) : Run α := ⟨[], .ok a⟩

/-- `Err` (std). -/
def Run.err {α : Type} (e : ErrorKind) : Run α := ⟨[], .err e⟩

/-- Sequencing: `?`, `try!`, `and_then`, as in src/timetype.rs:476, 634, 807: after an error or a panic nothing more is called. -/
def Run.bind {α β : Type} (x : Run α) (f : α → Run β) : Run β :=
  match x.out with
  | .ok a => ⟨x.made ++ (f a).made, (f a).out⟩
  | .err e => ⟨x.made, .err e⟩
  | .panic => ⟨x.made, .panic⟩
  | .oof => ⟨x.made, .oof⟩

instance : Monad Run where
  pure := Run.ok
  bind := Run.bind

/-- What is not written down: arithmetic and calls of other modules and of chrono (src/timetype.rs:479-488, 668, 800-806). -/
def Run.silent {α : Type} (x : Out α) : Run α := ⟨[], x⟩

/-- A call of one of the functions of src/timetype.rs:454-1180. -/
def call (R : Call → Run TT) (k : Call) : Run TT := ⟨k :: (R k).made, (R k).out⟩


/-- `do_calculate` — src/timetype.rs:454-467, writing down its calls. -/
def doCalculate (R : Call → Run TT) (tt : TT) : Run TT :=
  match tt with
  | .addition a b => call R (.add a b)
  | .subtraction a b => call R (.sub a b)
  | .endOfYear inner => call R (.endOf .year inner)
  | .endOfMonth inner => call R (.endOf .month inner)
  | .endOfDay inner => call R (.endOf .day inner)
  | .endOfHour inner => call R (.endOf .hour inner)
  | .endOfMinute inner => call R (.endOf .minute inner)
  | x => .ok x

/-- `end_of_year` — src/timetype.rs:473-497, writing down its calls. -/
def endOfYear (c : Cfg) (R : Call → Run TT) (tt : TT) : Run TT := do
  match (← call R (.calculate tt)) with
  | .seconds a => .err (.cannotCalculateEndOfYearOn (.seconds a))
  | .minutes a => .err (.cannotCalculateEndOfYearOn (.minutes a))
  | .hours a => .err (.cannotCalculateEndOfYearOn (.hours a))
  | .days a => .err (.cannotCalculateEndOfYearOn (.days a))
  | .months a => .err (.cannotCalculateEndOfYearOn (.months a))
  | .years a => .err (.cannotCalculateEndOfYearOn (.years a))
  | .addition a b => .err (.cannotCalculateEndOfYearOn (.addition a b))
  | .subtraction a b => .err (.cannotCalculateEndOfYearOn (.subtraction a b))
  | .moment m =>
    match fromYmdOpt c m.year 12 31 with
    | some nd => do .ok (.moment (← .silent (nd.andHms 0 0 0)))
    | none => .err (.outOfBounds m.year 12 31 0 0 0)
  | .endOfYear e => call R (.calculate e)
  | .endOfMonth e => call R (.calculate e)
  | .endOfDay e => call R (.calculate e)
  | .endOfHour e => call R (.calculate e)
  | .endOfMinute e => call R (.calculate e)

/-- `end_of_month` — src/timetype.rs:503-529, writing down its calls. -/
def endOfMonth (c : Cfg) (R : Call → Run TT) (tt : TT) : Run TT := do
  match (← call R (.calculate tt)) with
  | .seconds a => .err (.cannotCalculateEndOfMonthOn (.seconds a))
  | .minutes a => .err (.cannotCalculateEndOfMonthOn (.minutes a))
  | .hours a => .err (.cannotCalculateEndOfMonthOn (.hours a))
  | .days a => .err (.cannotCalculateEndOfMonthOn (.days a))
  | .months a => .err (.cannotCalculateEndOfMonthOn (.months a))
  | .years a => .err (.cannotCalculateEndOfMonthOn (.years a))
  | .addition a b => .err (.cannotCalculateEndOfMonthOn (.addition a b))
  | .subtraction a b => .err (.cannotCalculateEndOfMonthOn (.subtraction a b))
  | .moment m =>
    let lastDay := asU32 (getNumOfDaysInMonth m.year m.month)
    match fromYmdOpt c m.year m.month lastDay with
    | some nd => do .ok (.moment (← .silent (nd.andHms 0 0 0)))
    | none => .err (.outOfBounds m.year m.month lastDay 0 0 0)
  | .endOfYear e => call R (.calculate e)
  | .endOfMonth e => call R (.calculate e)
  | .endOfDay e => call R (.calculate e)
  | .endOfHour e => call R (.calculate e)
  | .endOfMinute e => call R (.calculate e)

/-- `end_of_day` — src/timetype.rs:535-558, writing down its calls. -/
def endOfDay (c : Cfg) (R : Call → Run TT) (tt : TT) : Run TT := do
  match (← call R (.calculate tt)) with
  | .seconds a => .err (.cannotCalculateEndOfMonthOn (.seconds a))
  | .minutes a => .err (.cannotCalculateEndOfMonthOn (.minutes a))
  | .hours a => .err (.cannotCalculateEndOfMonthOn (.hours a))
  | .days a => .err (.cannotCalculateEndOfMonthOn (.days a))
  | .months a => .err (.cannotCalculateEndOfMonthOn (.months a))
  | .years a => .err (.cannotCalculateEndOfMonthOn (.years a))
  | .addition a b => .err (.cannotCalculateEndOfMonthOn (.addition a b))
  | .subtraction a b => .err (.cannotCalculateEndOfMonthOn (.subtraction a b))
  | .moment m =>
    match fromYmdOpt c m.year m.month m.day with
    | some nd => do .ok (.moment (← .silent (nd.andHms 23 59 59)))
    | none => .err (.outOfBounds m.year m.month m.day 23 59 59)
  | .endOfYear e => call R (.calculate e)
  | .endOfMonth e => call R (.calculate e)
  | .endOfDay e => call R (.calculate e)
  | .endOfHour e => call R (.calculate e)
  | .endOfMinute e => call R (.calculate e)

/-- `end_of_hour` — src/timetype.rs:564-587, writing down its calls. -/
def endOfHour (c : Cfg) (R : Call → Run TT) (tt : TT) : Run TT := do
  match (← call R (.calculate tt)) with
  | .seconds a => .err (.cannotCalculateEndOfMonthOn (.seconds a))
  | .minutes a => .err (.cannotCalculateEndOfMonthOn (.minutes a))
  | .hours a => .err (.cannotCalculateEndOfMonthOn (.hours a))
  | .days a => .err (.cannotCalculateEndOfMonthOn (.days a))
  | .months a => .err (.cannotCalculateEndOfMonthOn (.months a))
  | .years a => .err (.cannotCalculateEndOfMonthOn (.years a))
  | .addition a b => .err (.cannotCalculateEndOfMonthOn (.addition a b))
  | .subtraction a b => .err (.cannotCalculateEndOfMonthOn (.subtraction a b))
  | .moment m =>
    match (fromYmdOpt c m.year m.month m.day).bind (fun nd => nd.andHmsOpt m.hour 59 59) with
    | some r => .ok (.moment r)
    | none => .err (.outOfBounds m.year m.month m.day m.hour 59 59)
  | .endOfYear e => call R (.calculate e)
  | .endOfMonth e => call R (.calculate e)
  | .endOfDay e => call R (.calculate e)
  | .endOfHour e => call R (.calculate e)
  | .endOfMinute e => call R (.calculate e)

/-- `end_of_minute` — src/timetype.rs:593-616, writing down its calls. -/
def endOfMinute (c : Cfg) (R : Call → Run TT) (tt : TT) : Run TT := do
  match (← call R (.calculate tt)) with
  | .seconds a => .err (.cannotCalculateEndOfMonthOn (.seconds a))
  | .minutes a => .err (.cannotCalculateEndOfMonthOn (.minutes a))
  | .hours a => .err (.cannotCalculateEndOfMonthOn (.hours a))
  | .days a => .err (.cannotCalculateEndOfMonthOn (.days a))
  | .months a => .err (.cannotCalculateEndOfMonthOn (.months a))
  | .years a => .err (.cannotCalculateEndOfMonthOn (.years a))
  | .addition a b => .err (.cannotCalculateEndOfMonthOn (.addition a b))
  | .subtraction a b => .err (.cannotCalculateEndOfMonthOn (.subtraction a b))
  | .moment m =>
    match (fromYmdOpt c m.year m.month m.day).bind (fun nd => nd.andHmsOpt m.hour m.minute 59) with
    | some r => .ok (.moment r)
    | none => .err (.outOfBounds m.year m.month m.day m.hour m.minute 59)
  | .endOfYear e => call R (.calculate e)
  | .endOfMonth e => call R (.calculate e)
  | .endOfDay e => call R (.calculate e)
  | .endOfHour e => call R (.calculate e)
  | .endOfMinute e => call R (.calculate e)

/-- `add` — src/timetype.rs:618-662, writing down its calls. -/
def add (R : Call → Run TT) (a b : TT) : Run TT :=
  match a, b with
  | .moment mom, thing => call R (.addToMoment mom thing)
  | thing, .moment mom => .err (.cannotAdd thing (.moment mom))

  | .seconds a, other => call R (.addTo .seconds a other)
  | .minutes a, other => call R (.addTo .minutes a other)
  | .hours a, other => call R (.addTo .hours a other)
  | .days a, other => call R (.addTo .days a other)
  | .months a, other => call R (.addTo .months a other)
  | .years a, other => call R (.addTo .years a other)

  | .addition a b, other => do
    let bx ← call R (.add a b)
    call R (.add bx other)
  | other, .addition a b => do
    let bx ← call R (.add a b)
    call R (.add other bx)
  | .subtraction a b, other => do
    let bx ← call R (.sub a b)
    call R (.add other bx)
  | other, .subtraction a b => do
    let bx ← call R (.calculate a)
    let rx ← call R (.add other bx)
    call R (.sub rx b)

  | .endOfYear e, other => .err (.cannotAdd other (.endOfYear e))
  | other, .endOfYear e => .err (.cannotAdd other (.endOfYear e))
  | .endOfMonth e, other => .err (.cannotAdd other (.endOfMonth e))
  | other, .endOfMonth e => .err (.cannotAdd other (.endOfMonth e))
  | .endOfDay e, other => .err (.cannotAdd other (.endOfDay e))
  | other, .endOfDay e => .err (.cannotAdd other (.endOfDay e))
  | .endOfHour e, other => .err (.cannotAdd other (.endOfHour e))
  | other, .endOfHour e => .err (.cannotAdd other (.endOfHour e))
  | .endOfMinute e, other => .err (.cannotAdd other (.endOfMinute e))

/-- `sub` — src/timetype.rs:901-943, writing down its calls. -/
def sub (R : Call → Run TT) (a b : TT) : Run TT :=
  match a, b with
  | .moment mom, thing => call R (.subFromMoment mom thing)
  | .seconds a, other => call R (.subFrom .seconds a other)
  | .minutes a, other => call R (.subFrom .minutes a other)
  | .hours a, other => call R (.subFrom .hours a other)
  | .days a, other => call R (.subFrom .days a other)
  | .months a, other => call R (.subFrom .months a other)
  | .years a, other => call R (.subFrom .years a other)

  | .subtraction a b, other => do
    let bx ← call R (.sub a b)
    call R (.sub bx other)
  | other, .subtraction a b => do
    let bx ← call R (.sub a b)
    call R (.sub other bx)
  | .addition a b, other => do
    let bx ← call R (.add a b)
    call R (.sub bx other)
  | other, .addition a b => do
    let bx ← call R (.calculate a)
    let rx ← call R (.sub other bx)
    call R (.add rx b)

  | .endOfYear e, other => .err (.cannotSub other (.endOfYear e))
  | other, .endOfYear e => .err (.cannotSub other (.endOfYear e))
  | .endOfMonth e, other => .err (.cannotSub other (.endOfMonth e))
  | other, .endOfMonth e => .err (.cannotSub other (.endOfMonth e))
  | .endOfDay e, other => .err (.cannotSub other (.endOfDay e))
  | other, .endOfDay e => .err (.cannotSub other (.endOfDay e))
  | .endOfHour e, other => .err (.cannotSub other (.endOfHour e))
  | other, .endOfHour e => .err (.cannotSub other (.endOfHour e))
  | .endOfMinute e, other => .err (.cannotSub other (.endOfMinute e))

/-- `add_to_seconds` — src/timetype.rs:664-683, writing down its calls. -/
def addToSeconds (c : Cfg) (R : Call → Run TT) (amount : Int) (tt : TT) : Run TT :=
  match tt with
  | .seconds a => do let r ← .silent (c.add a amount); .ok (.seconds r)
  | .minutes a => do let p ← .silent (c.mulL a [60]); let r ← .silent (c.add p amount); .ok (.seconds r)
  | .hours a => do let p ← .silent (c.mulL a [60, 60]); let r ← .silent (c.add p amount); .ok (.seconds r)
  | .days a => do let p ← .silent (c.mulL a [60, 60, 24]); let r ← .silent (c.add p amount); .ok (.seconds r)
  | .months a => do let p ← .silent (c.mulL a [60, 60, 24, 30]); let r ← .silent (c.add p amount); .ok (.seconds r)
  | .years a => do let p ← .silent (c.mulL a [60, 60, 24, 30, 12]); let r ← .silent (c.add p amount); .ok (.seconds r)
  | .moment e => .err (.cannotAdd (.seconds amount) (.moment e))
  | .endOfYear e => .err (.cannotAdd (.seconds amount) (.endOfYear e))
  | .endOfMonth e => .err (.cannotAdd (.seconds amount) (.endOfMonth e))
  | .endOfDay e => .err (.cannotAdd (.seconds amount) (.endOfDay e))
  | .endOfHour e => .err (.cannotAdd (.seconds amount) (.endOfHour e))
  | .endOfMinute e => .err (.cannotAdd (.seconds amount) (.endOfMinute e))
  | .addition b c' => do let r ← call R (.add b c'); call R (.addTo .seconds amount r)
  | .subtraction b c' => do let r ← call R (.sub b c'); call R (.addTo .seconds amount r)

/-- `add_to_minutes` — src/timetype.rs:685-704, writing down its calls. -/
def addToMinutes (c : Cfg) (R : Call → Run TT) (amount : Int) (tt : TT) : Run TT :=
  match tt with
  | .seconds a => do let q ← .silent (c.mulL amount [60]); let r ← .silent (c.add a q); .ok (.seconds r)
  | .minutes a => do let r ← .silent (c.add a amount); .ok (.minutes r)
  | .hours a => do let p ← .silent (c.mulL a [60]); let r ← .silent (c.add p amount); .ok (.minutes r)
  | .days a => do let p ← .silent (c.mulL a [60, 24]); let r ← .silent (c.add p amount); .ok (.minutes r)
  | .months a => do let p ← .silent (c.mulL a [60, 24, 30]); let r ← .silent (c.add p amount); .ok (.minutes r)
  | .years a => do let p ← .silent (c.mulL a [60, 24, 30, 12]); let r ← .silent (c.add p amount); .ok (.minutes r)
  | .moment e => .err (.cannotAdd (.minutes amount) (.moment e))
  | .endOfYear e => .err (.cannotAdd (.minutes amount) (.endOfYear e))
  | .endOfMonth e => .err (.cannotAdd (.minutes amount) (.endOfMonth e))
  | .endOfDay e => .err (.cannotAdd (.minutes amount) (.endOfDay e))
  | .endOfHour e => .err (.cannotAdd (.minutes amount) (.endOfHour e))
  | .endOfMinute e => .err (.cannotAdd (.minutes amount) (.endOfMinute e))
  | .addition b c' => do let r ← call R (.add b c'); call R (.addTo .minutes amount r)
  | .subtraction b c' => do let r ← call R (.sub b c'); call R (.addTo .minutes amount r)

/-- `add_to_hours` — src/timetype.rs:706-725, writing down its calls. -/
def addToHours (c : Cfg) (R : Call → Run TT) (amount : Int) (tt : TT) : Run TT :=
  match tt with
  | .seconds a => do let q ← .silent (c.mulL amount [60, 60]); let r ← .silent (c.add a q); .ok (.seconds r)
  | .minutes a => do let q ← .silent (c.mulL amount [60]); let r ← .silent (c.add a q); .ok (.minutes r)
  | .hours a => do let r ← .silent (c.add a amount); .ok (.hours r)
  | .days a => do let p ← .silent (c.mulL a [24]); let r ← .silent (c.add p amount); .ok (.hours r)
  | .months a => do let p ← .silent (c.mulL a [24, 30]); let r ← .silent (c.add p amount); .ok (.hours r)
  | .years a => do let p ← .silent (c.mulL a [24, 30, 12]); let r ← .silent (c.add p amount); .ok (.hours r)
  | .moment e => .err (.cannotAdd (.hours amount) (.moment e))
  | .endOfYear e => .err (.cannotAdd (.hours amount) (.endOfYear e))
  | .endOfMonth e => .err (.cannotAdd (.hours amount) (.endOfMonth e))
  | .endOfDay e => .err (.cannotAdd (.hours amount) (.endOfDay e))
  | .endOfHour e => .err (.cannotAdd (.hours amount) (.endOfHour e))
  | .endOfMinute e => .err (.cannotAdd (.hours amount) (.endOfMinute e))
  | .addition b c' => do let r ← call R (.add b c'); call R (.addTo .hours amount r)
  | .subtraction b c' => do let r ← call R (.sub b c'); call R (.addTo .hours amount r)

/-- `add_to_days` — src/timetype.rs:727-746, writing down its calls. -/
def addToDays (c : Cfg) (R : Call → Run TT) (amount : Int) (tt : TT) : Run TT :=
  match tt with
  | .seconds a => do let q ← .silent (c.mulL amount [24, 60, 60]); let r ← .silent (c.add a q); .ok (.seconds r)
  | .minutes a => do let q ← .silent (c.mulL amount [24, 60]); let r ← .silent (c.add a q); .ok (.minutes r)
  | .hours a => do let q ← .silent (c.mulL amount [24]); let r ← .silent (c.add a q); .ok (.hours r)
  | .days a => do let r ← .silent (c.add a amount); .ok (.days r)
  | .months a => do let p ← .silent (c.mulL a [30]); let r ← .silent (c.add p amount); .ok (.days r)
  | .years a => do let p ← .silent (c.mulL a [30, 12]); let r ← .silent (c.add p amount); .ok (.days r)
  | .moment e => .err (.cannotAdd (.days amount) (.moment e))
  | .endOfYear e => .err (.cannotAdd (.days amount) (.endOfYear e))
  | .endOfMonth e => .err (.cannotAdd (.days amount) (.endOfMonth e))
  | .endOfDay e => .err (.cannotAdd (.days amount) (.endOfDay e))
  | .endOfHour e => .err (.cannotAdd (.days amount) (.endOfHour e))
  | .endOfMinute e => .err (.cannotAdd (.days amount) (.endOfMinute e))
  | .addition b c' => do let r ← call R (.add b c'); call R (.addTo .days amount r)
  | .subtraction b c' => do let r ← call R (.sub b c'); call R (.addTo .days amount r)

/-- `add_to_months` — src/timetype.rs:748-767, writing down its calls. -/
def addToMonths (c : Cfg) (R : Call → Run TT) (amount : Int) (tt : TT) : Run TT :=
  match tt with
  | .seconds a => do let q ← .silent (c.mulL amount [30, 24, 60, 60]); let r ← .silent (c.add a q); .ok (.seconds r)
  | .minutes a => do let q ← .silent (c.mulL amount [30, 24, 60]); let r ← .silent (c.add a q); .ok (.minutes r)
  | .hours a => do let q ← .silent (c.mulL amount [30, 24]); let r ← .silent (c.add a q); .ok (.hours r)
  | .days a => do let q ← .silent (c.mulL amount [30]); let r ← .silent (c.add a q); .ok (.days r)
  | .months a => do let r ← .silent (c.add a amount); .ok (.months r)
  | .years a => do let p ← .silent (c.mulL a [12]); let r ← .silent (c.add p amount); .ok (.months r)
  | .moment e => .err (.cannotAdd (.months amount) (.moment e))
  | .endOfYear e => .err (.cannotAdd (.months amount) (.endOfYear e))
  | .endOfMonth e => .err (.cannotAdd (.months amount) (.endOfMonth e))
  | .endOfDay e => .err (.cannotAdd (.months amount) (.endOfDay e))
  | .endOfHour e => .err (.cannotAdd (.months amount) (.endOfHour e))
  | .endOfMinute e => .err (.cannotAdd (.months amount) (.endOfMinute e))
  | .addition b c' => do let r ← call R (.add b c'); call R (.addTo .months amount r)
  | .subtraction b c' => do let r ← call R (.sub b c'); call R (.addTo .months amount r)

/-- `add_to_years` — src/timetype.rs:769-788, writing down its calls. -/
def addToYears (c : Cfg) (R : Call → Run TT) (amount : Int) (tt : TT) : Run TT :=
  match tt with
  | .seconds a => do let q ← .silent (c.mulL amount [12, 30, 24, 60, 60]); let r ← .silent (c.add a q); .ok (.seconds r)
  | .minutes a => do let q ← .silent (c.mulL amount [12, 30, 24, 60]); let r ← .silent (c.add a q); .ok (.minutes r)
  | .hours a => do let q ← .silent (c.mulL amount [12, 30, 24]); let r ← .silent (c.add a q); .ok (.hours r)
  | .days a => do let q ← .silent (c.mulL amount [12, 30]); let r ← .silent (c.add a q); .ok (.days r)
  | .months a => do let q ← .silent (c.mulL amount [12]); let r ← .silent (c.add a q); .ok (.months r)
  | .years a => do let r ← .silent (c.add a amount); .ok (.years r)
  | .moment e => .err (.cannotAdd (.years amount) (.moment e))
  | .endOfYear e => .err (.cannotAdd (.years amount) (.endOfYear e))
  | .endOfMonth e => .err (.cannotAdd (.years amount) (.endOfMonth e))
  | .endOfDay e => .err (.cannotAdd (.years amount) (.endOfDay e))
  | .endOfHour e => .err (.cannotAdd (.years amount) (.endOfHour e))
  | .endOfMinute e => .err (.cannotAdd (.years amount) (.endOfMinute e))
  | .addition b c' => do let r ← call R (.add b c'); call R (.addTo .years amount r)
  | .subtraction b c' => do let r ← call R (.sub b c'); call R (.addTo .years amount r)

/-- `sub_from_seconds` — src/timetype.rs:945-964, writing down its calls. -/
def subFromSeconds (c : Cfg) (R : Call → Run TT) (amount : Int) (tt : TT) : Run TT :=
  match tt with
  | .seconds a => do let r ← .silent (c.sub amount a); .ok (.seconds r)
  | .minutes a => do let q ← .silent (c.mulL a [60]); let r ← .silent (c.sub amount q); .ok (.seconds r)
  | .hours a => do let q ← .silent (c.mulL a [60, 60]); let r ← .silent (c.sub amount q); .ok (.seconds r)
  | .days a => do let q ← .silent (c.mulL a [60, 60, 24]); let r ← .silent (c.sub amount q); .ok (.seconds r)
  | .months a => do let q ← .silent (c.mulL a [60, 60, 24, 30]); let r ← .silent (c.sub amount q); .ok (.seconds r)
  | .years a => do let q ← .silent (c.mulL a [60, 60, 24, 30, 12]); let r ← .silent (c.sub amount q); .ok (.seconds r)
  | .moment e => .err (.cannotSub (.seconds amount) (.moment e))
  | .endOfYear e => .err (.cannotSub (.seconds amount) (.endOfYear e))
  | .endOfMonth e => .err (.cannotSub (.seconds amount) (.endOfMonth e))
  | .endOfDay e => .err (.cannotSub (.seconds amount) (.endOfDay e))
  | .endOfHour e => .err (.cannotSub (.seconds amount) (.endOfHour e))
  | .endOfMinute e => .err (.cannotSub (.seconds amount) (.endOfMinute e))
  | .addition b c' => do let r ← call R (.add b c'); call R (.subFrom .seconds amount r)
  | .subtraction b c' => do let r ← call R (.sub b c'); call R (.subFrom .seconds amount r)

/-- `sub_from_minutes` — src/timetype.rs:966-985, writing down its calls. -/
def subFromMinutes (c : Cfg) (R : Call → Run TT) (amount : Int) (tt : TT) : Run TT :=
  match tt with
  | .seconds a => do let p ← .silent (c.mulL amount [60]); let r ← .silent (c.sub p a); .ok (.seconds r)
  | .minutes a => do let r ← .silent (c.sub amount a); .ok (.minutes r)
  | .hours a => do let q ← .silent (c.mulL a [60]); let r ← .silent (c.sub amount q); .ok (.minutes r)
  | .days a => do let q ← .silent (c.mulL a [60, 24]); let r ← .silent (c.sub amount q); .ok (.minutes r)
  | .months a => do let q ← .silent (c.mulL a [60, 24, 30]); let r ← .silent (c.sub amount q); .ok (.minutes r)
  | .years a => do let q ← .silent (c.mulL a [60, 24, 30, 12]); let r ← .silent (c.sub amount q); .ok (.minutes r)
  | .moment e => .err (.cannotSub (.minutes amount) (.moment e))
  | .endOfYear e => .err (.cannotSub (.minutes amount) (.endOfYear e))
  | .endOfMonth e => .err (.cannotSub (.minutes amount) (.endOfMonth e))
  | .endOfDay e => .err (.cannotSub (.minutes amount) (.endOfDay e))
  | .endOfHour e => .err (.cannotSub (.minutes amount) (.endOfHour e))
  | .endOfMinute e => .err (.cannotSub (.minutes amount) (.endOfMinute e))
  | .addition b c' => do let r ← call R (.add b c'); call R (.subFrom .minutes amount r)
  | .subtraction b c' => do let r ← call R (.sub b c'); call R (.subFrom .minutes amount r)

/-- `sub_from_hours` — src/timetype.rs:987-1006, writing down its calls. -/
def subFromHours (c : Cfg) (R : Call → Run TT) (amount : Int) (tt : TT) : Run TT :=
  match tt with
  | .seconds a => do let p ← .silent (c.mulL amount [60, 60]); let r ← .silent (c.sub p a); .ok (.seconds r)
  | .minutes a => do let p ← .silent (c.mulL amount [60]); let r ← .silent (c.sub p a); .ok (.minutes r)
  | .hours a => do let r ← .silent (c.sub amount a); .ok (.hours r)
  | .days a => do let q ← .silent (c.mulL a [24]); let r ← .silent (c.sub amount q); .ok (.hours r)
  | .months a => do let q ← .silent (c.mulL a [24, 30]); let r ← .silent (c.sub amount q); .ok (.hours r)
  | .years a => do let q ← .silent (c.mulL a [24, 30, 12]); let r ← .silent (c.sub amount q); .ok (.hours r)
  | .moment e => .err (.cannotSub (.hours amount) (.moment e))
  | .endOfYear e => .err (.cannotSub (.hours amount) (.endOfYear e))
  | .endOfMonth e => .err (.cannotSub (.hours amount) (.endOfMonth e))
  | .endOfDay e => .err (.cannotSub (.hours amount) (.endOfDay e))
  | .endOfHour e => .err (.cannotSub (.hours amount) (.endOfHour e))
  | .endOfMinute e => .err (.cannotSub (.hours amount) (.endOfMinute e))
  | .addition b c' => do let r ← call R (.add b c'); call R (.subFrom .hours amount r)
  | .subtraction b c' => do let r ← call R (.sub b c'); call R (.subFrom .hours amount r)

/-- `sub_from_days` — src/timetype.rs:1008-1027, writing down its calls. -/
def subFromDays (c : Cfg) (R : Call → Run TT) (amount : Int) (tt : TT) : Run TT :=
  match tt with
  | .seconds a => do let p ← .silent (c.mulL amount [24, 60, 60]); let r ← .silent (c.sub p a); .ok (.seconds r)
  | .minutes a => do let p ← .silent (c.mulL amount [24, 60]); let r ← .silent (c.sub p a); .ok (.minutes r)
  | .hours a => do let p ← .silent (c.mulL amount [24]); let r ← .silent (c.sub p a); .ok (.hours r)
  | .days a => do let r ← .silent (c.sub amount a); .ok (.days r)
  | .months a => do let q ← .silent (c.mulL a [30]); let r ← .silent (c.sub amount q); .ok (.days r)
  | .years a => do let q ← .silent (c.mulL a [30, 12]); let r ← .silent (c.sub amount q); .ok (.days r)
  | .moment e => .err (.cannotSub (.days amount) (.moment e))
  | .endOfYear e => .err (.cannotSub (.days amount) (.endOfYear e))
  | .endOfMonth e => .err (.cannotSub (.days amount) (.endOfMonth e))
  | .endOfDay e => .err (.cannotSub (.days amount) (.endOfDay e))
  | .endOfHour e => .err (.cannotSub (.days amount) (.endOfHour e))
  | .endOfMinute e => .err (.cannotSub (.days amount) (.endOfMinute e))
  | .addition b c' => do let r ← call R (.add b c'); call R (.subFrom .days amount r)
  | .subtraction b c' => do let r ← call R (.sub b c'); call R (.subFrom .days amount r)

/-- `sub_from_months` — src/timetype.rs:1029-1048, writing down its calls. -/
def subFromMonths (c : Cfg) (R : Call → Run TT) (amount : Int) (tt : TT) : Run TT :=
  match tt with
  | .seconds a => do let p ← .silent (c.mulL amount [30, 24, 60, 60]); let r ← .silent (c.sub p a); .ok (.seconds r)
  | .minutes a => do let p ← .silent (c.mulL amount [30, 24, 60]); let r ← .silent (c.sub p a); .ok (.minutes r)
  | .hours a => do let p ← .silent (c.mulL amount [30, 24]); let r ← .silent (c.sub p a); .ok (.hours r)
  | .days a => do let p ← .silent (c.mulL amount [30]); let r ← .silent (c.sub p a); .ok (.days r)
  | .months a => do let r ← .silent (c.sub amount a); .ok (.months r)
  | .years a => do let q ← .silent (c.mulL a [12]); let r ← .silent (c.sub amount q); .ok (.months r)
  | .moment e => .err (.cannotSub (.months amount) (.moment e))
  | .endOfYear e => .err (.cannotSub (.months amount) (.endOfYear e))
  | .endOfMonth e => .err (.cannotSub (.months amount) (.endOfMonth e))
  | .endOfDay e => .err (.cannotSub (.months amount) (.endOfDay e))
  | .endOfHour e => .err (.cannotSub (.months amount) (.endOfHour e))
  | .endOfMinute e => .err (.cannotSub (.months amount) (.endOfMinute e))
  | .addition b c' => do let r ← call R (.add b c'); call R (.subFrom .months amount r)
  | .subtraction b c' => do let r ← call R (.sub b c'); call R (.subFrom .months amount r)

/-- `sub_from_years` — src/timetype.rs:1050-1069, writing down its calls. -/
def subFromYears (c : Cfg) (R : Call → Run TT) (amount : Int) (tt : TT) : Run TT :=
  match tt with
  | .seconds a => do let p ← .silent (c.mulL amount [12, 30, 24, 60, 60]); let r ← .silent (c.sub p a); .ok (.seconds r)
  | .minutes a => do let p ← .silent (c.mulL amount [12, 30, 24, 60]); let r ← .silent (c.sub p a); .ok (.minutes r)
  | .hours a => do let p ← .silent (c.mulL amount [12, 30, 24]); let r ← .silent (c.sub p a); .ok (.hours r)
  | .days a => do let p ← .silent (c.mulL amount [12, 30]); let r ← .silent (c.sub p a); .ok (.days r)
  | .months a => do let p ← .silent (c.mulL amount [12]); let r ← .silent (c.sub p a); .ok (.months r)
  | .years a => do let r ← .silent (c.sub amount a); .ok (.years r)
  | .moment e => .err (.cannotSub (.years amount) (.moment e))
  | .endOfYear e => .err (.cannotSub (.years amount) (.endOfYear e))
  | .endOfMonth e => .err (.cannotSub (.years amount) (.endOfMonth e))
  | .endOfDay e => .err (.cannotSub (.years amount) (.endOfDay e))
  | .endOfHour e => .err (.cannotSub (.years amount) (.endOfHour e))
  | .endOfMinute e => .err (.cannotSub (.years amount) (.endOfMinute e))
  | .addition b c' => do let r ← call R (.add b c'); call R (.subFrom .years amount r)
  | .subtraction b c' => do let r ← call R (.sub b c'); call R (.subFrom .years amount r)

/-- `add_to_moment` — src/timetype.rs:790-899, writing down its calls. -/
def addToMoment (c : Cfg) (R : Call → Run TT) (mom : Moment) (tt : TT) : Run TT :=
  match tt with
  | .seconds a => do
    let s ← .silent (c.add mom.second a)
    let p ← .silent (adjustTimesAdd c ⟨mom.year, mom.month, mom.day, mom.hour, mom.minute, s⟩)
    .silent (Eval.buildMoment c p)
  | .minutes a => do
    let mi ← .silent (c.add mom.minute a)
    let p ← .silent (adjustTimesAdd c ⟨mom.year, mom.month, mom.day, mom.hour, mi, mom.second⟩)
    .silent (Eval.buildMoment c p)
  | .hours a => do
    let h ← .silent (c.add mom.hour a)
    let p ← .silent (adjustTimesAdd c ⟨mom.year, mom.month, mom.day, h, mom.minute, mom.second⟩)
    .silent (Eval.buildMoment c p)
  | .days a => do
    let d ← .silent (c.add mom.day a)
    let p ← .silent (adjustTimesAdd c ⟨mom.year, mom.month, d, mom.hour, mom.minute, mom.second⟩)
    .silent (Eval.buildMoment c p)
  | .months a => do
    let mo ← .silent (c.add mom.month a)
    let p ← .silent (adjustTimesAdd c ⟨mom.year, mo, mom.day, mom.hour, mom.minute, mom.second⟩)
    .silent (Eval.buildMoment c p)
  | .years a => do
    let y ← .silent (c.add mom.year a)
    let p ← .silent (adjustTimesAdd c ⟨y, mom.month, mom.day, mom.hour, mom.minute, mom.second⟩)
    .silent (Eval.buildMoment c p)
  | .moment e => .err (.cannotAdd (.moment mom) (.moment e))
  | .endOfYear e => .err (.cannotAdd (.moment mom) (.endOfYear e))
  | .endOfMonth e => .err (.cannotAdd (.moment mom) (.endOfMonth e))
  | .endOfDay e => .err (.cannotAdd (.moment mom) (.endOfDay e))
  | .endOfHour e => .err (.cannotAdd (.moment mom) (.endOfHour e))
  | .endOfMinute e => .err (.cannotAdd (.moment mom) (.endOfMinute e))
  | .addition a b => do let r ← call R (.add a b); call R (.addToMoment mom r)
  | .subtraction a b => do let r ← call R (.sub a b); call R (.addToMoment mom r)

/-- `sub_from_moment` — src/timetype.rs:1071-1180, writing down its calls. -/
def subFromMoment (c : Cfg) (R : Call → Run TT) (mom : Moment) (tt : TT) : Run TT :=
  match tt with
  | .seconds a => do
    let s ← .silent (c.sub mom.second a)
    let p ← .silent (adjustTimesSub c ⟨mom.year, mom.month, mom.day, mom.hour, mom.minute, s⟩)
    .silent (Eval.buildMoment c p)
  | .minutes a => do
    let mi ← .silent (c.sub mom.minute a)
    let p ← .silent (adjustTimesSub c ⟨mom.year, mom.month, mom.day, mom.hour, mi, mom.second⟩)
    .silent (Eval.buildMoment c p)
  | .hours a => do
    let h ← .silent (c.sub mom.hour a)
    let p ← .silent (adjustTimesSub c ⟨mom.year, mom.month, mom.day, h, mom.minute, mom.second⟩)
    .silent (Eval.buildMoment c p)
  | .days a => do
    let d ← .silent (c.sub mom.day a)
    let p ← .silent (adjustTimesSub c ⟨mom.year, mom.month, d, mom.hour, mom.minute, mom.second⟩)
    .silent (Eval.buildMoment c p)
  | .months a => do
    let mo ← .silent (c.sub mom.month a)
    let p ← .silent (adjustTimesSub c ⟨mom.year, mo, mom.day, mom.hour, mom.minute, mom.second⟩)
    .silent (Eval.buildMoment c p)
  | .years a => do
    let y ← .silent (c.sub mom.year a)
    let p ← .silent (adjustTimesSub c ⟨y, mom.month, mom.day, mom.hour, mom.minute, mom.second⟩)
    .silent (Eval.buildMoment c p)
  | .moment e => .err (.cannotSub (.moment mom) (.moment e))
  | .endOfYear e => .err (.cannotSub (.moment mom) (.endOfYear e))
  | .endOfMonth e => .err (.cannotSub (.moment mom) (.endOfMonth e))
  | .endOfDay e => .err (.cannotSub (.moment mom) (.endOfDay e))
  | .endOfHour e => .err (.cannotSub (.moment mom) (.endOfHour e))
  | .endOfMinute e => .err (.cannotSub (.moment mom) (.endOfMinute e))
  | .addition a b => do let r ← call R (.add a b); call R (.subFromMoment mom r)
  | .subtraction a b => do let r ← call R (.sub a b); call R (.subFromMoment mom r)

/-- Dispatch of a call to the function of src/timetype.rs:454-1180 it stands for. -/
def body (c : Cfg) (R : Call → Run TT) : Call → Run TT
  | .calculate t => doCalculate R t
  | .endOf .year t => endOfYear c R t
  | .endOf .month t => endOfMonth c R t
  | .endOf .day t => endOfDay c R t
  | .endOf .hour t => endOfHour c R t
  | .endOf .minute t => endOfMinute c R t
  | .add a b => add R a b
  | .sub a b => sub R a b
  | .addTo .seconds n t => addToSeconds c R n t
  | .addTo .minutes n t => addToMinutes c R n t
  | .addTo .hours n t => addToHours c R n t
  | .addTo .days n t => addToDays c R n t
  | .addTo .months n t => addToMonths c R n t
  | .addTo .years n t => addToYears c R n t
  | .subFrom .seconds n t => subFromSeconds c R n t
  | .subFrom .minutes n t => subFromMinutes c R n t
  | .subFrom .hours n t => subFromHours c R n t
  | .subFrom .days n t => subFromDays c R n t
  | .subFrom .months n t => subFromMonths c R n t
  | .subFrom .years n t => subFromYears c R n t
  | .addToMoment m t => addToMoment c R m t
  | .subFromMoment m t => subFromMoment c R m t

/-- Recursion of the functions of src/timetype.rs:454-1180, with a budget `n` for the depth of the call stack (the code has none). -/
def run (c : Cfg) : Nat → Call → Run TT
  | 0, _ => ⟨[], .oof⟩
  | n + 1, k => body c (run c n) k

end Traced

end Kairos
