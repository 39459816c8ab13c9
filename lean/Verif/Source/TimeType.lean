import Verif.Source.Util
import Verif.Source.Indicator

/-! Generated from src/timetype.rs by tools/rs2lean.py; do not edit. The translation of each construct is
described in `Verif/Source/Rust.lean`. -/

set_option linter.all false
set_option autoImplicit false

namespace Kairos.Source

/-- `fn add` — src/timetype.rs:45-47. -/
def TimeType.add (cfg : Cfg) (self : TT) (rhs : TT) : Out TT := do
  .ok (TT.addition self rhs)

/-- `fn add_assign` — src/timetype.rs:51-53. -/
def TimeType.add_assign (cfg : Cfg) (self : TT) (rhs : TT) : Out TT := do
  let self := (TT.addition self rhs)
  .ok self

/-- `fn sub` — src/timetype.rs:59-61. -/
def TimeType.sub (cfg : Cfg) (self : TT) (rhs : TT) : Out TT := do
  .ok (TT.subtraction self rhs)

/-- `fn sub_assign` — src/timetype.rs:65-67. -/
def TimeType.sub_assign (cfg : Cfg) (self : TT) (rhs : TT) : Out TT := do
  let self := (TT.subtraction self rhs)
  .ok self

/-- `fn is_a_amount` — src/timetype.rs:101-111. -/
def TimeType.is_a_amount (cfg : Cfg) (self : TT) : Out Bool := do
  let t1 ← (match self with
    | .seconds _ | .minutes _ | .hours _ | .days _ | .months _ | .years _ => do
        .ok true
    | _ => do
        .ok false
    )
  .ok t1

/-- `fn is_moment` — src/timetype.rs:113-118. -/
def TimeType.is_moment (cfg : Cfg) (self : TT) : Out Bool := do
  let t1 ← (match self with
    | .moment _ => do
        .ok true
    | _ => do
        .ok false
    )
  .ok t1

/-- `fn is_addition` — src/timetype.rs:120-125. -/
def TimeType.is_addition (cfg : Cfg) (self : TT) : Out Bool := do
  let t1 ← (match self with
    | .addition _ _ => do
        .ok true
    | _ => do
        .ok false
    )
  .ok t1

/-- `fn is_subtraction` — src/timetype.rs:127-132. -/
def TimeType.is_subtraction (cfg : Cfg) (self : TT) : Out Bool := do
  let t1 ← (match self with
    | .subtraction _ _ => do
        .ok true
    | _ => do
        .ok false
    )
  .ok t1

/-- `fn seconds` — src/timetype.rs:134-136. -/
def TimeType.seconds (cfg : Cfg) (i : Int) : Out TT := do
  .ok (TT.seconds i)

/-- `fn minutes` — src/timetype.rs:138-140. -/
def TimeType.minutes (cfg : Cfg) (i : Int) : Out TT := do
  .ok (TT.minutes i)

/-- `fn hours` — src/timetype.rs:142-144. -/
def TimeType.hours (cfg : Cfg) (i : Int) : Out TT := do
  .ok (TT.hours i)

/-- `fn days` — src/timetype.rs:146-148. -/
def TimeType.days (cfg : Cfg) (i : Int) : Out TT := do
  .ok (TT.days i)

/-- `fn weeks` — src/timetype.rs:151-153. -/
def TimeType.weeks (cfg : Cfg) (i : Int) : Out TT := do
  let t1 ← cfg.mul i 7
  .ok (TT.days t1)

/-- `fn months` — src/timetype.rs:155-157. -/
def TimeType.months (cfg : Cfg) (i : Int) : Out TT := do
  .ok (TT.months i)

/-- `fn years` — src/timetype.rs:159-161. -/
def TimeType.years (cfg : Cfg) (i : Int) : Out TT := do
  .ok (TT.years i)

/-- `fn moment` — src/timetype.rs:163-165. -/
def TimeType.moment (cfg : Cfg) (ndt : Moment) : Out TT := do
  .ok (TT.moment ndt)

/-- `fn end_of_year` — src/timetype.rs:176-178. -/
def TimeType.end_of_year (cfg : Cfg) (self : TT) : Out TT := do
  .ok (TT.endOfYear self)

/-- `fn end_of_month` — src/timetype.rs:188-190. -/
def TimeType.end_of_month (cfg : Cfg) (self : TT) : Out TT := do
  .ok (TT.endOfMonth self)

/-- `fn end_of_day` — src/timetype.rs:200-202. -/
def TimeType.end_of_day (cfg : Cfg) (self : TT) : Out TT := do
  .ok (TT.endOfDay self)

/-- `fn end_of_hour` — src/timetype.rs:212-214. -/
def TimeType.end_of_hour (cfg : Cfg) (self : TT) : Out TT := do
  .ok (TT.endOfHour self)

/-- `fn end_of_minute` — src/timetype.rs:224-226. -/
def TimeType.end_of_minute (cfg : Cfg) (self : TT) : Out TT := do
  .ok (TT.endOfMinute self)

/-- `fn get_seconds` — src/timetype.rs:242-252. -/
def TimeType.get_seconds (cfg : Cfg) (self : TT) : Out Int := do
  let t16 ← (match self with
    | .seconds d => do
        .ok d
    | .minutes d => do
        let t1 ← cfg.mul d 60
        .ok t1
    | .hours d => do
        let t2 ← cfg.mul d 60
        let t3 ← cfg.mul t2 60
        .ok t3
    | .days d => do
        let t4 ← cfg.mul d 60
        let t5 ← cfg.mul t4 60
        let t6 ← cfg.mul t5 24
        .ok t6
    | .months d => do
        let t7 ← cfg.mul d 60
        let t8 ← cfg.mul t7 60
        let t9 ← cfg.mul t8 24
        let t10 ← cfg.mul t9 30
        .ok t10
    | .years d => do
        let t11 ← cfg.mul d 60
        let t12 ← cfg.mul t11 60
        let t13 ← cfg.mul t12 24
        let t14 ← cfg.mul t13 30
        let t15 ← cfg.mul t14 12
        .ok t15
    | _ => do
        .ok 0
    )
  .ok t16

/-- `fn get_minutes` — src/timetype.rs:268-278. -/
def TimeType.get_minutes (cfg : Cfg) (self : TT) : Out Int := do
  let t11 ← (match self with
    | .seconds s => do
        .ok (s.tdiv 60)
    | .minutes d => do
        .ok d
    | .hours d => do
        let t1 ← cfg.mul d 60
        .ok t1
    | .days d => do
        let t2 ← cfg.mul d 60
        let t3 ← cfg.mul t2 24
        .ok t3
    | .months d => do
        let t4 ← cfg.mul d 60
        let t5 ← cfg.mul t4 24
        let t6 ← cfg.mul t5 30
        .ok t6
    | .years d => do
        let t7 ← cfg.mul d 60
        let t8 ← cfg.mul t7 24
        let t9 ← cfg.mul t8 30
        let t10 ← cfg.mul t9 12
        .ok t10
    | _ => do
        .ok 0
    )
  .ok t11

/-- `fn get_hours` — src/timetype.rs:294-304. -/
def TimeType.get_hours (cfg : Cfg) (self : TT) : Out Int := do
  let t7 ← (match self with
    | .seconds s => do
        .ok ((s.tdiv 60).tdiv 60)
    | .minutes d => do
        .ok (d.tdiv 60)
    | .hours d => do
        .ok d
    | .days d => do
        let t1 ← cfg.mul d 24
        .ok t1
    | .months d => do
        let t2 ← cfg.mul d 24
        let t3 ← cfg.mul t2 30
        .ok t3
    | .years d => do
        let t4 ← cfg.mul d 24
        let t5 ← cfg.mul t4 30
        let t6 ← cfg.mul t5 12
        .ok t6
    | _ => do
        .ok 0
    )
  .ok t7

/-- `fn get_days` — src/timetype.rs:320-330. -/
def TimeType.get_days (cfg : Cfg) (self : TT) : Out Int := do
  let t4 ← (match self with
    | .seconds s => do
        .ok (((s.tdiv 24).tdiv 60).tdiv 60)
    | .minutes d => do
        .ok ((d.tdiv 24).tdiv 60)
    | .hours d => do
        .ok (d.tdiv 24)
    | .days d => do
        .ok d
    | .months d => do
        let t1 ← cfg.mul d 30
        .ok t1
    | .years d => do
        let t2 ← cfg.mul d 30
        let t3 ← cfg.mul t2 12
        .ok t3
    | _ => do
        .ok 0
    )
  .ok t4

/-- `fn get_months` — src/timetype.rs:346-356. -/
def TimeType.get_months (cfg : Cfg) (self : TT) : Out Int := do
  let t2 ← (match self with
    | .seconds s => do
        .ok ((((s.tdiv 30).tdiv 24).tdiv 60).tdiv 60)
    | .minutes d => do
        .ok (((d.tdiv 30).tdiv 24).tdiv 60)
    | .hours d => do
        .ok ((d.tdiv 30).tdiv 24)
    | .days d => do
        .ok (d.tdiv 30)
    | .months d => do
        .ok d
    | .years d => do
        let t1 ← cfg.mul d 12
        .ok t1
    | _ => do
        .ok 0
    )
  .ok t2

/-- `fn get_years` — src/timetype.rs:372-382. -/
def TimeType.get_years (cfg : Cfg) (self : TT) : Out Int := do
  let t1 ← (match self with
    | .seconds s => do
        .ok (((((s.tdiv 12).tdiv 30).tdiv 24).tdiv 60).tdiv 60)
    | .minutes d => do
        .ok ((((d.tdiv 12).tdiv 30).tdiv 24).tdiv 60)
    | .hours d => do
        .ok (((d.tdiv 12).tdiv 30).tdiv 24)
    | .days d => do
        .ok ((d.tdiv 12).tdiv 30)
    | .months d => do
        .ok (d.tdiv 12)
    | .years d => do
        .ok d
    | _ => do
        .ok 0
    )
  .ok t1

/-- `fn get_moment` — src/timetype.rs:384-389. -/
def TimeType.get_moment (cfg : Cfg) (self : TT) : Out (Option Moment) := do
  let t1 ← (match self with
    | .moment m => do
        .ok (some m)
    | _ => do
        .ok none
    )
  .ok t1

/-- `fn name` — src/timetype.rs:414-433. -/
def TimeType.name (cfg : Cfg) (self : TT) : Out String := do
  let t1 ← (match self with
    | .addition _ _ => do
        .ok "Addition"
    | .days _ => do
        .ok "Days"
    | .endOfDay _ => do
        .ok "EndOfDay"
    | .endOfHour _ => do
        .ok "EndOfHour"
    | .endOfMinute _ => do
        .ok "EndOfMinute"
    | .endOfMonth _ => do
        .ok "EndOfMonth"
    | .endOfYear _ => do
        .ok "EndOfYear"
    | .hours _ => do
        .ok "Hours"
    | .minutes _ => do
        .ok "Minutes"
    | .moment _ => do
        .ok "Moment"
    | .months _ => do
        .ok "Months"
    | .seconds _ => do
        .ok "Seconds"
    | .subtraction _ _ => do
        .ok "Subtraction"
    | .years _ => do
        .ok "Years"
    )
  .ok t1

/-- `fn is_a` — src/timetype.rs:393-400. -/
def TimeType.is_a (cfg : Cfg) (self : TT) (d : Day) : Out Bool := do
  (match self with
    | .moment m => do
        let t1 ← Day.into cfg d
        (.ok (m.weekday == t1))
    | _ => do
        let t2 ← TimeType.name cfg self
        (.err (.cannotCompareDayTo t2))
    )

/-- `fn is_in` — src/timetype.rs:404-411. -/
def TimeType.is_in (cfg : Cfg) (self : TT) (month : Month) : Out Bool := do
  (match self with
    | .moment m => do
        let t1 ← Month.into cfg month
        (.ok (m.month == t1))
    | _ => do
        let t2 ← TimeType.name cfg self
        (.err (.cannotCompareMonthTo t2))
    )

mutual

/-- `fn do_calculate` — src/timetype.rs:454-467. -/
def do_calculate (cfg : Cfg) (tt : TT) : Out TT := do
  (match tt with
    | .addition a b => do
        (add cfg a b)
    | .subtraction a b => do
        (sub cfg a b)
    | .endOfYear inner => do
        (end_of_year cfg inner)
    | .endOfMonth inner => do
        (end_of_month cfg inner)
    | .endOfDay inner => do
        (end_of_day cfg inner)
    | .endOfHour inner => do
        (end_of_hour cfg inner)
    | .endOfMinute inner => do
        (end_of_minute cfg inner)
    | x => do
        (.ok x)
    )
partial_fixpoint

/-- `fn end_of_year` — src/timetype.rs:473-497. -/
def end_of_year (cfg : Cfg) (tt : TT) : Out TT := do
  let t1 ← (do_calculate cfg tt)
  (match t1 with
    | els@(.seconds _) | els@(.minutes _) | els@(.hours _) | els@(.days _) | els@(.months _) | els@(.years _) | els@(.addition _ _) | els@(.subtraction _ _) => do
        (.err (.cannotCalculateEndOfYearOn els))
    | .moment m => do
        let t3 ← Rs.optMap (fromYmdOpt cfg m.year 12 31) (fun nd => do
            let t2 ← nd.andHms 0 0 0
            .ok t2
          )
        let t4 ← Rs.optMap t3 (TimeType.moment cfg)
        (OutE.ofOption t4 (.outOfBounds m.year 12 31 0 0 0))
    | .endOfYear e => do
        (do_calculate cfg e)
    | .endOfMonth e => do
        (do_calculate cfg e)
    | .endOfDay e => do
        (do_calculate cfg e)
    | .endOfHour e => do
        (do_calculate cfg e)
    | .endOfMinute e => do
        (do_calculate cfg e)
    )
partial_fixpoint

/-- `fn end_of_month` — src/timetype.rs:503-529. -/
def end_of_month (cfg : Cfg) (tt : TT) : Out TT := do
  let t1 ← (do_calculate cfg tt)
  (match t1 with
    | els@(.seconds _) | els@(.minutes _) | els@(.hours _) | els@(.days _) | els@(.months _) | els@(.years _) | els@(.addition _ _) | els@(.subtraction _ _) => do
        (.err (.cannotCalculateEndOfMonthOn els))
    | .moment m => do
        let t2 ← get_num_of_days_in_month cfg m.year m.month
        let last_day := (asU32 t2)
        let t4 ← Rs.optMap (fromYmdOpt cfg m.year m.month last_day) (fun nd => do
            let t3 ← nd.andHms 0 0 0
            .ok t3
          )
        let t5 ← Rs.optMap t4 (TimeType.moment cfg)
        (OutE.ofOption t5 (.outOfBounds m.year m.month last_day 0 0 0))
    | .endOfYear e => do
        (do_calculate cfg e)
    | .endOfMonth e => do
        (do_calculate cfg e)
    | .endOfDay e => do
        (do_calculate cfg e)
    | .endOfHour e => do
        (do_calculate cfg e)
    | .endOfMinute e => do
        (do_calculate cfg e)
    )
partial_fixpoint

/-- `fn end_of_day` — src/timetype.rs:535-558. -/
def end_of_day (cfg : Cfg) (tt : TT) : Out TT := do
  let t1 ← (do_calculate cfg tt)
  (match t1 with
    | els@(.seconds _) | els@(.minutes _) | els@(.hours _) | els@(.days _) | els@(.months _) | els@(.years _) | els@(.addition _ _) | els@(.subtraction _ _) => do
        (.err (.cannotCalculateEndOfMonthOn els))
    | .moment m => do
        let t3 ← Rs.optMap (fromYmdOpt cfg m.year m.month m.day) (fun nd => do
            let t2 ← nd.andHms 23 59 59
            .ok t2
          )
        let t4 ← Rs.optMap t3 (TimeType.moment cfg)
        (OutE.ofOption t4 (.outOfBounds m.year m.month m.day 23 59 59))
    | .endOfYear e => do
        (do_calculate cfg e)
    | .endOfMonth e => do
        (do_calculate cfg e)
    | .endOfDay e => do
        (do_calculate cfg e)
    | .endOfHour e => do
        (do_calculate cfg e)
    | .endOfMinute e => do
        (do_calculate cfg e)
    )
partial_fixpoint

/-- `fn end_of_hour` — src/timetype.rs:564-587. -/
def end_of_hour (cfg : Cfg) (tt : TT) : Out TT := do
  let t1 ← (do_calculate cfg tt)
  (match t1 with
    | els@(.seconds _) | els@(.minutes _) | els@(.hours _) | els@(.days _) | els@(.months _) | els@(.years _) | els@(.addition _ _) | els@(.subtraction _ _) => do
        (.err (.cannotCalculateEndOfMonthOn els))
    | .moment m => do
        let t2 ← Rs.optAndThen (fromYmdOpt cfg m.year m.month m.day) (fun nd => .ok (nd.andHmsOpt m.hour 59 59))
        let t3 ← Rs.optMap t2 (TimeType.moment cfg)
        (OutE.ofOption t3 (.outOfBounds m.year m.month m.day m.hour 59 59))
    | .endOfYear e => do
        (do_calculate cfg e)
    | .endOfMonth e => do
        (do_calculate cfg e)
    | .endOfDay e => do
        (do_calculate cfg e)
    | .endOfHour e => do
        (do_calculate cfg e)
    | .endOfMinute e => do
        (do_calculate cfg e)
    )
partial_fixpoint

/-- `fn end_of_minute` — src/timetype.rs:593-616. -/
def end_of_minute (cfg : Cfg) (tt : TT) : Out TT := do
  let t1 ← (do_calculate cfg tt)
  (match t1 with
    | els@(.seconds _) | els@(.minutes _) | els@(.hours _) | els@(.days _) | els@(.months _) | els@(.years _) | els@(.addition _ _) | els@(.subtraction _ _) => do
        (.err (.cannotCalculateEndOfMonthOn els))
    | .moment m => do
        let t2 ← Rs.optAndThen (fromYmdOpt cfg m.year m.month m.day) (fun nd => .ok (nd.andHmsOpt m.hour m.minute 59))
        let t3 ← Rs.optMap t2 (TimeType.moment cfg)
        (OutE.ofOption t3 (.outOfBounds m.year m.month m.day m.hour m.minute 59))
    | .endOfYear e => do
        (do_calculate cfg e)
    | .endOfMonth e => do
        (do_calculate cfg e)
    | .endOfDay e => do
        (do_calculate cfg e)
    | .endOfHour e => do
        (do_calculate cfg e)
    | .endOfMinute e => do
        (do_calculate cfg e)
    )
partial_fixpoint

/-- `fn add` — src/timetype.rs:618-662. -/
def add (cfg : Cfg) (a : TT) (b : TT) : Out TT := do
  (match a, b with
    | .moment mom, thing => do
        (add_to_moment cfg mom thing)
    | thing, .moment mom => do
        (.err (.cannotAdd thing (TT.moment mom)))
    | .seconds a, other => do
        (add_to_seconds cfg a other)
    | .minutes a, other => do
        (add_to_minutes cfg a other)
    | .hours a, other => do
        (add_to_hours cfg a other)
    | .days a, other => do
        (add_to_days cfg a other)
    | .months a, other => do
        (add_to_months cfg a other)
    | .years a, other => do
        (add_to_years cfg a other)
    | .addition a b, other => do
        ((add cfg a b) >>= (fun bx => (add cfg bx other)))
    | other, .addition a b => do
        ((add cfg a b) >>= (fun bx => (add cfg other bx)))
    | .subtraction a b, other => do
        ((sub cfg a b) >>= (fun bx => (add cfg other bx)))
    | other, .subtraction a b => do
        (((do_calculate cfg a) >>= (fun bx => (add cfg other bx))) >>= (fun rx => (sub cfg rx b)))
    | .endOfYear e, other => do
        (.err (.cannotAdd other (TT.endOfYear e)))
    | other, .endOfYear e => do
        (.err (.cannotAdd other (TT.endOfYear e)))
    | .endOfMonth e, other => do
        (.err (.cannotAdd other (TT.endOfMonth e)))
    | other, .endOfMonth e => do
        (.err (.cannotAdd other (TT.endOfMonth e)))
    | .endOfDay e, other => do
        (.err (.cannotAdd other (TT.endOfDay e)))
    | other, .endOfDay e => do
        (.err (.cannotAdd other (TT.endOfDay e)))
    | .endOfHour e, other => do
        (.err (.cannotAdd other (TT.endOfHour e)))
    | other, .endOfHour e => do
        (.err (.cannotAdd other (TT.endOfHour e)))
    | .endOfMinute e, other => do
        (.err (.cannotAdd other (TT.endOfMinute e)))
    )
partial_fixpoint

/-- `fn add_to_seconds` — src/timetype.rs:664-683. -/
def add_to_seconds (cfg : Cfg) (amount : Int) (tt : TT) : Out TT := do
  (match tt with
    | .seconds a => do
        let t1 ← cfg.add a amount
        (.ok (TT.seconds t1))
    | .minutes a => do
        let t2 ← cfg.mul a 60
        let t3 ← cfg.add t2 amount
        (.ok (TT.seconds t3))
    | .hours a => do
        let t4 ← cfg.mul a 60
        let t5 ← cfg.mul t4 60
        let t6 ← cfg.add t5 amount
        (.ok (TT.seconds t6))
    | .days a => do
        let t7 ← cfg.mul a 60
        let t8 ← cfg.mul t7 60
        let t9 ← cfg.mul t8 24
        let t10 ← cfg.add t9 amount
        (.ok (TT.seconds t10))
    | .months a => do
        let t11 ← cfg.mul a 60
        let t12 ← cfg.mul t11 60
        let t13 ← cfg.mul t12 24
        let t14 ← cfg.mul t13 30
        let t15 ← cfg.add t14 amount
        (.ok (TT.seconds t15))
    | .years a => do
        let t16 ← cfg.mul a 60
        let t17 ← cfg.mul t16 60
        let t18 ← cfg.mul t17 24
        let t19 ← cfg.mul t18 30
        let t20 ← cfg.mul t19 12
        let t21 ← cfg.add t20 amount
        (.ok (TT.seconds t21))
    | .moment m => do
        (.err (.cannotAdd (TT.seconds amount) (TT.moment m)))
    | .endOfYear e => do
        (.err (.cannotAdd (TT.seconds amount) (TT.endOfYear e)))
    | .endOfMonth e => do
        (.err (.cannotAdd (TT.seconds amount) (TT.endOfMonth e)))
    | .endOfDay e => do
        (.err (.cannotAdd (TT.seconds amount) (TT.endOfDay e)))
    | .endOfHour e => do
        (.err (.cannotAdd (TT.seconds amount) (TT.endOfHour e)))
    | .endOfMinute e => do
        (.err (.cannotAdd (TT.seconds amount) (TT.endOfMinute e)))
    | .addition b c => do
        let t22 ← (add cfg b c)
        (add_to_seconds cfg amount t22)
    | .subtraction b c => do
        let t23 ← (sub cfg b c)
        (add_to_seconds cfg amount t23)
    )
partial_fixpoint

/-- `fn add_to_minutes` — src/timetype.rs:685-704. -/
def add_to_minutes (cfg : Cfg) (amount : Int) (tt : TT) : Out TT := do
  (match tt with
    | .seconds a => do
        let t1 ← cfg.mul amount 60
        let t2 ← cfg.add a t1
        (.ok (TT.seconds t2))
    | .minutes a => do
        let t3 ← cfg.add a amount
        (.ok (TT.minutes t3))
    | .hours a => do
        let t4 ← cfg.mul a 60
        let t5 ← cfg.add t4 amount
        (.ok (TT.minutes t5))
    | .days a => do
        let t6 ← cfg.mul a 60
        let t7 ← cfg.mul t6 24
        let t8 ← cfg.add t7 amount
        (.ok (TT.minutes t8))
    | .months a => do
        let t9 ← cfg.mul a 60
        let t10 ← cfg.mul t9 24
        let t11 ← cfg.mul t10 30
        let t12 ← cfg.add t11 amount
        (.ok (TT.minutes t12))
    | .years a => do
        let t13 ← cfg.mul a 60
        let t14 ← cfg.mul t13 24
        let t15 ← cfg.mul t14 30
        let t16 ← cfg.mul t15 12
        let t17 ← cfg.add t16 amount
        (.ok (TT.minutes t17))
    | .moment m => do
        (.err (.cannotAdd (TT.minutes amount) (TT.moment m)))
    | .endOfYear e => do
        (.err (.cannotAdd (TT.minutes amount) (TT.endOfYear e)))
    | .endOfMonth e => do
        (.err (.cannotAdd (TT.minutes amount) (TT.endOfMonth e)))
    | .endOfDay e => do
        (.err (.cannotAdd (TT.minutes amount) (TT.endOfDay e)))
    | .endOfHour e => do
        (.err (.cannotAdd (TT.minutes amount) (TT.endOfHour e)))
    | .endOfMinute e => do
        (.err (.cannotAdd (TT.minutes amount) (TT.endOfMinute e)))
    | .addition b c => do
        let t18 ← (add cfg b c)
        (add_to_minutes cfg amount t18)
    | .subtraction b c => do
        let t19 ← (sub cfg b c)
        (add_to_minutes cfg amount t19)
    )
partial_fixpoint

/-- `fn add_to_hours` — src/timetype.rs:706-725. -/
def add_to_hours (cfg : Cfg) (amount : Int) (tt : TT) : Out TT := do
  (match tt with
    | .seconds a => do
        let t1 ← cfg.mul amount 60
        let t2 ← cfg.mul t1 60
        let t3 ← cfg.add a t2
        (.ok (TT.seconds t3))
    | .minutes a => do
        let t4 ← cfg.mul amount 60
        let t5 ← cfg.add a t4
        (.ok (TT.minutes t5))
    | .hours a => do
        let t6 ← cfg.add a amount
        (.ok (TT.hours t6))
    | .days a => do
        let t7 ← cfg.mul a 24
        let t8 ← cfg.add t7 amount
        (.ok (TT.hours t8))
    | .months a => do
        let t9 ← cfg.mul a 24
        let t10 ← cfg.mul t9 30
        let t11 ← cfg.add t10 amount
        (.ok (TT.hours t11))
    | .years a => do
        let t12 ← cfg.mul a 24
        let t13 ← cfg.mul t12 30
        let t14 ← cfg.mul t13 12
        let t15 ← cfg.add t14 amount
        (.ok (TT.hours t15))
    | .moment m => do
        (.err (.cannotAdd (TT.hours amount) (TT.moment m)))
    | .endOfYear e => do
        (.err (.cannotAdd (TT.hours amount) (TT.endOfYear e)))
    | .endOfMonth e => do
        (.err (.cannotAdd (TT.hours amount) (TT.endOfMonth e)))
    | .endOfDay e => do
        (.err (.cannotAdd (TT.hours amount) (TT.endOfDay e)))
    | .endOfHour e => do
        (.err (.cannotAdd (TT.hours amount) (TT.endOfHour e)))
    | .endOfMinute e => do
        (.err (.cannotAdd (TT.hours amount) (TT.endOfMinute e)))
    | .addition b c => do
        let t16 ← (add cfg b c)
        (add_to_hours cfg amount t16)
    | .subtraction b c => do
        let t17 ← (sub cfg b c)
        (add_to_hours cfg amount t17)
    )
partial_fixpoint

/-- `fn add_to_days` — src/timetype.rs:727-746. -/
def add_to_days (cfg : Cfg) (amount : Int) (tt : TT) : Out TT := do
  (match tt with
    | .seconds a => do
        let t1 ← cfg.mul amount 24
        let t2 ← cfg.mul t1 60
        let t3 ← cfg.mul t2 60
        let t4 ← cfg.add a t3
        (.ok (TT.seconds t4))
    | .minutes a => do
        let t5 ← cfg.mul amount 24
        let t6 ← cfg.mul t5 60
        let t7 ← cfg.add a t6
        (.ok (TT.minutes t7))
    | .hours a => do
        let t8 ← cfg.mul amount 24
        let t9 ← cfg.add a t8
        (.ok (TT.hours t9))
    | .days a => do
        let t10 ← cfg.add a amount
        (.ok (TT.days t10))
    | .months a => do
        let t11 ← cfg.mul a 30
        let t12 ← cfg.add t11 amount
        (.ok (TT.days t12))
    | .years a => do
        let t13 ← cfg.mul a 30
        let t14 ← cfg.mul t13 12
        let t15 ← cfg.add t14 amount
        (.ok (TT.days t15))
    | .moment m => do
        (.err (.cannotAdd (TT.days amount) (TT.moment m)))
    | .endOfYear e => do
        (.err (.cannotAdd (TT.days amount) (TT.endOfYear e)))
    | .endOfMonth e => do
        (.err (.cannotAdd (TT.days amount) (TT.endOfMonth e)))
    | .endOfDay e => do
        (.err (.cannotAdd (TT.days amount) (TT.endOfDay e)))
    | .endOfHour e => do
        (.err (.cannotAdd (TT.days amount) (TT.endOfHour e)))
    | .endOfMinute e => do
        (.err (.cannotAdd (TT.days amount) (TT.endOfMinute e)))
    | .addition b c => do
        let t16 ← (add cfg b c)
        (add_to_days cfg amount t16)
    | .subtraction b c => do
        let t17 ← (sub cfg b c)
        (add_to_days cfg amount t17)
    )
partial_fixpoint

/-- `fn add_to_months` — src/timetype.rs:748-767. -/
def add_to_months (cfg : Cfg) (amount : Int) (tt : TT) : Out TT := do
  (match tt with
    | .seconds a => do
        let t1 ← cfg.mul amount 30
        let t2 ← cfg.mul t1 24
        let t3 ← cfg.mul t2 60
        let t4 ← cfg.mul t3 60
        let t5 ← cfg.add a t4
        (.ok (TT.seconds t5))
    | .minutes a => do
        let t6 ← cfg.mul amount 30
        let t7 ← cfg.mul t6 24
        let t8 ← cfg.mul t7 60
        let t9 ← cfg.add a t8
        (.ok (TT.minutes t9))
    | .hours a => do
        let t10 ← cfg.mul amount 30
        let t11 ← cfg.mul t10 24
        let t12 ← cfg.add a t11
        (.ok (TT.hours t12))
    | .days a => do
        let t13 ← cfg.mul amount 30
        let t14 ← cfg.add a t13
        (.ok (TT.days t14))
    | .months a => do
        let t15 ← cfg.add a amount
        (.ok (TT.months t15))
    | .years a => do
        let t16 ← cfg.mul a 12
        let t17 ← cfg.add t16 amount
        (.ok (TT.months t17))
    | .moment m => do
        (.err (.cannotAdd (TT.months amount) (TT.moment m)))
    | .endOfYear e => do
        (.err (.cannotAdd (TT.months amount) (TT.endOfYear e)))
    | .endOfMonth e => do
        (.err (.cannotAdd (TT.months amount) (TT.endOfMonth e)))
    | .endOfDay e => do
        (.err (.cannotAdd (TT.months amount) (TT.endOfDay e)))
    | .endOfHour e => do
        (.err (.cannotAdd (TT.months amount) (TT.endOfHour e)))
    | .endOfMinute e => do
        (.err (.cannotAdd (TT.months amount) (TT.endOfMinute e)))
    | .addition b c => do
        let t18 ← (add cfg b c)
        (add_to_months cfg amount t18)
    | .subtraction b c => do
        let t19 ← (sub cfg b c)
        (add_to_months cfg amount t19)
    )
partial_fixpoint

/-- `fn add_to_years` — src/timetype.rs:769-788. -/
def add_to_years (cfg : Cfg) (amount : Int) (tt : TT) : Out TT := do
  (match tt with
    | .seconds a => do
        let t1 ← cfg.mul amount 12
        let t2 ← cfg.mul t1 30
        let t3 ← cfg.mul t2 24
        let t4 ← cfg.mul t3 60
        let t5 ← cfg.mul t4 60
        let t6 ← cfg.add a t5
        (.ok (TT.seconds t6))
    | .minutes a => do
        let t7 ← cfg.mul amount 12
        let t8 ← cfg.mul t7 30
        let t9 ← cfg.mul t8 24
        let t10 ← cfg.mul t9 60
        let t11 ← cfg.add a t10
        (.ok (TT.minutes t11))
    | .hours a => do
        let t12 ← cfg.mul amount 12
        let t13 ← cfg.mul t12 30
        let t14 ← cfg.mul t13 24
        let t15 ← cfg.add a t14
        (.ok (TT.hours t15))
    | .days a => do
        let t16 ← cfg.mul amount 12
        let t17 ← cfg.mul t16 30
        let t18 ← cfg.add a t17
        (.ok (TT.days t18))
    | .months a => do
        let t19 ← cfg.mul amount 12
        let t20 ← cfg.add a t19
        (.ok (TT.months t20))
    | .years a => do
        let t21 ← cfg.add a amount
        (.ok (TT.years t21))
    | .moment m => do
        (.err (.cannotAdd (TT.years amount) (TT.moment m)))
    | .endOfYear e => do
        (.err (.cannotAdd (TT.years amount) (TT.endOfYear e)))
    | .endOfMonth e => do
        (.err (.cannotAdd (TT.years amount) (TT.endOfMonth e)))
    | .endOfDay e => do
        (.err (.cannotAdd (TT.years amount) (TT.endOfDay e)))
    | .endOfHour e => do
        (.err (.cannotAdd (TT.years amount) (TT.endOfHour e)))
    | .endOfMinute e => do
        (.err (.cannotAdd (TT.years amount) (TT.endOfMinute e)))
    | .addition b c => do
        let t22 ← (add cfg b c)
        (add_to_years cfg amount t22)
    | .subtraction b c => do
        let t23 ← (sub cfg b c)
        (add_to_years cfg amount t23)
    )
partial_fixpoint

/-- `fn add_to_moment` — src/timetype.rs:790-899. -/
def add_to_moment (cfg : Cfg) (mom : Moment) (tt : TT) : Out TT := do
  (match tt with
    | .seconds a => do
        let y := mom.year
        let mo := mom.month
        let d := mom.day
        let h := mom.hour
        let mi := mom.minute
        let t1 ← cfg.add mom.second a
        let s := t1
        let t2 ← adjust_times_add cfg y mo d h mi s
        let (y, mo, d, h, mi, s) := t2
        let t3 ← Rs.optAndThen (fromYmdOpt cfg (asI32 y) (asU32 mo) (asU32 d)) (fun nd => .ok (nd.andHmsOpt (asU32 h) (asU32 mi) (asU32 s)))
        let t4 ← (OutE.ofOption t3 (.outOfBounds (asI32 y) (asU32 mo) (asU32 h) (asU32 h) (asU32 mi) (asU32 s)))
        let tt := t4
        let t5 ← TimeType.moment cfg tt
        (.ok t5)
    | .minutes a => do
        let y := mom.year
        let mo := mom.month
        let d := mom.day
        let h := mom.hour
        let t6 ← cfg.add mom.minute a
        let mi := t6
        let s := mom.second
        let t7 ← adjust_times_add cfg y mo d h mi s
        let (y, mo, d, h, mi, s) := t7
        let t8 ← Rs.optAndThen (fromYmdOpt cfg (asI32 y) (asU32 mo) (asU32 d)) (fun nd => .ok (nd.andHmsOpt (asU32 h) (asU32 mi) (asU32 s)))
        let t9 ← (OutE.ofOption t8 (.outOfBounds (asI32 y) (asU32 mo) (asU32 h) (asU32 h) (asU32 mi) (asU32 s)))
        let tt := t9
        let t10 ← TimeType.moment cfg tt
        (.ok t10)
    | .hours a => do
        let y := mom.year
        let mo := mom.month
        let d := mom.day
        let t11 ← cfg.add mom.hour a
        let h := t11
        let mi := mom.minute
        let s := mom.second
        let t12 ← adjust_times_add cfg y mo d h mi s
        let (y, mo, d, h, mi, s) := t12
        let t13 ← Rs.optAndThen (fromYmdOpt cfg (asI32 y) (asU32 mo) (asU32 d)) (fun nd => .ok (nd.andHmsOpt (asU32 h) (asU32 mi) (asU32 s)))
        let t14 ← (OutE.ofOption t13 (.outOfBounds (asI32 y) (asU32 mo) (asU32 h) (asU32 h) (asU32 mi) (asU32 s)))
        let tt := t14
        let t15 ← TimeType.moment cfg tt
        (.ok t15)
    | .days a => do
        let y := mom.year
        let mo := mom.month
        let t16 ← cfg.add mom.day a
        let d := t16
        let h := mom.hour
        let mi := mom.minute
        let s := mom.second
        let t17 ← adjust_times_add cfg y mo d h mi s
        let (y, mo, d, h, mi, s) := t17
        let t18 ← Rs.optAndThen (fromYmdOpt cfg (asI32 y) (asU32 mo) (asU32 d)) (fun nd => .ok (nd.andHmsOpt (asU32 h) (asU32 mi) (asU32 s)))
        let t19 ← (OutE.ofOption t18 (.outOfBounds (asI32 y) (asU32 mo) (asU32 h) (asU32 h) (asU32 mi) (asU32 s)))
        let tt := t19
        let t20 ← TimeType.moment cfg tt
        (.ok t20)
    | .months a => do
        let y := mom.year
        let t21 ← cfg.add mom.month a
        let mo := t21
        let d := mom.day
        let h := mom.hour
        let mi := mom.minute
        let s := mom.second
        let t22 ← adjust_times_add cfg y mo d h mi s
        let (y, mo, d, h, mi, s) := t22
        let t23 ← Rs.optAndThen (fromYmdOpt cfg (asI32 y) (asU32 mo) (asU32 d)) (fun nd => .ok (nd.andHmsOpt (asU32 h) (asU32 mi) (asU32 s)))
        let t24 ← (OutE.ofOption t23 (.outOfBounds (asI32 y) (asU32 mo) (asU32 h) (asU32 h) (asU32 mi) (asU32 s)))
        let tt := t24
        let t25 ← TimeType.moment cfg tt
        (.ok t25)
    | .years a => do
        let t26 ← cfg.add mom.year a
        let y := t26
        let mo := mom.month
        let d := mom.day
        let h := mom.hour
        let mi := mom.minute
        let s := mom.second
        let t27 ← adjust_times_add cfg y mo d h mi s
        let (y, mo, d, h, mi, s) := t27
        let t28 ← Rs.optAndThen (fromYmdOpt cfg (asI32 y) (asU32 mo) (asU32 d)) (fun nd => .ok (nd.andHmsOpt (asU32 h) (asU32 mi) (asU32 s)))
        let t29 ← (OutE.ofOption t28 (.outOfBounds (asI32 y) (asU32 mo) (asU32 h) (asU32 h) (asU32 mi) (asU32 s)))
        let tt := t29
        let t30 ← TimeType.moment cfg tt
        (.ok t30)
    | .moment m => do
        (.err (.cannotAdd (TT.moment mom) (TT.moment m)))
    | .endOfYear e => do
        (.err (.cannotAdd (TT.moment mom) (TT.endOfYear e)))
    | .endOfMonth e => do
        (.err (.cannotAdd (TT.moment mom) (TT.endOfMonth e)))
    | .endOfDay e => do
        (.err (.cannotAdd (TT.moment mom) (TT.endOfDay e)))
    | .endOfHour e => do
        (.err (.cannotAdd (TT.moment mom) (TT.endOfHour e)))
    | .endOfMinute e => do
        (.err (.cannotAdd (TT.moment mom) (TT.endOfMinute e)))
    | .addition a b => do
        let t31 ← (add cfg a b)
        (add_to_moment cfg mom t31)
    | .subtraction a b => do
        let t32 ← (sub cfg a b)
        (add_to_moment cfg mom t32)
    )
partial_fixpoint

/-- `fn sub` — src/timetype.rs:901-943. -/
def sub (cfg : Cfg) (a : TT) (b : TT) : Out TT := do
  (match a, b with
    | .moment mom, thing => do
        (sub_from_moment cfg mom thing)
    | .seconds a, other => do
        (sub_from_seconds cfg a other)
    | .minutes a, other => do
        (sub_from_minutes cfg a other)
    | .hours a, other => do
        (sub_from_hours cfg a other)
    | .days a, other => do
        (sub_from_days cfg a other)
    | .months a, other => do
        (sub_from_months cfg a other)
    | .years a, other => do
        (sub_from_years cfg a other)
    | .subtraction a b, other => do
        ((sub cfg a b) >>= (fun bx => (sub cfg bx other)))
    | other, .subtraction a b => do
        ((sub cfg a b) >>= (fun bx => (sub cfg other bx)))
    | .addition a b, other => do
        ((add cfg a b) >>= (fun bx => (sub cfg bx other)))
    | other, .addition a b => do
        (((do_calculate cfg a) >>= (fun bx => (sub cfg other bx))) >>= (fun rx => (add cfg rx b)))
    | .endOfYear e, other => do
        (.err (.cannotSub other (TT.endOfYear e)))
    | other, .endOfYear e => do
        (.err (.cannotSub other (TT.endOfYear e)))
    | .endOfMonth e, other => do
        (.err (.cannotSub other (TT.endOfMonth e)))
    | other, .endOfMonth e => do
        (.err (.cannotSub other (TT.endOfMonth e)))
    | .endOfDay e, other => do
        (.err (.cannotSub other (TT.endOfDay e)))
    | other, .endOfDay e => do
        (.err (.cannotSub other (TT.endOfDay e)))
    | .endOfHour e, other => do
        (.err (.cannotSub other (TT.endOfHour e)))
    | other, .endOfHour e => do
        (.err (.cannotSub other (TT.endOfHour e)))
    | .endOfMinute e, other => do
        (.err (.cannotSub other (TT.endOfMinute e)))
    )
partial_fixpoint

/-- `fn sub_from_seconds` — src/timetype.rs:945-964. -/
def sub_from_seconds (cfg : Cfg) (amount : Int) (tt : TT) : Out TT := do
  (match tt with
    | .seconds a => do
        let t1 ← cfg.sub amount a
        (.ok (TT.seconds t1))
    | .minutes a => do
        let t2 ← cfg.mul a 60
        let t3 ← cfg.sub amount t2
        (.ok (TT.seconds t3))
    | .hours a => do
        let t4 ← cfg.mul a 60
        let t5 ← cfg.mul t4 60
        let t6 ← cfg.sub amount t5
        (.ok (TT.seconds t6))
    | .days a => do
        let t7 ← cfg.mul a 60
        let t8 ← cfg.mul t7 60
        let t9 ← cfg.mul t8 24
        let t10 ← cfg.sub amount t9
        (.ok (TT.seconds t10))
    | .months a => do
        let t11 ← cfg.mul a 60
        let t12 ← cfg.mul t11 60
        let t13 ← cfg.mul t12 24
        let t14 ← cfg.mul t13 30
        let t15 ← cfg.sub amount t14
        (.ok (TT.seconds t15))
    | .years a => do
        let t16 ← cfg.mul a 60
        let t17 ← cfg.mul t16 60
        let t18 ← cfg.mul t17 24
        let t19 ← cfg.mul t18 30
        let t20 ← cfg.mul t19 12
        let t21 ← cfg.sub amount t20
        (.ok (TT.seconds t21))
    | .moment m => do
        (.err (.cannotSub (TT.seconds amount) (TT.moment m)))
    | .endOfYear e => do
        (.err (.cannotSub (TT.seconds amount) (TT.endOfYear e)))
    | .endOfMonth e => do
        (.err (.cannotSub (TT.seconds amount) (TT.endOfMonth e)))
    | .endOfDay e => do
        (.err (.cannotSub (TT.seconds amount) (TT.endOfDay e)))
    | .endOfHour e => do
        (.err (.cannotSub (TT.seconds amount) (TT.endOfHour e)))
    | .endOfMinute e => do
        (.err (.cannotSub (TT.seconds amount) (TT.endOfMinute e)))
    | .addition b c => do
        let t22 ← (add cfg b c)
        (sub_from_seconds cfg amount t22)
    | .subtraction b c => do
        let t23 ← (sub cfg b c)
        (sub_from_seconds cfg amount t23)
    )
partial_fixpoint

/-- `fn sub_from_minutes` — src/timetype.rs:966-985. -/
def sub_from_minutes (cfg : Cfg) (amount : Int) (tt : TT) : Out TT := do
  (match tt with
    | .seconds a => do
        let t1 ← cfg.mul amount 60
        let t2 ← cfg.sub t1 a
        (.ok (TT.seconds t2))
    | .minutes a => do
        let t3 ← cfg.sub amount a
        (.ok (TT.minutes t3))
    | .hours a => do
        let t4 ← cfg.mul a 60
        let t5 ← cfg.sub amount t4
        (.ok (TT.minutes t5))
    | .days a => do
        let t6 ← cfg.mul a 60
        let t7 ← cfg.mul t6 24
        let t8 ← cfg.sub amount t7
        (.ok (TT.minutes t8))
    | .months a => do
        let t9 ← cfg.mul a 60
        let t10 ← cfg.mul t9 24
        let t11 ← cfg.mul t10 30
        let t12 ← cfg.sub amount t11
        (.ok (TT.minutes t12))
    | .years a => do
        let t13 ← cfg.mul a 60
        let t14 ← cfg.mul t13 24
        let t15 ← cfg.mul t14 30
        let t16 ← cfg.mul t15 12
        let t17 ← cfg.sub amount t16
        (.ok (TT.minutes t17))
    | .moment m => do
        (.err (.cannotSub (TT.minutes amount) (TT.moment m)))
    | .endOfYear e => do
        (.err (.cannotSub (TT.minutes amount) (TT.endOfYear e)))
    | .endOfMonth e => do
        (.err (.cannotSub (TT.minutes amount) (TT.endOfMonth e)))
    | .endOfDay e => do
        (.err (.cannotSub (TT.minutes amount) (TT.endOfDay e)))
    | .endOfHour e => do
        (.err (.cannotSub (TT.minutes amount) (TT.endOfHour e)))
    | .endOfMinute e => do
        (.err (.cannotSub (TT.minutes amount) (TT.endOfMinute e)))
    | .addition b c => do
        let t18 ← (add cfg b c)
        (sub_from_minutes cfg amount t18)
    | .subtraction b c => do
        let t19 ← (sub cfg b c)
        (sub_from_minutes cfg amount t19)
    )
partial_fixpoint

/-- `fn sub_from_hours` — src/timetype.rs:987-1006. -/
def sub_from_hours (cfg : Cfg) (amount : Int) (tt : TT) : Out TT := do
  (match tt with
    | .seconds a => do
        let t1 ← cfg.mul amount 60
        let t2 ← cfg.mul t1 60
        let t3 ← cfg.sub t2 a
        (.ok (TT.seconds t3))
    | .minutes a => do
        let t4 ← cfg.mul amount 60
        let t5 ← cfg.sub t4 a
        (.ok (TT.minutes t5))
    | .hours a => do
        let t6 ← cfg.sub amount a
        (.ok (TT.hours t6))
    | .days a => do
        let t7 ← cfg.mul a 24
        let t8 ← cfg.sub amount t7
        (.ok (TT.hours t8))
    | .months a => do
        let t9 ← cfg.mul a 24
        let t10 ← cfg.mul t9 30
        let t11 ← cfg.sub amount t10
        (.ok (TT.hours t11))
    | .years a => do
        let t12 ← cfg.mul a 24
        let t13 ← cfg.mul t12 30
        let t14 ← cfg.mul t13 12
        let t15 ← cfg.sub amount t14
        (.ok (TT.hours t15))
    | .moment m => do
        (.err (.cannotSub (TT.hours amount) (TT.moment m)))
    | .endOfYear e => do
        (.err (.cannotSub (TT.hours amount) (TT.endOfYear e)))
    | .endOfMonth e => do
        (.err (.cannotSub (TT.hours amount) (TT.endOfMonth e)))
    | .endOfDay e => do
        (.err (.cannotSub (TT.hours amount) (TT.endOfDay e)))
    | .endOfHour e => do
        (.err (.cannotSub (TT.hours amount) (TT.endOfHour e)))
    | .endOfMinute e => do
        (.err (.cannotSub (TT.hours amount) (TT.endOfMinute e)))
    | .addition b c => do
        let t16 ← (add cfg b c)
        (sub_from_hours cfg amount t16)
    | .subtraction b c => do
        let t17 ← (sub cfg b c)
        (sub_from_hours cfg amount t17)
    )
partial_fixpoint

/-- `fn sub_from_days` — src/timetype.rs:1008-1027. -/
def sub_from_days (cfg : Cfg) (amount : Int) (tt : TT) : Out TT := do
  (match tt with
    | .seconds a => do
        let t1 ← cfg.mul amount 24
        let t2 ← cfg.mul t1 60
        let t3 ← cfg.mul t2 60
        let t4 ← cfg.sub t3 a
        (.ok (TT.seconds t4))
    | .minutes a => do
        let t5 ← cfg.mul amount 24
        let t6 ← cfg.mul t5 60
        let t7 ← cfg.sub t6 a
        (.ok (TT.minutes t7))
    | .hours a => do
        let t8 ← cfg.mul amount 24
        let t9 ← cfg.sub t8 a
        (.ok (TT.hours t9))
    | .days a => do
        let t10 ← cfg.sub amount a
        (.ok (TT.days t10))
    | .months a => do
        let t11 ← cfg.mul a 30
        let t12 ← cfg.sub amount t11
        (.ok (TT.days t12))
    | .years a => do
        let t13 ← cfg.mul a 30
        let t14 ← cfg.mul t13 12
        let t15 ← cfg.sub amount t14
        (.ok (TT.days t15))
    | .moment m => do
        (.err (.cannotSub (TT.days amount) (TT.moment m)))
    | .endOfYear e => do
        (.err (.cannotSub (TT.days amount) (TT.endOfYear e)))
    | .endOfMonth e => do
        (.err (.cannotSub (TT.days amount) (TT.endOfMonth e)))
    | .endOfDay e => do
        (.err (.cannotSub (TT.days amount) (TT.endOfDay e)))
    | .endOfHour e => do
        (.err (.cannotSub (TT.days amount) (TT.endOfHour e)))
    | .endOfMinute e => do
        (.err (.cannotSub (TT.days amount) (TT.endOfMinute e)))
    | .addition b c => do
        let t16 ← (add cfg b c)
        (sub_from_days cfg amount t16)
    | .subtraction b c => do
        let t17 ← (sub cfg b c)
        (sub_from_days cfg amount t17)
    )
partial_fixpoint

/-- `fn sub_from_months` — src/timetype.rs:1029-1048. -/
def sub_from_months (cfg : Cfg) (amount : Int) (tt : TT) : Out TT := do
  (match tt with
    | .seconds a => do
        let t1 ← cfg.mul amount 30
        let t2 ← cfg.mul t1 24
        let t3 ← cfg.mul t2 60
        let t4 ← cfg.mul t3 60
        let t5 ← cfg.sub t4 a
        (.ok (TT.seconds t5))
    | .minutes a => do
        let t6 ← cfg.mul amount 30
        let t7 ← cfg.mul t6 24
        let t8 ← cfg.mul t7 60
        let t9 ← cfg.sub t8 a
        (.ok (TT.minutes t9))
    | .hours a => do
        let t10 ← cfg.mul amount 30
        let t11 ← cfg.mul t10 24
        let t12 ← cfg.sub t11 a
        (.ok (TT.hours t12))
    | .days a => do
        let t13 ← cfg.mul amount 30
        let t14 ← cfg.sub t13 a
        (.ok (TT.days t14))
    | .months a => do
        let t15 ← cfg.sub amount a
        (.ok (TT.months t15))
    | .years a => do
        let t16 ← cfg.mul a 12
        let t17 ← cfg.sub amount t16
        (.ok (TT.months t17))
    | .moment m => do
        (.err (.cannotSub (TT.months amount) (TT.moment m)))
    | .endOfYear e => do
        (.err (.cannotSub (TT.months amount) (TT.endOfYear e)))
    | .endOfMonth e => do
        (.err (.cannotSub (TT.months amount) (TT.endOfMonth e)))
    | .endOfDay e => do
        (.err (.cannotSub (TT.months amount) (TT.endOfDay e)))
    | .endOfHour e => do
        (.err (.cannotSub (TT.months amount) (TT.endOfHour e)))
    | .endOfMinute e => do
        (.err (.cannotSub (TT.months amount) (TT.endOfMinute e)))
    | .addition b c => do
        let t18 ← (add cfg b c)
        (sub_from_months cfg amount t18)
    | .subtraction b c => do
        let t19 ← (sub cfg b c)
        (sub_from_months cfg amount t19)
    )
partial_fixpoint

/-- `fn sub_from_years` — src/timetype.rs:1050-1069. -/
def sub_from_years (cfg : Cfg) (amount : Int) (tt : TT) : Out TT := do
  (match tt with
    | .seconds a => do
        let t1 ← cfg.mul amount 12
        let t2 ← cfg.mul t1 30
        let t3 ← cfg.mul t2 24
        let t4 ← cfg.mul t3 60
        let t5 ← cfg.mul t4 60
        let t6 ← cfg.sub t5 a
        (.ok (TT.seconds t6))
    | .minutes a => do
        let t7 ← cfg.mul amount 12
        let t8 ← cfg.mul t7 30
        let t9 ← cfg.mul t8 24
        let t10 ← cfg.mul t9 60
        let t11 ← cfg.sub t10 a
        (.ok (TT.minutes t11))
    | .hours a => do
        let t12 ← cfg.mul amount 12
        let t13 ← cfg.mul t12 30
        let t14 ← cfg.mul t13 24
        let t15 ← cfg.sub t14 a
        (.ok (TT.hours t15))
    | .days a => do
        let t16 ← cfg.mul amount 12
        let t17 ← cfg.mul t16 30
        let t18 ← cfg.sub t17 a
        (.ok (TT.days t18))
    | .months a => do
        let t19 ← cfg.mul amount 12
        let t20 ← cfg.sub t19 a
        (.ok (TT.months t20))
    | .years a => do
        let t21 ← cfg.sub amount a
        (.ok (TT.years t21))
    | .moment m => do
        (.err (.cannotSub (TT.years amount) (TT.moment m)))
    | .endOfYear e => do
        (.err (.cannotSub (TT.years amount) (TT.endOfYear e)))
    | .endOfMonth e => do
        (.err (.cannotSub (TT.years amount) (TT.endOfMonth e)))
    | .endOfDay e => do
        (.err (.cannotSub (TT.years amount) (TT.endOfDay e)))
    | .endOfHour e => do
        (.err (.cannotSub (TT.years amount) (TT.endOfHour e)))
    | .endOfMinute e => do
        (.err (.cannotSub (TT.years amount) (TT.endOfMinute e)))
    | .addition b c => do
        let t22 ← (add cfg b c)
        (sub_from_years cfg amount t22)
    | .subtraction b c => do
        let t23 ← (sub cfg b c)
        (sub_from_years cfg amount t23)
    )
partial_fixpoint

/-- `fn sub_from_moment` — src/timetype.rs:1071-1180. -/
def sub_from_moment (cfg : Cfg) (mom : Moment) (tt : TT) : Out TT := do
  (match tt with
    | .seconds a => do
        let y := mom.year
        let mo := mom.month
        let d := mom.day
        let h := mom.hour
        let mi := mom.minute
        let t1 ← cfg.sub mom.second a
        let s := t1
        let t2 ← adjust_times_sub cfg y mo d h mi s
        let (y, mo, d, h, mi, s) := t2
        let t3 ← Rs.optAndThen (fromYmdOpt cfg (asI32 y) (asU32 mo) (asU32 d)) (fun nd => .ok (nd.andHmsOpt (asU32 h) (asU32 mi) (asU32 s)))
        let t4 ← (OutE.ofOption t3 (.outOfBounds (asI32 y) (asU32 mo) (asU32 h) (asU32 h) (asU32 mi) (asU32 s)))
        let tt := t4
        let t5 ← TimeType.moment cfg tt
        (.ok t5)
    | .minutes a => do
        let y := mom.year
        let mo := mom.month
        let d := mom.day
        let h := mom.hour
        let t6 ← cfg.sub mom.minute a
        let mi := t6
        let s := mom.second
        let t7 ← adjust_times_sub cfg y mo d h mi s
        let (y, mo, d, h, mi, s) := t7
        let t8 ← Rs.optAndThen (fromYmdOpt cfg (asI32 y) (asU32 mo) (asU32 d)) (fun nd => .ok (nd.andHmsOpt (asU32 h) (asU32 mi) (asU32 s)))
        let t9 ← (OutE.ofOption t8 (.outOfBounds (asI32 y) (asU32 mo) (asU32 h) (asU32 h) (asU32 mi) (asU32 s)))
        let tt := t9
        let t10 ← TimeType.moment cfg tt
        (.ok t10)
    | .hours a => do
        let y := mom.year
        let mo := mom.month
        let d := mom.day
        let t11 ← cfg.sub mom.hour a
        let h := t11
        let mi := mom.minute
        let s := mom.second
        let t12 ← adjust_times_sub cfg y mo d h mi s
        let (y, mo, d, h, mi, s) := t12
        let t13 ← Rs.optAndThen (fromYmdOpt cfg (asI32 y) (asU32 mo) (asU32 d)) (fun nd => .ok (nd.andHmsOpt (asU32 h) (asU32 mi) (asU32 s)))
        let t14 ← (OutE.ofOption t13 (.outOfBounds (asI32 y) (asU32 mo) (asU32 h) (asU32 h) (asU32 mi) (asU32 s)))
        let tt := t14
        let t15 ← TimeType.moment cfg tt
        (.ok t15)
    | .days a => do
        let y := mom.year
        let mo := mom.month
        let t16 ← cfg.sub mom.day a
        let d := t16
        let h := mom.hour
        let mi := mom.minute
        let s := mom.second
        let t17 ← adjust_times_sub cfg y mo d h mi s
        let (y, mo, d, h, mi, s) := t17
        let t18 ← Rs.optAndThen (fromYmdOpt cfg (asI32 y) (asU32 mo) (asU32 d)) (fun nd => .ok (nd.andHmsOpt (asU32 h) (asU32 mi) (asU32 s)))
        let t19 ← (OutE.ofOption t18 (.outOfBounds (asI32 y) (asU32 mo) (asU32 h) (asU32 h) (asU32 mi) (asU32 s)))
        let tt := t19
        let t20 ← TimeType.moment cfg tt
        (.ok t20)
    | .months a => do
        let y := mom.year
        let t21 ← cfg.sub mom.month a
        let mo := t21
        let d := mom.day
        let h := mom.hour
        let mi := mom.minute
        let s := mom.second
        let t22 ← adjust_times_sub cfg y mo d h mi s
        let (y, mo, d, h, mi, s) := t22
        let t23 ← Rs.optAndThen (fromYmdOpt cfg (asI32 y) (asU32 mo) (asU32 d)) (fun nd => .ok (nd.andHmsOpt (asU32 h) (asU32 mi) (asU32 s)))
        let t24 ← (OutE.ofOption t23 (.outOfBounds (asI32 y) (asU32 mo) (asU32 h) (asU32 h) (asU32 mi) (asU32 s)))
        let tt := t24
        let t25 ← TimeType.moment cfg tt
        (.ok t25)
    | .years a => do
        let t26 ← cfg.sub mom.year a
        let y := t26
        let mo := mom.month
        let d := mom.day
        let h := mom.hour
        let mi := mom.minute
        let s := mom.second
        let t27 ← adjust_times_sub cfg y mo d h mi s
        let (y, mo, d, h, mi, s) := t27
        let t28 ← Rs.optAndThen (fromYmdOpt cfg (asI32 y) (asU32 mo) (asU32 d)) (fun nd => .ok (nd.andHmsOpt (asU32 h) (asU32 mi) (asU32 s)))
        let t29 ← (OutE.ofOption t28 (.outOfBounds (asI32 y) (asU32 mo) (asU32 h) (asU32 h) (asU32 mi) (asU32 s)))
        let tt := t29
        let t30 ← TimeType.moment cfg tt
        (.ok t30)
    | .moment m => do
        (.err (.cannotSub (TT.moment mom) (TT.moment m)))
    | .endOfYear e => do
        (.err (.cannotSub (TT.moment mom) (TT.endOfYear e)))
    | .endOfMonth e => do
        (.err (.cannotSub (TT.moment mom) (TT.endOfMonth e)))
    | .endOfDay e => do
        (.err (.cannotSub (TT.moment mom) (TT.endOfDay e)))
    | .endOfHour e => do
        (.err (.cannotSub (TT.moment mom) (TT.endOfHour e)))
    | .endOfMinute e => do
        (.err (.cannotSub (TT.moment mom) (TT.endOfMinute e)))
    | .addition a b => do
        let t31 ← (add cfg a b)
        (sub_from_moment cfg mom t31)
    | .subtraction a b => do
        let t32 ← (sub cfg a b)
        (sub_from_moment cfg mom t32)
    )
partial_fixpoint

end

/-- `fn calculate` — src/timetype.rs:435-437. -/
def TimeType.calculate (cfg : Cfg) (self : TT) : Out TT := do
  (do_calculate cfg self)

end Kairos.Source
