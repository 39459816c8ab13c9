import Verif.Spec.Calendar
import Verif.Model.Base

/-!
# What is assumed of the `chrono` crate

`chrono` is a dependency, its code is not in `/repo`. This file is the assumed contract of the
handful of chrono functions the repository calls.
-/

namespace Kairos

/-- `chrono::NaiveDateTime`, by its components. `nano` is the sub-second part; chrono stores a leap
second as `nano ≥ 1_000_000_000`. -/
structure Moment where
  year : Int
  month : Int
  day : Int
  hour : Int
  minute : Int
  second : Int
  nano : Int
deriving DecidableEq, Repr

/-- A `NaiveDateTime` (src/timetype.rs:30) that can exist: in chrono's year range, on the calendar, with a time of day. -/
def Moment.Valid (c : Cfg) (m : Moment) : Prop :=
  c.minYear ≤ m.year ∧ m.year ≤ c.maxYear ∧ Cal.ValidDate m.year m.month m.day ∧
  Cal.ValidTime m.hour m.minute m.second ∧ 0 ≤ m.nano ∧ m.nano < 2000000000

instance (c : Cfg) (m : Moment) : Decidable (m.Valid c) := by unfold Moment.Valid; infer_instance

/-- Position of a chrono `NaiveDateTime` on the calendar timeline, in whole seconds. Not a function of the code; used in statements only. -/
def Moment.instant (m : Moment) : Int :=
  Cal.instant m.year m.month m.day m.hour m.minute m.second

/-- `chrono::NaiveDate`, by its components. -/
structure Date where
  year : Int
  month : Int
  day : Int
deriving DecidableEq, Repr

/-- chrono's `NaiveDate::from_ymd_opt(y, m, d)`, called in src/timetype.rs:485, 517, 547, 576, 605, 804-884, 1085-1165: `Some` exactly for existing dates in range. -/
def fromYmdOpt (c : Cfg) (y m d : Int) : Option Date :=
  if c.minYear ≤ y ∧ y ≤ c.maxYear ∧ Cal.ValidDate y m d then some ⟨y, m, d⟩ else none

/-- chrono's `NaiveDate::and_hms_opt(h, m, s)`, called in src/timetype.rs:577, 606, 805-885, 1086-1166: `Some` exactly for h < 24, m < 60, s < 60 (arguments are
`u32`, so never negative in the code). -/
def Date.andHmsOpt (nd : Date) (h mi s : Int) : Option Moment :=
  if Cal.ValidTime h mi s then some ⟨nd.year, nd.month, nd.day, h, mi, s, 0⟩ else none

/-- chrono's `NaiveDate::and_hms(h, m, s)`, called in src/timetype.rs:486, 518, 548: panics where `and_hms_opt` returns `None`. -/
def Date.andHms {ε : Type} (nd : Date) (h mi s : Int) : OutE ε Moment :=
  match nd.andHmsOpt h mi s with
  | some m => .ok m
  | none => .panic

/-- chrono's `Datelike::weekday`, called in src/timetype.rs:397, src/matcher.rs:21, src/indicator.rs:79; as 0 = Monday .. 6 = Sunday. -/
def Moment.weekday (m : Moment) : Int := Cal.weekday m.year m.month m.day

/-- `Ord for NaiveDateTime`: by date (year, then day within the year), then time of day, then
sub-second part. (chrono packs year and day-of-year in one integer; for existing dates comparing
month and then day is the same.) -/
def Moment.cmp (a b : Moment) : Ordering :=
  (compare a.year b.year).then <| (compare a.month b.month).then <| (compare a.day b.day).then <|
  (compare a.hour b.hour).then <| (compare a.minute b.minute).then <|
  (compare a.second b.second).then <| compare a.nano b.nano

/-- `<` on chrono's `NaiveDateTime`, used in src/iter.rs:211 (`UntilIter::next`). -/
def Moment.lt (a b : Moment) : Bool := a.cmp b == .lt

end Kairos
