import Verif.Model.TimeType

/-!
# Model of `src/indicator.rs`, `src/matcher.rs`, `is_a`/`is_in`, and the derived ordering
-/

namespace Kairos

/-- `enum Day` — src/indicator.rs:13-22. -/
inductive Day where
  | monday | tuesday | wednesday | thursday | friday | saturday | sunday
deriving DecidableEq, Repr

/-- `impl Into<chrono::Weekday> for Day` — src/indicator.rs:24-36. chrono's `Weekday` is
represented by its number of days from Monday. -/
def Day.into : Day → Int
  | .monday => 0
  | .tuesday => 1
  | .wednesday => 2
  | .thursday => 3
  | .friday => 4
  | .saturday => 5
  | .sunday => 6

/-- Position of the variant in `enum Day` — src/indicator.rs:14-22. -/
def Day.rank : Day → Nat
  | .monday => 0
  | .tuesday => 1
  | .wednesday => 2
  | .thursday => 3
  | .friday => 4
  | .saturday => 5
  | .sunday => 6

/-- `#[derive(PartialOrd, Ord)]` on `Day` — src/indicator.rs:13: by the position of the variant. -/
def Day.cmp (a b : Day) : Ordering := compare a.rank b.rank

/-- `enum Month` — src/indicator.rs:38-52. -/
inductive Month where
  | january | february | march | april | may | june
  | july | august | september | october | november | december
deriving DecidableEq, Repr

/-- `impl Into<u32> for Month` — src/indicator.rs:54-71. -/
def Month.into : Month → Int
  | .january => 1
  | .february => 2
  | .march => 3
  | .april => 4
  | .may => 5
  | .june => 6
  | .july => 7
  | .august => 8
  | .september => 9
  | .october => 10
  | .november => 11
  | .december => 12

/-- Position of the variant in `enum Month` — src/indicator.rs:39-52. -/
def Month.rank : Month → Nat
  | .january => 0
  | .february => 1
  | .march => 2
  | .april => 3
  | .may => 4
  | .june => 5
  | .july => 6
  | .august => 7
  | .september => 8
  | .october => 9
  | .november => 10
  | .december => 11

/-- `#[derive(PartialOrd, Ord)]` on `Month` — src/indicator.rs:38: by the position of the variant. -/
def Month.cmp (a b : Month) : Ordering := compare a.rank b.rank

/-- `TimeType::is_a` — src/timetype.rs:393-400. -/
def TT.isA (t : TT) (d : Day) : Out Bool :=
  match t with
  | .moment m => .ok (m.weekday == d.into)
  | _ => .err (.cannotCompareDayTo t.name)

/-- `TimeType::is_in` — src/timetype.rs:404-411. -/
def TT.isIn (t : TT) (month : Month) : Out Bool :=
  match t with
  | .moment m => .ok (m.month == month.into)
  | _ => .err (.cannotCompareMonthTo t.name)

/-- `impl Matcher for Day` — src/matcher.rs:15-23. -/
def Day.matches (this : Day) (tt : TT) : Out Bool :=
  OutE.ofOption (tt.getMoment.map (fun mom => this.into == mom.weekday))
    (.argumentErrorNotAMoment tt.name)

/-- `impl Matcher for Month` — src/matcher.rs:25-34. -/
def Month.matches (this : Month) (tt : TT) : Out Bool :=
  OutE.ofOption (tt.getMoment.map (fun mom => this.into == mom.month))
    (.argumentErrorNotAMoment tt.name)

/-- `DayFilter::filter` — src/indicator.rs:76-81. -/
def Day.filter (this : Day) (tt : TT) : Bool :=
  (tt.getMoment.map (fun mom => mom.weekday == this.into)).getD false

/-- `MonthFilter::filter` — src/indicator.rs:97-102. -/
def Month.filter (this : Month) (tt : TT) : Bool :=
  (tt.getMoment.map (fun mom => mom.month == this.into)).getD false

/-- `impl<F: Filter<TimeType>> Matcher for F` — src/matcher.rs:39-46. -/
def filterMatches (f : TT → Bool) (tt : TT) : Out Bool := .ok (f tt)

/-- Position of the variant in `enum TimeType` (src/timetype.rs:22-40), which the derived order
compares first. -/
def TT.rank : TT → Nat
  | .seconds .. => 0
  | .minutes .. => 1
  | .hours .. => 2
  | .days .. => 3
  | .months .. => 4
  | .years .. => 5
  | .moment .. => 6
  | .addition .. => 7
  | .subtraction .. => 8
  | .endOfYear .. => 9
  | .endOfMonth .. => 10
  | .endOfDay .. => 11
  | .endOfHour .. => 12
  | .endOfMinute .. => 13

/-- `#[derive(PartialOrd, Ord)]` on `TimeType` — src/timetype.rs:21: variant first, then the fields
in order. -/
def TT.cmp : TT → TT → Ordering
  | .seconds a, .seconds b => compare a b
  | .minutes a, .minutes b => compare a b
  | .hours a, .hours b => compare a b
  | .days a, .days b => compare a b
  | .months a, .months b => compare a b
  | .years a, .years b => compare a b
  | .moment a, .moment b => a.cmp b
  | .addition a b, .addition a' b' => (a.cmp a').then (b.cmp b')
  | .subtraction a b, .subtraction a' b' => (a.cmp a').then (b.cmp b')
  | .endOfYear a, .endOfYear b => a.cmp b
  | .endOfMonth a, .endOfMonth b => a.cmp b
  | .endOfDay a, .endOfDay b => a.cmp b
  | .endOfHour a, .endOfHour b => a.cmp b
  | .endOfMinute a, .endOfMinute b => a.cmp b
  | a, b => compare a.rank b.rank

end Kairos
