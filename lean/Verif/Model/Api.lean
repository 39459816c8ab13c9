import Verif.Model.Iter
import Verif.Model.Indicator

/-!
# Model of the functions that only put values and iterators together

The other files write the variants of `TimeType` and the states of iterators directly; here are the functions of the library that build them.
-/

namespace Kairos.Api

/-! ## `TimeType` -/

/-- `TimeType::seconds` — src/timetype.rs:134-136. -/
def seconds (i : Int) : TT := .seconds i

/-- `TimeType::minutes` — src/timetype.rs:138-140. -/
def minutes (i : Int) : TT := .minutes i

/-- `TimeType::hours` — src/timetype.rs:142-144. -/
def hours (i : Int) : TT := .hours i

/-- `TimeType::days` — src/timetype.rs:146-148. (`weeks` is `TT.weeks`.) -/
def days (i : Int) : TT := .days i

/-- `TimeType::months` — src/timetype.rs:155-157. -/
def months (i : Int) : TT := .months i

/-- `TimeType::years` — src/timetype.rs:159-161. -/
def years (i : Int) : TT := .years i

/-- `TimeType::moment` — src/timetype.rs:163-165. -/
def moment (ndt : Moment) : TT := .moment ndt

/-- `TimeType::today` — src/timetype.rs:97-99; `now` is what the clock shows. -/
def today (now : Moment) : TT := moment now

/-- `TimeType::end_of_year` — src/timetype.rs:176-178. -/
def endOfYear (self : TT) : TT := .endOfYear self

/-- `TimeType::end_of_month` — src/timetype.rs:188-190. -/
def endOfMonth (self : TT) : TT := .endOfMonth self

/-- `TimeType::end_of_day` — src/timetype.rs:200-202. -/
def endOfDay (self : TT) : TT := .endOfDay self

/-- `TimeType::end_of_hour` — src/timetype.rs:212-214. -/
def endOfHour (self : TT) : TT := .endOfHour self

/-- `TimeType::end_of_minute` — src/timetype.rs:224-226. -/
def endOfMinute (self : TT) : TT := .endOfMinute self

/-- `AddAssign::add_assign` — src/timetype.rs:50-54: the new value of `self`. -/
def addAssign (self rhs : TT) : TT := .addition self rhs

/-- `SubAssign::sub_assign` — src/timetype.rs:64-68: the new value of `self`. -/
def subAssign (self rhs : TT) : TT := .subtraction self rhs

/-- `IntoTimeType for TimeType` — src/timetype.rs:444-452. -/
def intoTimetype (self : TT) : Out TT := .ok self

/-! ## Iterators -/

variable {σ : Type}

/-- `Iter::increment` — src/iter.rs:40-42. -/
def increment (it : Iter) : TT := it.increment

/-- `struct FilterIter` — src/iter.rs:92-94. -/
structure FilterIter (σ : Type) where
  inner : σ
  matcher : TT → Out Bool

/-- `FilterIter::new` — src/iter.rs:100-102. -/
def FilterIter.new (i : σ) (m : TT → Out Bool) : FilterIter σ := ⟨i, m⟩

/-- `EveryFilter::every` — src/iter.rs:126-137. -/
def every (self : σ) (matcher : TT → Out Bool) : FilterIter σ := .new self matcher

/-- `FilterIter::next` — src/iter.rs:105-124: the loop (`filterNext`) with the matcher of this iterator, which stays the same. -/
def FilterIter.next (nx : σ → σ × Item) (fuel : Nat) (it : FilterIter σ) : FilterIter σ × Item :=
  let (inner', r) := filterNext nx it.matcher fuel it.inner
  ({ it with inner := inner' }, r)

/-- `struct WithoutIter` — src/iter.rs:140-142. -/
structure WithoutIter (σ : Type) where
  inner : σ
  matcher : TT → Out Bool

/-- `WithoutIter::new` — src/iter.rs:148-150. -/
def WithoutIter.new (i : σ) (m : TT → Out Bool) : WithoutIter σ := ⟨i, m⟩

/-- `WithoutFilter::without` — src/iter.rs:174-185. -/
def without (self : σ) (matcher : TT → Out Bool) : WithoutIter σ := .new self matcher

/-- `WithoutIter::next` — src/iter.rs:153-172. -/
def WithoutIter.next (nx : σ → σ × Item) (fuel : Nat) (it : WithoutIter σ) : WithoutIter σ × Item :=
  let (inner', r) := withoutNext nx it.matcher fuel it.inner
  ({ it with inner := inner' }, r)

/-- `struct UntilIter` — src/iter.rs:188-189. -/
structure UntilIter (σ : Type) where
  inner : σ
  date : Moment

/-- `UntilIter::new` — src/iter.rs:194-196. -/
def UntilIter.new (i : σ) (date : Moment) : UntilIter σ := ⟨i, date⟩

/-- `Until::until` — src/iter.rs:224-234. -/
def until_ (self : σ) (ending : Moment) : UntilIter σ := .new self ending

/-- `UntilIter::next` — src/iter.rs:199-222. -/
def UntilIter.next (c : Cfg) (nx : σ → σ × Item) (it : UntilIter σ) : UntilIter σ × Item :=
  let (inner', r) := untilNext c nx it.date it.inner
  ({ it with inner := inner' }, r)

/-! ## Filters (feature `with-filters`) -/

/-- `struct DayFilter`, `IntoFilter for Day` — src/indicator.rs:74, 84-91. -/
structure DayFilter where
  day : Day

/-- `Day::into_filter` — src/indicator.rs:84-91. -/
def dayIntoFilter (self : Day) : DayFilter := ⟨self⟩

/-- `Filter::filter` of `DayFilter` — src/indicator.rs:76-81. -/
def DayFilter.filter (f : DayFilter) (tt : TT) : Bool := f.day.filter tt

/-- `struct MonthFilter` — src/indicator.rs:95. -/
structure MonthFilter where
  month : Month

/-- `Month::into_filter` — src/indicator.rs:105-112. -/
def monthIntoFilter (self : Month) : MonthFilter := ⟨self⟩

/-- `Filter::filter` of `MonthFilter` — src/indicator.rs:97-102. -/
def MonthFilter.filter (f : MonthFilter) (tt : TT) : Bool := f.month.filter tt

end Kairos.Api
