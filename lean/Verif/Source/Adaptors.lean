import Verif.Source.Iter

/-! Generated from src/iter.rs by tools/nom2lean.py; do not edit. The translation of each construct is
described in `Verif/Source/RustParser.lean`. -/

set_option linter.all false
set_option autoImplicit false

namespace Kairos.Source

/-- `fn new` of `FilterIter` — src/iter.rs:100-102. -/
def FilterIter.new {I : Type} (i : I) (m : (TT → Out Bool)) : (I × (TT → Out Bool)) :=
  (i, m)

/-- `fn every` of `EveryFilter` — src/iter.rs:134-136. -/
def EveryFilter.every {I : Type} (self : I) (matcher : (TT → Out Bool)) : (I × (TT → Out Bool)) :=
  FilterIter.new self matcher

/-- `fn new` of `WithoutIter` — src/iter.rs:148-150. -/
def WithoutIter.new {I : Type} (i : I) (m : (TT → Out Bool)) : (I × (TT → Out Bool)) :=
  (i, m)

/-- `fn without` of `WithoutFilter` — src/iter.rs:182-184. -/
def WithoutFilter.without {I : Type} (self : I) (matcher : (TT → Out Bool)) : (I × (TT → Out Bool)) :=
  WithoutIter.new self matcher

/-- `fn new` of `UntilIter` — src/iter.rs:194-196. -/
def UntilIter.new {I : Type} (i : I) (date : Moment) : (I × Moment) :=
  (i, date)

/-- `fn until` of `Until` — src/iter.rs:231-233. -/
def Until.until {I : Type} (self : I) (ending : Moment) : (I × Moment) :=
  UntilIter.new self ending

/-- `fn new` of `TimesIter` — src/iter.rs:248-254. -/
def TimesIter.new {I : Type} (i : I) (times : Int) : (TimesState I) :=
  { inner := i, times := times, count := 0 }

/-- `fn times` of `Times` — src/iter.rs:279-281. -/
def Times.times {I : Type} (self : I) (times : Int) : (TimesState I) :=
  TimesIter.new self times

/-- `fn matches` of every `F: Filter<TimeType>`; `self` is its `filter` — src/matcher.rs:44-46. -/
def Filter.matches (self : TT → Bool) (tt : TT) : Out Bool :=
  .ok (self tt)

end Kairos.Source
