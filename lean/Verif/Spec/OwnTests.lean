import Verif.Spec.Sequence
import Verif.Model.Indicator
import Verif.Model.ParserTimeType

/-!
# Specification: the crate's tests that read the clock

For C154: when such a test passes, with what the clock shows (`now`; `now'` the second time it is read) as a parameter.
-/

namespace Spec
open Kairos

variable {σ : Type}

/-- `collect::<Vec<_>>()` returns this vector: these are the items up to the first `None`. -/
def Collects (nx : σ → σ × Item) (s : σ) (l : List (Out TT)) : Prop :=
  (∀ k (h : k < l.length), nth nx k s = some l[k]) ∧ nth nx l.length s = none

/-- `std::iter::Take`: at most so many items. -/
def takeNext (nx : σ → σ × Item) : Nat × σ → (Nat × σ) × Item
  | (0, s) => ((0, s), none)
  | (n + 1, s) => ((n, (nx s).1), (nx s).2)

/-- `test_until`, src/iter.rs:572-588: nothing comes between today and yesterday. -/
def TestUntil (c : Cfg) (now now' : Moment) : Prop :=
  ∃ (yesterday : Moment) (it : Iter), calculate c (.moment now - .days 1) = .ok (.moment yesterday) ∧
    Ext.daily (.moment now') 1 = .ok it ∧ Collects (untilNext c (Iter.next c) yesterday) it []

/-- `test_until_1`, src/iter.rs:590-606: one day from today to tomorrow. -/
def TestUntil1 (c : Cfg) (now now' : Moment) : Prop :=
  ∃ (ending : Moment) (it : Iter) (v : List (Out TT)), calculate c (.moment now + .days 1) = .ok (.moment ending) ∧
    Ext.daily (.moment now') 1 = .ok it ∧ Collects (untilNext c (Iter.next c) ending) it v ∧ v.length = 1

/-- `test_until_2`, src/iter.rs:608-624: 48 hours in two days. -/
def TestUntil2 (c : Cfg) (now now' : Moment) : Prop :=
  ∃ (ending : Moment) (it : Iter) (v : List (Out TT)), calculate c (.moment now + .days 2) = .ok (.moment ending) ∧
    Ext.hourly (.moment now') 1 = .ok it ∧ Collects (untilNext c (Iter.next c) ending) it v ∧ v.length = 48

/-- `test_compile_skip`, src/iter.rs:552-564: of the next 20 days, the Mondays that are no Mondays. (Loops of filters are followed for a
number of rounds; a certain number is enough.) -/
def TestCompileSkip (c : Cfg) (now : Moment) : Prop :=
  ∃ it : Iter, Ext.daily (.moment now) 1 = .ok it ∧ ∃ enough, ∀ rounds, enough ≤ rounds →
    Collects (withoutNext (filterNext (takeNext (Iter.next c)) (Day.matches .monday) rounds) (Day.matches .monday) rounds) (20, it) []

/-- `test_compile`, src/iter.rs:541-550: collecting the next twelve days that are Mondays or in January comes to an end, without a panic. -/
def TestCompile (c : Cfg) (now : Moment) : Prop :=
  ∃ it : Iter, Ext.daily (.moment now) 1 = .ok it ∧ ∃ enough, ∀ rounds, enough ≤ rounds → ∃ v : List (Out TT),
    Collects (takeNext (filterNext (Iter.next c) (filterMatches fun t => Day.filter .monday t || Month.filter .january t) rounds))
      (12, it) v ∧ ∀ o ∈ v, (∃ t, o = .ok t) ∨ (∃ e, o = .err e)

/-- `test_expressions_to_date_3` and `test_expressions_to_timetype_2`, src/parser/timetype.rs:560-573, 616-629: the text "today + 5min + 12min"
is a date (an expression), and it can be calculated. -/
def TestToday (c : Cfg) (iso : Parser.Iso) (now : Moment) : Prop :=
  (∃ rest d t v, Parser.date iso "today + 5min + 12min".toList = .done rest d ∧ d.intoTimetype c now = .ok t ∧ calculate c t = .ok v) ∧
  (∃ rest d t v, Parser.timetype iso "today + 5min + 12min".toList = .done rest d ∧ d.intoTimetype c now = .ok t ∧ calculate c t = .ok v)

end Spec
