import Verif.Spec.Reference
import Verif.Spec.Grammar
import Verif.Spec.Chain

/-!
# Specification: what a text stands for

The value of a date or amount expression of the language, as a function of what was written. It states what the library takes them
for, also where that is not what ISO 8601 says: day and week numbers are counted from zero, and fractions and offsets from Greenwich
are dropped (C57).
-/

namespace Spec
open Kairos Kairos.Parser

/-- One amount: that many of its unit. A week is seven days, and more days than 64 bits hold overflow; without overflow checks the
lowest 64 bits are taken. -/
def amountMeans (c : Cfg) (a : Amount) : Answer :=
  if a.unit = .week ∧ ¬ InI64 (7 * a.number) then
    if c.profile = .debug then .overflow else .value (.days (signed64 (7 * a.number)))
  else .value (unitAmount a.unit a.number)

/-- Two values joined by the operator in the text; nothing is calculated yet. -/
def joined : Operator → TT → TT → TT
  | .plus, x, y => x + y
  | .minus, x, y => x - y

/-- Amounts joined by operators group to the right: `a - b + c` is `a - (b + c)` (C49). -/
def amountsMean (c : Cfg) : AmountExpr → Answer
  | .single a => amountMeans c a
  | .cons a op e => (amountMeans c a).andThen fun x => (amountsMean c e).andThen fun y => .value (joined op x y)

/-- Midnight on New Year's Day, if the calendar reaches that year. -/
def newYearMeans (c : Cfg) (y : Int) : Answer :=
  if c.minYear ≤ y ∧ y ≤ c.maxYear then .value (.moment (at_ y 1 1 0 0 0)) else .refused (.outOfBounds y 1 1 0 0 0)

/-- A day without a time of day: midnight. Days and weeks of a year are added to New Year's Day as they are. -/
def dayMeans (c : Cfg) : IsoDate → Answer
  | .ymd y mo d =>
    if c.minYear ≤ y ∧ y ≤ c.maxYear ∧ Cal.ValidDate y mo d then .value (.moment (at_ y mo d 0 0 0))
    else .refused (.outOfBounds y mo d 0 0 0)
  | .ordinal y n => (newYearMeans c y).andThen fun v => .value (v + .days n)
  | .week y w d => (newYearMeans c y).andThen fun v => (amountMeans c ⟨w, .week⟩).andThen fun ws => .value (v + ws + .days d)

/-- A date; `now` is what the clock shows. -/
def exactMeans (c : Cfg) (now : Moment) : ExactDate → Answer
  | .today => .value (.moment now)
  | .yesterday => .value (.moment now - .days 1)
  | .tomorrow => .value (.moment now + .days 1)
  | .iso8601Date d => dayMeans c d
  | .iso8601DateTime t =>
    match t.date with
    | .ymd y mo d =>
      if c.minYear ≤ y ∧ y ≤ c.maxYear ∧ Cal.ValidDate y mo d ∧ Cal.ValidTime t.hour t.minute t.second then
        .value (.moment (at_ y mo d t.hour t.minute t.second))
      else .refused (.outOfBounds y mo d t.hour t.minute t.second)
    | d => (dayMeans c d).andThen fun v => .value (v + .hours t.hour + .minutes t.minute + .seconds t.second)

/-- A date expression: the date, with the amounts added or subtracted as a whole. -/
def dateMeans (c : Cfg) (now : Moment) (d : PDate) : Answer :=
  (exactMeans c now d.exact).andThen fun b =>
    match d.offset with
    | none => .value b
    | some (op, e) => (amountsMean c e).andThen fun x => .value (joined op b x)

/-- What `parse` returns for a text that stands for this: the value, not calculated; the error; or a panic. -/
def returned : Answer → Out Parsed
  | .value v => .ok (.timeType v)
  | .refused e => .err e
  | .overflow => .panic

end Spec
