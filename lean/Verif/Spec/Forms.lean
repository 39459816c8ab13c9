import Verif.Spec.Text

/-! # Specification: the words for the fourteen forms of a value and for the errors -/

namespace Spec
open Kairos

/-- The words for the forms of a value in the order in which the library lists them. -/
def forms : List String :=
  ["Seconds", "Minutes", "Hours", "Days", "Months", "Years", "Moment", "Addition", "Subtraction", "EndOfYear", "EndOfMonth",
    "EndOfDay", "EndOfHour", "EndOfMinute"]

/-- The word for the form of a value. -/
def word : TT → String
  | .seconds _ => "Seconds"
  | .minutes _ => "Minutes"
  | .hours _ => "Hours"
  | .days _ => "Days"
  | .months _ => "Months"
  | .years _ => "Years"
  | .moment _ => "Moment"
  | .addition .. => "Addition"
  | .subtraction .. => "Subtraction"
  | .endOfYear _ => "EndOfYear"
  | .endOfMonth _ => "EndOfMonth"
  | .endOfDay _ => "EndOfDay"
  | .endOfHour _ => "EndOfHour"
  | .endOfMinute _ => "EndOfMinute"

/-- The expressions an expression consists of, left one first. -/
def parts : TT → List TT
  | .addition a b | .subtraction a b => [a, b]
  | .endOfYear t | .endOfMonth t | .endOfDay t | .endOfHour t | .endOfMinute t => [t]
  | _ => []

/-- The first difference decides: two lists of the same length compared element by element. -/
def firstDifference {α : Type} (cmp : α → α → Ordering) : List α → List α → Ordering
  | a :: as, b :: bs => (cmp a b).then (firstDifference cmp as bs)
  | _, _ => .eq

/-- Texts one after the other with a comma and a blank between them. -/
def commas : List (List Char) → List Char
  | [] => []
  | [t] => t
  | t :: ts => t ++ ", ".toList ++ commas ts

/-- The word for an error. -/
def errorWord : ErrorKind → String
  | .unknownError => "UnknownError"
  | .cannotAdd .. => "CannotAdd"
  | .cannotSub .. => "CannotSub"
  | .argumentErrorNotAnAmount _ => "ArgumentErrorNotAnAmount"
  | .argumentErrorNotAMoment _ => "ArgumentErrorNotAMoment"
  | .cannotCalculateEndOfYearOn _ => "CannotCalculateEndOfYearOn"
  | .cannotCalculateEndOfMonthOn _ => "CannotCalculateEndOfMonthOn"
  | .cannotCompareDayTo _ => "CannotCompareDayTo"
  | .cannotCompareMonthTo _ => "CannotCompareMonthTo"
  | .outOfBounds .. => "OutOfBounds"
  | .notADateInsideIterator => "NotADateInsideIterator"
  | .unknownParserError => "UnknownParserError"
  | .nomError => ""

end Spec
