import Verif.Model.Display

/-! Generated from src/timetype.rs, src/error.rs and examples/main.rs by tools/txt2lean.py; do not edit.
`{}` and `{:?}` of numbers, strings and dates are those of `Model/Display.lean` (std and chrono);
`#[derive(Debug)]` of a variant is its name and, in parentheses, the `{:?}` of its fields. -/

set_option linter.all false
set_option autoImplicit false

namespace Kairos.Source

/-- `#[derive(Debug)]` of `TimeType` — src/timetype.rs:23-39. -/
def TimeType.debug : TT → List Char
  | .seconds x0 => text! "Seconds" ++ ['('] ++ Text.int x0 ++ [')']
  | .minutes x0 => text! "Minutes" ++ ['('] ++ Text.int x0 ++ [')']
  | .hours x0 => text! "Hours" ++ ['('] ++ Text.int x0 ++ [')']
  | .days x0 => text! "Days" ++ ['('] ++ Text.int x0 ++ [')']
  | .months x0 => text! "Months" ++ ['('] ++ Text.int x0 ++ [')']
  | .years x0 => text! "Years" ++ ['('] ++ Text.int x0 ++ [')']
  | .moment x0 => text! "Moment" ++ ['('] ++ Text.moment (Char.ofNat 84) x0 ++ [')']
  | .addition x0 x1 => text! "Addition" ++ ['('] ++ TimeType.debug x0 ++ text! ", " ++ TimeType.debug x1 ++ [')']
  | .subtraction x0 x1 => text! "Subtraction" ++ ['('] ++ TimeType.debug x0 ++ text! ", " ++ TimeType.debug x1 ++ [')']
  | .endOfYear x0 => text! "EndOfYear" ++ ['('] ++ TimeType.debug x0 ++ [')']
  | .endOfMonth x0 => text! "EndOfMonth" ++ ['('] ++ TimeType.debug x0 ++ [')']
  | .endOfDay x0 => text! "EndOfDay" ++ ['('] ++ TimeType.debug x0 ++ [')']
  | .endOfHour x0 => text! "EndOfHour" ++ ['('] ++ TimeType.debug x0 ++ [')']
  | .endOfMinute x0 => text! "EndOfMinute" ++ ['('] ++ TimeType.debug x0 ++ [')']

/-- `#[derive(Debug)]` of `ErrorKind` — src/error.rs:7-40. -/
def ErrorKind.debug : ErrorKind → List Char
  | .unknownError  => text! "UnknownError"
  | .cannotAdd x0 x1 => text! "CannotAdd" ++ ['('] ++ TimeType.debug x0 ++ text! ", " ++ TimeType.debug x1 ++ [')']
  | .cannotSub x0 x1 => text! "CannotSub" ++ ['('] ++ TimeType.debug x0 ++ text! ", " ++ TimeType.debug x1 ++ [')']
  | .argumentErrorNotAnAmount x0 => text! "ArgumentErrorNotAnAmount" ++ ['('] ++ TimeType.debug x0 ++ [')']
  | .argumentErrorNotAMoment x0 => text! "ArgumentErrorNotAMoment" ++ ['('] ++ (['"'] ++ x0.toList ++ ['"']) ++ [')']
  | .cannotCalculateEndOfYearOn x0 => text! "CannotCalculateEndOfYearOn" ++ ['('] ++ TimeType.debug x0 ++ [')']
  | .cannotCalculateEndOfMonthOn x0 => text! "CannotCalculateEndOfMonthOn" ++ ['('] ++ TimeType.debug x0 ++ [')']
  | .cannotCompareDayTo x0 => text! "CannotCompareDayTo" ++ ['('] ++ (['"'] ++ x0.toList ++ ['"']) ++ [')']
  | .cannotCompareMonthTo x0 => text! "CannotCompareMonthTo" ++ ['('] ++ (['"'] ++ x0.toList ++ ['"']) ++ [')']
  | .outOfBounds x0 x1 x2 x3 x4 x5 => text! "OutOfBounds" ++ ['('] ++ Text.int x0 ++ text! ", " ++ Text.nat x1 ++ text! ", " ++ Text.nat x2 ++ text! ", " ++ Text.nat x3 ++ text! ", " ++ Text.nat x4 ++ text! ", " ++ Text.nat x5 ++ [')']
  | .notADateInsideIterator  => text! "NotADateInsideIterator"
  | .unknownParserError  => text! "UnknownParserError"
  | .nomError => []

/-- `#[fail(display = …)]` of `ErrorKind` — src/error.rs:7-40. -/
def ErrorKind.display : ErrorKind → List Char
  | .unknownError  => text! "Unknown Error"
  | .cannotAdd x0 x1 => text! "Cannot add: " ++ TimeType.debug x0 ++ text! " + " ++ TimeType.debug x1
  | .cannotSub x0 x1 => text! "Cannot subtract: " ++ TimeType.debug x0 ++ text! " - " ++ TimeType.debug x1
  | .argumentErrorNotAnAmount x0 => text! "The passed argument is not an amount: " ++ TimeType.debug x0
  | .argumentErrorNotAMoment x0 => text! "The passed argument is not a moment, but a " ++ x0.toList
  | .cannotCalculateEndOfYearOn x0 => text! "Argument Error: Cannot calculate end-of-year on a " ++ TimeType.debug x0
  | .cannotCalculateEndOfMonthOn x0 => text! "Argument Error: Cannot calculate end-of-month on a " ++ TimeType.debug x0
  | .cannotCompareDayTo x0 => text! "Cannot compare Day to non-Moment TimeType: " ++ (['"'] ++ x0.toList ++ ['"'])
  | .cannotCompareMonthTo x0 => text! "Cannot compare Month to non-Moment TimeType: " ++ (['"'] ++ x0.toList ++ ['"'])
  | .outOfBounds x0 x1 x2 x3 x4 x5 => text! "Out of bounds: " ++ Text.int x0 ++ text! "-" ++ Text.nat x1 ++ text! "-" ++ Text.nat x2 ++ text! "T" ++ Text.nat x3 ++ text! ":" ++ Text.nat x4 ++ text! ":" ++ Text.nat x5
  | .notADateInsideIterator  => text! "Cannot calculate date for iterator"
  | .unknownParserError  => text! "Unknown parser error"
  | .nomError => []

/-- The line `pretty_print` prints — examples/main.rs:5-16. -/
def pretty_print : TT → List Char
  | .seconds e => Text.int e ++ text! " Seconds"
  | .minutes e => Text.int e ++ text! " Minutes"
  | .hours e => Text.int e ++ text! " Hours"
  | .days e => Text.int e ++ text! " Days"
  | .months e => Text.int e ++ text! " Months"
  | .years e => Text.int e ++ text! " Years"
  | .moment ndt => Text.moment (Char.ofNat 32) ndt ++ text! " "
  | other => text! "Cannot pretty-print: '" ++ TimeType.debug other ++ text! "'"

end Kairos.Source
