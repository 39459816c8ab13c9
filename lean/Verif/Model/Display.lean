import Verif.Model.Main

/-!
# Model of the texts: `Debug` of `TimeType`, `Display` of `ErrorKind`, output of `examples/main.rs`

Number formats are those of std (`{}`, `{:02}`, `{:+05}`), the texts of dates those of chrono 0.4.
-/

namespace Kairos.Text

open Lean in
/-- A literal text as the list of its characters. -/
macro "text!" s:str : term => do
  let cs := (s.getString.toList.map Syntax.mkCharLit).toArray
  `([$cs,*])

/-- `{}` of an unsigned number (std). -/
def digits (n : Nat) : List Char := Nat.toDigits 10 n

/-- `{:0w}` of an unsigned number (std). -/
def pad (w n : Nat) : List Char := List.replicate (w - (digits n).length) '0' ++ digits n

/-- `{}` of a signed number (std). -/
def int (n : Int) : List Char := if n < 0 then '-' :: digits n.natAbs else digits n.natAbs

/-- `{}` of an unsigned number that the model has as an `Int` (std). -/
def nat (n : Int) : List Char := digits n.toNat

/-- The year in chrono's `Debug`/`Display` of a date: `{:04}` from 0 to 9999, else `{:+05}`. -/
def year (y : Int) : List Char :=
  if 0 ≤ y ∧ y ≤ 9999 then pad 4 y.toNat
  else (if y < 0 then '-' else '+') :: pad 4 y.natAbs

/-- chrono's `Debug` and `Display` of a `NaiveDate`: `{year}-{:02}-{:02}`. -/
def date (m : Moment) : List Char := year m.year ++ '-' :: (pad 2 m.month.toNat ++ '-' :: pad 2 m.day.toNat)

/-- The fraction in chrono's `Debug`/`Display` of a time: none, or 3, 6 or 9 digits. -/
def fraction (n : Nat) : List Char :=
  if n = 0 then []
  else if n % 1000000 = 0 then '.' :: pad 3 (n / 1000000)
  else if n % 1000 = 0 then '.' :: pad 6 (n / 1000)
  else '.' :: pad 9 n

/-- chrono's `Debug` and `Display` of a `NaiveTime`; a leap second is written as second 60. -/
def time (m : Moment) : List Char :=
  let (s, f) := if 1000000000 ≤ m.nano then (m.second + 1, m.nano - 1000000000) else (m.second, m.nano)
  pad 2 m.hour.toNat ++ ':' :: (pad 2 m.minute.toNat ++ ':' :: (pad 2 s.toNat ++ fraction f.toNat))

/-- chrono's `Debug` (`sep` is `T`) and `Display` (`sep` is a blank) of a `NaiveDateTime`. -/
def moment (sep : Char) (m : Moment) : List Char := date m ++ sep :: time m

/-- `#[derive(Debug)]` of `TimeType` — src/timetype.rs:21-40 — for `{:?}`; `Box` is transparent. -/
def debug : TT → List Char
  | .seconds n => text! "Seconds" ++ '(' :: (int n ++ [')'])
  | .minutes n => text! "Minutes" ++ '(' :: (int n ++ [')'])
  | .hours n => text! "Hours" ++ '(' :: (int n ++ [')'])
  | .days n => text! "Days" ++ '(' :: (int n ++ [')'])
  | .months n => text! "Months" ++ '(' :: (int n ++ [')'])
  | .years n => text! "Years" ++ '(' :: (int n ++ [')'])
  | .moment m => text! "Moment" ++ '(' :: (moment 'T' m ++ [')'])
  | .addition a b => text! "Addition" ++ '(' :: (debug a ++ (text! ", " ++ (debug b ++ [')'])))
  | .subtraction a b => text! "Subtraction" ++ '(' :: (debug a ++ (text! ", " ++ (debug b ++ [')'])))
  | .endOfYear t => text! "EndOfYear" ++ '(' :: (debug t ++ [')'])
  | .endOfMonth t => text! "EndOfMonth" ++ '(' :: (debug t ++ [')'])
  | .endOfDay t => text! "EndOfDay" ++ '(' :: (debug t ++ [')'])
  | .endOfHour t => text! "EndOfHour" ++ '(' :: (debug t ++ [')'])
  | .endOfMinute t => text! "EndOfMinute" ++ '(' :: (debug t ++ [')'])

/-- `Display` of `ErrorKind`, the `#[fail(display = …)]` attributes — src/error.rs:3-42. The names in
`CannotCompare…To` are written with `{:?}`, that is in quotes (they contain nothing that would be escaped). The error of
nom is not part of `ErrorKind`; its text is not modelled (empty here, and excluded in the theorems). -/
def error : ErrorKind → List Char
  | .unknownError => text! "Unknown Error"
  | .cannotAdd a b => text! "Cannot add: " ++ (debug a ++ (text! " + " ++ debug b))
  | .cannotSub a b => text! "Cannot subtract: " ++ (debug a ++ (text! " - " ++ debug b))
  | .argumentErrorNotAnAmount t => text! "The passed argument is not an amount: " ++ debug t
  | .argumentErrorNotAMoment name => text! "The passed argument is not a moment, but a " ++ name.toList
  | .cannotCalculateEndOfYearOn t => text! "Argument Error: Cannot calculate end-of-year on a " ++ debug t
  | .cannotCalculateEndOfMonthOn t => text! "Argument Error: Cannot calculate end-of-month on a " ++ debug t
  | .cannotCompareDayTo name => text! "Cannot compare Day to non-Moment TimeType: " ++ '"' :: (name.toList ++ ['"'])
  | .cannotCompareMonthTo name => text! "Cannot compare Month to non-Moment TimeType: " ++ '"' :: (name.toList ++ ['"'])
  | .outOfBounds y mo d h mi s => text! "Out of bounds: " ++ (int y ++ '-' :: (nat mo ++ '-' :: (nat d ++ 'T' :: (nat h ++
      ':' :: (nat mi ++ ':' :: nat s)))))
  | .notADateInsideIterator => text! "Cannot calculate date for iterator"
  | .unknownParserError => text! "Unknown parser error"
  | .nomError => []

/-- `#[derive(Debug)]` of `ErrorKind` — src/error.rs:3-42 — for `{:?}`. Names are `&str` and written in quotes (they contain nothing
that would be escaped). As for `error`, the text of nom's error is not modelled. -/
def errorDebug : ErrorKind → List Char
  | .unknownError => text! "UnknownError"
  | .cannotAdd a b => text! "CannotAdd" ++ '(' :: (debug a ++ (text! ", " ++ (debug b ++ [')'])))
  | .cannotSub a b => text! "CannotSub" ++ '(' :: (debug a ++ (text! ", " ++ (debug b ++ [')'])))
  | .argumentErrorNotAnAmount t => text! "ArgumentErrorNotAnAmount" ++ '(' :: (debug t ++ [')'])
  | .argumentErrorNotAMoment name => text! "ArgumentErrorNotAMoment" ++ '(' :: ('"' :: (name.toList ++ text! "\")"))
  | .cannotCalculateEndOfYearOn t => text! "CannotCalculateEndOfYearOn" ++ '(' :: (debug t ++ [')'])
  | .cannotCalculateEndOfMonthOn t => text! "CannotCalculateEndOfMonthOn" ++ '(' :: (debug t ++ [')'])
  | .cannotCompareDayTo name => text! "CannotCompareDayTo" ++ '(' :: ('"' :: (name.toList ++ text! "\")"))
  | .cannotCompareMonthTo name => text! "CannotCompareMonthTo" ++ '(' :: ('"' :: (name.toList ++ text! "\")"))
  | .outOfBounds y mo d h mi s => text! "OutOfBounds" ++ '(' :: (int y ++ (text! ", " ++ (nat mo ++ (text! ", " ++ (nat d ++ (text! ", " ++
      (nat h ++ (text! ", " ++ (nat mi ++ (text! ", " ++ (nat s ++ [')'])))))))))))
  | .notADateInsideIterator => text! "NotADateInsideIterator"
  | .unknownParserError => text! "UnknownParserError"
  | .nomError => []

/-- What `pretty_print` writes to its line — examples/main.rs:5-16. -/
def prettyPrint : TT → List Char
  | .seconds e => int e ++ text! " Seconds"
  | .minutes e => int e ++ text! " Minutes"
  | .hours e => int e ++ text! " Hours"
  | .days e => int e ++ text! " Days"
  | .months e => int e ++ text! " Months"
  | .years e => int e ++ text! " Years"
  | .moment ndt => moment ' ' ndt ++ [' ']
  | other => text! "Cannot pretty-print: '" ++ (debug other ++ ['\''])

/-- The text of a printed line — examples/main.rs:5-16, 24-41. `{:?}` of `failure::Error` (a dependency) is that of the error in it
as long as no backtrace is recorded, that is if `RUST_BACKTRACE` is not set, which is assumed here. None for the line with the error of
nom, whose text is not modelled. -/
def line : Main.Line → Option (List Char)
  | .amount n label => some (int n ++ ' ' :: label.toList)
  | .moment m => some (moment ' ' m ++ [' '])
  | .cannotPrettyPrint t => some (text! "Cannot pretty-print: '" ++ (debug t ++ ['\'']))
  | .error .nomError | .errorCalculating .nomError | .failedBuilding .nomError => none
  | .error e => some (text! "Error -> " ++ errorDebug e)
  | .errorCalculating e => some (text! "Error calculating: " ++ errorDebug e)
  | .failedBuilding e => some (text! "Failed building iterator: " ++ errorDebug e)

end Kairos.Text
