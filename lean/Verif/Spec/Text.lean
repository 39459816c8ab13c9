import Verif.Model.TimeType
import Verif.Spec.Amount
import Verif.Spec.Valid
import Verif.Spec.Grammar

/-! # Specification: numbers in printed texts -/

namespace Spec
open Kairos

/-- `ds` is a number written with decimal digits only, and it is the number `n`. -/
def Numeral (ds : List Char) (n : Int) : Prop := Digits ds ∧ (decimal ds : Int) = n

/-- The same with exactly `w` digits. -/
def NumeralOf (w : Nat) (ds : List Char) (n : Int) : Prop := Numeral ds n ∧ ds.length = w

/-- The name of a unit in the output of the program. -/
def unitLabel : TUnit → String
  | .second => "Seconds"
  | .minute => "Minutes"
  | .hour => "Hours"
  | .day => "Days"
  | .month => "Months"
  | .year => "Years"

/-- A moment as chrono's calendar and the clock can give it: a leap second only as the last second of a minute. -/
def Proper (c : Cfg) (m : Moment) : Prop := m.Valid c ∧ (1000000000 ≤ m.nano → m.second = 59)

/-- The expressions named in an error. -/
def operands : ErrorKind → List TT
  | .cannotAdd a b | .cannotSub a b => [a, b]
  | .argumentErrorNotAnAmount t | .cannotCalculateEndOfYearOn t | .cannotCalculateEndOfMonthOn t => [t]
  | _ => []

/-- The code points of the characters that Unicode counts as white space: tabs and line ends, the blank, the next-line control, and the
blanks of other widths. -/
def whiteSpace : List Nat :=
  [0x9, 0xA, 0xB, 0xC, 0xD, 0x20, 0x85, 0xA0, 0x1680, 0x2000, 0x2001, 0x2002, 0x2003, 0x2004, 0x2005, 0x2006, 0x2007, 0x2008, 0x2009, 0x200A,
    0x2028, 0x2029, 0x202F, 0x205F, 0x3000]

/-- The character is white space. -/
def WhiteSpace (ch : Char) : Prop := ch.toNat ∈ whiteSpace

instance (ch : Char) : Decidable (WhiteSpace ch) := by unfold WhiteSpace; infer_instance

end Spec
