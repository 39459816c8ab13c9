import Verif.Model.TimeType

/-!
# Specification: the kind of an expression

Whether an expression denotes an amount of time or a moment, told from its shape alone.
-/

namespace Spec
open Kairos

inductive Kind where
  | amount | moment
deriving DecidableEq, Repr

/-- Written with an `end_of_*` marker at the top. -/
def endMarked : TT → Bool
  | .endOfYear _ | .endOfMonth _ | .endOfDay _ | .endOfHour _ | .endOfMinute _ => true
  | _ => false

/-- The kind of an expression the library can calculate, `none` if it cannot:

* the right operand of `+` and `-` must be an amount;
* the left operand may be of either kind, but not written with an `end_of_*` marker (C09),
  and not a difference if it is a moment and the operator is `+` (C07);
* `end_of_*` needs a moment. -/
def kind : TT → Option Kind
  | .seconds _ | .minutes _ | .hours _ | .days _ | .months _ | .years _ => some .amount
  | .moment _ => some .moment
  | .endOfYear e | .endOfMonth e | .endOfDay e | .endOfHour e | .endOfMinute e =>
    if kind e = some .moment then some .moment else none
  | .addition a b =>
    if kind b ≠ some .amount then none
    else if kind a = some .amount then some .amount
    else if kind a = some .moment ∧ a.isSubtraction = false ∧ endMarked a = false then some .moment
    else none
  | .subtraction a b =>
    if kind b ≠ some .amount then none
    else if endMarked a then none
    else kind a

end Spec
