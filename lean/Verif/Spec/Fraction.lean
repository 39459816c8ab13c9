import Verif.Model.Iter
import Verif.Spec.Pipeline
import Verif.Spec.Valid

/-!
# Specification: fractions of a second

chrono's date-times have a part below the second. What an expression, an error or an outcome is without those parts.
-/

namespace Spec
open Kairos

/-- A date-time without its fraction of a second. (A leap second, which chrono stores as a fraction of one second or more, becomes the
second before it.) -/
def wholeSecond (m : Moment) : Moment := { m with nano := 0 }

/-- An expression with all its date-times cut to whole seconds. -/
def whole : TT → TT
  | .moment m => .moment (wholeSecond m)
  | .addition a b => .addition (whole a) (whole b)
  | .subtraction a b => .subtraction (whole a) (whole b)
  | .endOfYear t => .endOfYear (whole t)
  | .endOfMonth t => .endOfMonth (whole t)
  | .endOfDay t => .endOfDay (whole t)
  | .endOfHour t => .endOfHour (whole t)
  | .endOfMinute t => .endOfMinute (whole t)
  | t => t

/-- An error with all the date-times in the expressions that it names cut to whole seconds. -/
def wholeError : ErrorKind → ErrorKind
  | .cannotAdd a b => .cannotAdd (whole a) (whole b)
  | .cannotSub a b => .cannotSub (whole a) (whole b)
  | .argumentErrorNotAnAmount t => .argumentErrorNotAnAmount (whole t)
  | .cannotCalculateEndOfYearOn t => .cannotCalculateEndOfYearOn (whole t)
  | .cannotCalculateEndOfMonthOn t => .cannotCalculateEndOfMonthOn (whole t)
  | e => e

/-- The outcome of a call likewise. -/
def wholeOut : Out TT → Out TT
  | .ok t => .ok (whole t)
  | .err e => .err (wholeError e)
  | .panic => .panic
  | .oof => .oof

/-- What a call of `next` returned likewise. -/
def wholeItem : Item → Item
  | some r => some (wholeOut r)
  | none => none

/-- An iterator likewise. -/
def wholeIter (it : Iter) : Iter := { it with base := whole it.base, increment := whole it.increment }

/-- A test that does not look at fractions of seconds. -/
def Coarse : Test → Prop
  | .own f => ∀ t, f (whole t) = f t
  | _ => True

/-- An adaptor that does not look at fractions of seconds: for `until`, that is, with a date-time without a fraction. -/
def CoarseAdaptor : Adaptor → Prop
  | .times _ => True
  | .until e => e.nano = 0
  | .every t => Coarse t
  | .without t => Coarse t

/-- The fraction is a number without sign (a `u32`). -/
def Unsigned (t : TT) : Prop := AllMoments (fun m => 0 ≤ m.nano) t

end Spec
