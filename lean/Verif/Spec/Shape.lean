import Verif.Spec.Amount

/-! The forms of values that properties speak of. -/

namespace Kairos

/-- A fully evaluated value: an amount or a moment. -/
def TT.isLeaf (t : TT) : Bool := t.isAAmount || t.isMoment

/-- An end-of marker. -/
def TT.isEnd : TT → Bool
  | .endOfYear _ | .endOfMonth _ | .endOfDay _ | .endOfHour _ | .endOfMinute _ => true
  | _ => false

/-- `x.end_of_*()` as an expression. -/
def EndKind.app : EndKind → TT → TT
  | .year, x => .endOfYear x
  | .month, x => .endOfMonth x
  | .day, x => .endOfDay x
  | .hour, x => .endOfHour x
  | .minute, x => .endOfMinute x

end Kairos

namespace Spec
open Kairos

/-- The sum of a list of amounts, in seconds. -/
def sumSecs (steps : List (TUnit × Int)) : Int := (steps.map fun s => s.2 * s.1.secs).sum

end Spec
