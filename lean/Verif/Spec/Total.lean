import Verif.Model.TimeType

/-! # Specification: the size of an expression -/

namespace Spec
open Kairos

/-- The sum of the absolute sizes, in seconds, of all amounts occurring in the expression. -/
def total : TT → Nat
  | .seconds n => n.natAbs
  | .minutes n => n.natAbs * 60
  | .hours n => n.natAbs * 3600
  | .days n => n.natAbs * 86400
  | .months n => n.natAbs * 2592000
  | .years n => n.natAbs * 31104000
  | .moment _ => 0
  | .addition a b => total a + total b
  | .subtraction a b => total a + total b
  | .endOfYear t => total t
  | .endOfMonth t => total t
  | .endOfDay t => total t
  | .endOfHour t => total t
  | .endOfMinute t => total t

end Spec
