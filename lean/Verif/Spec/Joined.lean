import Verif.Spec.Grammar

/-!
# Specification: what a text of amounts stands for (C155)
-/

namespace Spec
open Kairos Kairos.Parser

/-- The text is parsed to an expression that is calculated to an amount of `x` seconds. -/
def StandsFor (c : Cfg) (iso : Iso) (now now' : Moment) (t : List Char) (x : Int) : Prop :=
  ∃ v r, parse c iso now now' t = .ok (.timeType v) ∧ calculate c v = .ok r ∧ r.isAAmount = true ∧ r.getSeconds c = .ok x

/-- An operator applied to numbers. -/
def opValue : Operator → Int → Int → Int
  | .plus, x, y => x + y
  | .minus, x, y => x - y

/-- The other operator. -/
def opposite : Operator → Operator
  | .plus => .minus
  | .minus => .plus

end Spec
