import Verif.Spec.Amount
import Verif.Model.ParserTimeType

/-!
# Specification: the expression an amount text stands for
-/

namespace Kairos.Parser
open Spec

/-- The amount tree of a parsed amount. -/
def Amount.tree (a : Amount) : AmtTree :=
  match a.unit with
  | .second => .amt .second a.number
  | .minute => .amt .minute a.number
  | .hour => .amt .hour a.number
  | .day => .amt .day a.number
  | .week => .amt .day (7 * a.number)
  | .month => .amt .month a.number
  | .year => .amt .year a.number

/-- The tree of a parsed amount expression: nested to the right. -/
def AmountExpr.tree : AmountExpr → AmtTree
  | .single a => a.tree
  | .cons a .plus e => .plus a.tree e.tree
  | .cons a .minus e => .minus a.tree e.tree

end Kairos.Parser
