import Verif.Spec.Tree

/-! # Specification: how long an amount expression is -/

namespace Kairos.Parser

/-- Number of amounts in an expression. -/
def AmountExpr.amounts : AmountExpr → Nat
  | .single _ => 1
  | .cons _ _ e => e.amounts + 1

end Kairos.Parser
