import Verif.Spec.Amount
import Verif.Spec.Part

/-!
# Specification: expressions of amounts that can be calculated within 64 bits
-/

namespace Spec
open Kairos

namespace AmtTree

/-- The value, counted in a unit (a unit that divides it). -/
def inUnit (t : AmtTree) (w : TUnit) : Int := t.secs / w.secs

/-- At every `+` and `-` in the expression both operands and the result, counted in the finest unit occurring there, are
`i64`; so are the amounts themselves. -/
def Fits : AmtTree → Prop
  | .amt _ n => InI64 n
  | .plus a b => a.Fits ∧ b.Fits ∧ InI64 (a.inUnit (AmtTree.plus a b).finest) ∧ InI64 (b.inUnit (AmtTree.plus a b).finest) ∧
      InI64 ((AmtTree.plus a b).inUnit (AmtTree.plus a b).finest)
  | .minus a b => a.Fits ∧ b.Fits ∧ InI64 (a.inUnit (AmtTree.minus a b).finest) ∧ InI64 (b.inUnit (AmtTree.minus a b).finest) ∧
      InI64 ((AmtTree.minus a b).inUnit (AmtTree.minus a b).finest)

instance decFits : (t : AmtTree) → Decidable t.Fits
  | .amt _ n => inferInstanceAs (Decidable (InI64 n))
  | .plus a b => by
    have := decFits a; have := decFits b
    unfold Fits; infer_instance
  | .minus a b => by
    have := decFits a; have := decFits b
    unfold Fits; infer_instance

end AmtTree

/-- Adding the amounts to the moment needs a number beyond 64 bits: among the amounts, or when their number is added to the
component of the moment; or the number of months becomes 2^63 - 1 on a 31st, where one more month is needed. -/
def AddOverflows (m : Moment) (t : AmtTree) : Prop :=
  ¬ t.Fits ∨ ¬ InI64 (part m t.finest + t.inUnit t.finest) ∨
    t.finest = .month ∧ m.month + t.inUnit t.finest = 9223372036854775807 ∧ m.day = 31

/-- The same for subtracting. -/
def SubOverflows (m : Moment) (t : AmtTree) : Prop := ¬ t.Fits ∨ ¬ InI64 (part m t.finest - t.inUnit t.finest)

instance (m : Moment) (t : AmtTree) : Decidable (AddOverflows m t) := by unfold AddOverflows; infer_instance
instance (m : Moment) (t : AmtTree) : Decidable (SubOverflows m t) := by unfold SubOverflows; infer_instance

end Spec
