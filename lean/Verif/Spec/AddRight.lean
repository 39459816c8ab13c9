import Verif.Model.Chrono
import Verif.Spec.Amount

/-! Specification: where adding an amount to a moment goes right. -/

namespace Spec
open Kairos

/-- Where adding a number of seconds, minutes, hours or days to `m`, with true answer `m'`, goes right in the code: in the year of `m`, and in the year
after it on 1–30 January, 1–30 March if that is a leap year, 1 April – 30 May if it is not. -/
def AddRight (m m' : Moment) : Prop :=
  m'.year = m.year ∨ (m'.year = m.year + 1 ∧
    ((m'.month = 1 ∧ m'.day ≤ 30) ∨
     (m'.month = 3 ∧ m'.day ≤ 30 ∧ Cal.isLeap m'.year = true) ∨
     (m'.month = 4 ∧ Cal.isLeap m'.year = false) ∨
     (m'.month = 5 ∧ m'.day ≤ 30 ∧ Cal.isLeap m'.year = false)))

instance (m m' : Moment) : Decidable (AddRight m m') := by unfold AddRight; infer_instance

end Spec
