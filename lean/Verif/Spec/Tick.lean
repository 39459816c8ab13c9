import Verif.Spec.Calendar
import Verif.Model.Chrono

/-! Specification: the moments an iterator visits, and which moment is before which. -/

namespace Spec
open Kairos

/-- `r` is the moment `k` steps of `s` seconds after `m` (the nanoseconds of the start are kept by the start only). -/
def TickAt (m : Moment) (s : Int) (k : Nat) (r : Moment) : Prop :=
  r.instant = m.instant + k * s ∧ r.nano = if k = 0 then m.nano else 0

instance (m : Moment) (s : Int) (k : Nat) (r : Moment) : Decidable (TickAt m s k r) := by unfold TickAt; infer_instance

/-- `r` is before `e`. -/
def Before (r e : Moment) : Prop := r.instant < e.instant ∨ (r.instant = e.instant ∧ r.nano < e.nano)

instance (r e : Moment) : Decidable (Before r e) := by unfold Before; infer_instance

end Spec
