import Verif.Spec.Sequence

/-! Specification: all the dates an iterator yields; how often a weekday or a working day occurs. -/

namespace Spec
open Kairos

variable {σ : Type}

/-- The dates the iterator yields are those of the list, in this order, by its first calls; no later call yields anything
(each returns `None` or an error). -/
def Yields (nx : σ → σ × Item) (s : σ) (l : List Moment) : Prop :=
  items nx l.length s = l.map (fun r => some (.ok (.moment r))) ∧ ∀ q t, l.length ≤ q → nth nx q s ≠ some (.ok t)

/-- How many of the `N` days from a day with weekday `w` on (that day included) have weekday `d`: one by one. -/
def weekdayCount (w d : Int) (N : Nat) : Nat := ((List.range N).filter (fun i : Nat => (w + (i : Int)) % 7 == d)).length

/-- How many of the `N` days from a day with weekday `w` on (that day included) are from Monday to Friday: one by one. -/
def workDayCount (w : Int) (N : Nat) : Nat := ((List.range N).filter (fun i : Nat => (w + (i : Int)) % 7 ≤ 4)).length

end Spec
