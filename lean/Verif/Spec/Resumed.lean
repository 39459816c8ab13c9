import Verif.Spec.Pipeline

/-!
# Specification: the adaptors for taking up an iterator again

For C158.
-/

namespace Spec
open Kairos

/-- The same adaptors, with counts reduced by what was already taken of them. -/
inductive CountedDown : List Adaptor → List Adaptor → Prop where
  | nil : CountedDown [] []
  | until (e : Moment) {as as' : List Adaptor} (h : CountedDown as as') : CountedDown (.until e :: as) (.until e :: as')
  | every (t : Test) {as as' : List Adaptor} (h : CountedDown as as') : CountedDown (.every t :: as) (.every t :: as')
  | without (t : Test) {as as' : List Adaptor} (h : CountedDown as as') : CountedDown (.without t :: as) (.without t :: as')
  | times (n taken : Int) (ht : 0 ≤ taken ∧ taken < n) {as as' : List Adaptor} (h : CountedDown as as') :
      CountedDown (.times n :: as) (.times (n - taken) :: as')

/-- No `times` among them. -/
def NoTimes (as : List Adaptor) : Prop := ∀ n, Adaptor.times n ∉ as

end Spec
