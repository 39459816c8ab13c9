import Verif.Props.Weeks
import Verif.Props.LateBy

/-!
# C104: any number of weeks later
-/

namespace Props
open Kairos Spec

/-- **C104, adding any number of weeks (partial).** It is the same weekday exactly if the number of days by which the sum leads too far
(`Spec.lateBy`, seen from the start and the result) is a multiple of seven. For up to 4.2 billion years. Missing: the other sums, see
`C104_refuted`. -/
theorem C104_adding_iff_partial (c : Cfg) (hc : Sane c) (m r : Moment) (hm : m.Valid c) (n : Int) (hn : 0 ≤ n)
    (hmax : n * 604800 ≤ 133500000000000000) (w : TT) (hw : TT.weeks c n = .ok w)
    (h : calculate c (.moment m + w) = .ok (.moment r)) :
    (∀ d, (TT.moment r).isA d = (TT.moment m).isA d) ↔ 7 ∣ lateBy m r := by
  rw [same_weekday]
  rw [(C83_weeks_partial c n).1 (by unfold InI64; omega)] at hw
  cases hw
  have e := C107_exactly c hc m r hm .day (by simp) (n * 7) (by omega) (by
    show n * 7 * 86400 ≤ _
    omega) h
  obtain ⟨-, -, -, -, -, -, -, -, -, t', -⟩ := sum_closed c hc hm .day (by decide) (n * 7) (by omega) (by
    show n * 7 * 86400 ≤ _
    omega) h
  obtain ⟨-, -, -, t, -⟩ := id hm
  have e' : r.instant = m.instant + n * 7 * 86400 + lateBy m r * 86400 := e
  unfold Moment.instant Cal.instant at e'
  unfold Cal.ValidTime at t t'
  omega

/-- 60 weeks after Wednesday 15 February 2017 it is Wednesday 11 April 2018, but 56 weeks after it the code says Tuesday 13 March. -/
example : ∀ d, (TT.moment (at_ 2018 4 11 0 0 0)).isA d = (TT.moment (at_ 2017 2 15 0 0 0)).isA d :=
  (C104_adding_iff_partial (std .debug) (sane_std _) (at_ 2017 2 15 0 0 0) _ (by decide) 60 (by decide) (by decide) _ rfl
    (by decide +kernel)).mpr (by decide)

example : ¬ ∀ d, (TT.moment (at_ 2018 3 13 0 0 0)).isA d = (TT.moment (at_ 2017 2 15 0 0 0)).isA d := fun h =>
  absurd ((C104_adding_iff_partial (std .debug) (sane_std _) (at_ 2017 2 15 0 0 0) _ (by decide) 56 (by decide) (by decide) _ rfl
    (by decide +kernel)).mp h) (by decide)

end Props
