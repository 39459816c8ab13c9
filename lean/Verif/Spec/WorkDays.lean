import Verif.Spec.Calendar

/-!
# Working days, Monday to Friday

Weekdays are numbered from Monday = 0 to Sunday = 6.
-/

namespace Spec

/-- Days from a base on weekday `w` to the working day number `q` (0, 1, …) from the base on, the base included: five working days in each
block of seven days. From a Saturday or Sunday counting starts on Monday. -/
def workDay (w q : Int) : Int :=
  if w ≤ 4 then 7 * ((w + q) / 5) + (w + q) % 5 - w else (7 - w) + 7 * (q / 5) + q % 5

/-- `workDay w` counts, in order and without a gap, exactly the days from Monday to Friday. -/
theorem workDay_counts (w : Int) (hw : 0 ≤ w ∧ w < 7) :
    (∀ q, 0 ≤ q → 0 ≤ workDay w q ∧ (w + workDay w q) % 7 ≤ 4 ∧ workDay w q < workDay w (q + 1)) ∧
    (∀ k, 0 ≤ k → (w + k) % 7 ≤ 4 → ∃ q, 0 ≤ q ∧ workDay w q = k) := by
  refine ⟨fun q hq => ?_, fun k hk h => ?_⟩
  · unfold workDay
    split <;> omega
  · by_cases h4 : w ≤ 4
    · refine ⟨5 * ((w + k) / 7) + (w + k) % 7 - w, by omega, ?_⟩
      rw [workDay, if_pos h4]
      omega
    · refine ⟨5 * ((w + k - 7) / 7) + (w + k - 7) % 7, by omega, ?_⟩
      rw [workDay, if_neg h4]
      omega

/-- Days back from a base on weekday `w` to the working day number `q` from the base back, the base included: counting back from a Friday is like counting on from
a Monday, and so on. -/
def workDayBack (w q : Int) : Int := workDay ((4 - w) % 7) q

/-- `workDayBack w` counts, going back, in order and without a gap, exactly the days from Monday to Friday. -/
theorem workDayBack_counts (w : Int) :
    (∀ q, 0 ≤ q → 0 ≤ workDayBack w q ∧ (w - workDayBack w q) % 7 ≤ 4 ∧ workDayBack w q < workDayBack w (q + 1)) ∧
    (∀ k, 0 ≤ k → (w - k) % 7 ≤ 4 → ∃ q, 0 ≤ q ∧ workDayBack w q = k) := by
  obtain ⟨h1, h2⟩ := workDay_counts ((4 - w) % 7) (by omega)
  refine ⟨fun q hq => ?_, fun k hk h => ?_⟩
  · have := h1 q hq
    unfold workDayBack
    omega
  · obtain ⟨q, h3, h4⟩ := h2 k hk (by omega)
    exact ⟨q, h3, h4⟩

end Spec
