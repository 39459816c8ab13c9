import Verif.Lemmas.Friday13

/-!
# On which weekdays a day of the year falls
-/

namespace Cal

theorem daysBeforeYear_cycle (a b : Int) : daysBeforeYear (400 * a + b) = 146097 * a + daysBeforeYear b := by
  unfold daysBeforeYear; omega

/-- In any twelve years in a row 1 January falls on each weekday. The table is complete: the years of a cycle of 400 years and the weekdays. -/
theorem newYear_table : ∀ b : Nat, b < 400 → ∀ t : Nat, t < 7 → ∃ k : Nat, k < 12 ∧ (daysBeforeYear (b + k) % 7).toNat = t := by
  decide +kernel

/-- It takes at least five years to fall on the same weekday again. -/
theorem newYear_table' : ∀ b : Nat, b < 400 → ∀ k : Nat, k < 4 → daysBeforeYear (b + k + 1) % 7 ≠ daysBeforeYear b % 7 := by
  decide +kernel

theorem newYear_window (y t : Int) : ∃ k : Nat, k < 12 ∧ daysBeforeYear (y + k) % 7 = t % 7 := by
  obtain ⟨k, h1, h2⟩ := newYear_table (y % 400).toNat (by omega) ((t - 146097 * (y / 400)) % 7).toNat (by omega)
  refine ⟨k, h1, ?_⟩
  have := daysBeforeYear_cycle (y / 400) ((y % 400).toNat + k)
  rw [show 400 * (y / 400) + (((y % 400).toNat : Int) + k) = y + k by omega] at this
  rw [this]
  omega

theorem newYear_apart (y : Int) (k : Nat) (h1 : 1 ≤ k) (h2 : k < 5) : daysBeforeYear (y + k) % 7 ≠ daysBeforeYear y % 7 := by
  have := newYear_table' (y % 400).toNat (by omega) (k - 1) (by omega)
  have e1 := daysBeforeYear_cycle (y / 400) ((y % 400).toNat + (k - 1 : Nat) + 1)
  have e2 := daysBeforeYear_cycle (y / 400) (y % 400).toNat
  rw [show 400 * (y / 400) + (((y % 400).toNat : Int) + (k - 1 : Nat) + 1) = y + k by omega] at e1
  rw [show 400 * (y / 400) + ((y % 400).toNat : Int) = y by omega] at e2
  rw [e1, e2]
  omega

/-- A day of the year comes a fixed number of days after New Year, or before the next. -/
theorem dayNumber_fromNewYear (M D : Int) : ∃ e n : Int, ∀ y, dayNumber y M D = daysBeforeYear (y + e) + n := by
  by_cases h : M ≤ 2
  · refine ⟨0, daysBeforeMonth 0 M + D, fun y => ?_⟩
    unfold dayNumber daysBeforeMonth
    simp only [Int.add_zero]
    by_cases h1 : M ≤ 1
    · simp only [if_pos h1]; omega
    · simp only [if_neg h1, if_pos (show M = 2 by omega)]; omega
  · refine ⟨1, daysBeforeMonth 1 M + D - 365, fun y => ?_⟩
    rw [daysBeforeYear_succ]
    unfold dayNumber daysBeforeMonth yearLen
    simp only [if_neg (show ¬ M ≤ 1 by omega), if_neg (show ¬ M = 2 by omega)]
    rw [show isLeap 1 = false by decide]
    cases isLeap y <;> simp <;> omega

theorem weekday_years (y M D w : Int) (hw : 0 ≤ w ∧ w < 7) : ∃ k : Nat, k < 12 ∧ weekday (y + k) M D = w := by
  obtain ⟨e, n, h⟩ := dayNumber_fromNewYear M D
  obtain ⟨k, h1, h2⟩ := newYear_window (y + e) (w - n + 1)
  refine ⟨k, h1, ?_⟩
  unfold weekday
  rw [h, show y + k + e = y + e + k by omega]
  omega

theorem weekday_years_apart (y M D : Int) (k : Nat) (h1 : 1 ≤ k) (h2 : k < 5) : weekday (y + k) M D ≠ weekday y M D := by
  obtain ⟨e, n, h⟩ := dayNumber_fromNewYear M D
  have := newYear_apart (y + e) k h1 h2
  unfold weekday
  rw [h, h, show y + k + e = y + e + k by omega]
  omega

end Cal
