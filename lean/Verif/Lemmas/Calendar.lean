import Verif.Model.Util

/-! The calendar specification: `dayNumber` is the day count and orders dates. -/

namespace Cal

theorem isLeap_iff (y : Int) : isLeap y = true ↔ y % 4 = 0 ∧ (y % 100 ≠ 0 ∨ y % 400 = 0) := by
  simp [isLeap]

theorem daysBeforeYear_succ (y : Int) : daysBeforeYear (y + 1) = daysBeforeYear y + yearLen y := by
  unfold daysBeforeYear yearLen
  by_cases h : isLeap y = true
  · rw [if_pos h]; rw [isLeap_iff] at h; omega
  · rw [if_neg h]; rw [isLeap_iff] at h; omega

theorem yearLen_bounds (y : Int) : 365 ≤ yearLen y ∧ yearLen y ≤ 366 := by
  unfold yearLen; split <;> omega

theorem monthLen_bounds {y m : Int} (h1 : 1 ≤ m) (h2 : m ≤ 12) : 28 ≤ monthLen y m ∧ monthLen y m ≤ 31 := by
  unfold monthLen; repeat' split <;> omega

theorem daysBeforeMonth_succ {y m : Int} (h1 : 1 ≤ m) (h2 : m < 12) :
    daysBeforeMonth y (m + 1) = daysBeforeMonth y m + monthLen y m := by
  have : m = 1 ∨ m = 2 ∨ m = 3 ∨ m = 4 ∨ m = 5 ∨ m = 6 ∨ m = 7 ∨ m = 8 ∨ m = 9 ∨ m = 10 ∨ m = 11 := by omega
  rcases this with h | h | h | h | h | h | h | h | h | h | h <;> subst h <;> cases hl : isLeap y <;>
    simp [daysBeforeMonth, monthLen, hl]

theorem daysBeforeMonth_twelve (y : Int) : daysBeforeMonth y 12 + 31 = yearLen y := by
  cases hl : isLeap y <;> simp [daysBeforeMonth, yearLen, hl]

theorem daysBeforeMonth_one (y : Int) : daysBeforeMonth y 1 = 0 := by simp [daysBeforeMonth]

/-- The day count goes up by one from each date to the next. -/
theorem dayNumber_nextDay {y m d : Int} (h : ValidDate y m d) :
    dayNumber (nextDay y m d).1 (nextDay y m d).2.1 (nextDay y m d).2.2 = dayNumber y m d + 1 := by
  obtain ⟨h1, h2, h3, h4⟩ := h
  unfold nextDay
  by_cases hd : d < monthLen y m
  · simp only [if_pos hd, dayNumber]; omega
  · by_cases hm : m < 12
    · simp only [if_neg hd, if_pos hm, dayNumber, daysBeforeMonth_succ h1 hm]; omega
    · have : m = 12 := by omega
      subst this
      simp only [if_neg hd, if_neg hm, dayNumber, daysBeforeYear_succ, daysBeforeMonth_one]
      have := daysBeforeMonth_twelve y
      have : monthLen y 12 = 31 := by simp [monthLen]
      omega

theorem nextDay_valid {y m d : Int} (h : ValidDate y m d) :
    ValidDate (nextDay y m d).1 (nextDay y m d).2.1 (nextDay y m d).2.2 := by
  obtain ⟨h1, h2, h3, h4⟩ := h
  unfold nextDay
  by_cases hd : d < monthLen y m
  · simp only [if_pos hd, ValidDate]; omega
  · by_cases hm : m < 12
    · simp only [if_neg hd, if_pos hm, ValidDate]
      have := (monthLen_bounds (y := y) (m := m + 1) (by omega) (by omega)).1
      omega
    · simp only [if_neg hd, if_neg hm, ValidDate]
      have := (monthLen_bounds (y := y + 1) (m := 1) (by omega) (by omega)).1
      omega

theorem daysBeforeMonth_mono (y : Int) {m m' : Int} (h1 : 1 ≤ m) (h2 : m' ≤ 12) (h : m < m') :
    daysBeforeMonth y m + monthLen y m ≤ daysBeforeMonth y m' := by
  obtain ⟨k, rfl⟩ : ∃ k : Nat, m' = m + 1 + k := ⟨(m' - m - 1).toNat, by omega⟩
  clear h
  induction k with
  | zero => rw [show m + 1 + ((0 : Nat) : Int) = m + 1 by omega, daysBeforeMonth_succ h1 (by omega)]; omega
  | succ k ih =>
    rw [show m + 1 + ((k + 1 : Nat) : Int) = (m + 1 + k) + 1 by omega,
      daysBeforeMonth_succ (by omega) (by omega)]
    have := (monthLen_bounds (y := y) (m := m + 1 + k) (by omega) (by omega)).1
    have := ih (by omega)
    omega

theorem daysBeforeYear_mono {y y' : Int} (h : y < y') :
    daysBeforeYear y + yearLen y ≤ daysBeforeYear y' := by
  rw [← daysBeforeYear_succ]
  have : y + 1 ≤ y' := h
  unfold daysBeforeYear
  omega

/-- Day of the year, 1 .. yearLen. -/
def dayOfYear (y m d : Int) : Int := daysBeforeMonth y m + d

theorem dayOfYear_bounds {y m d : Int} (h : ValidDate y m d) :
    1 ≤ dayOfYear y m d ∧ dayOfYear y m d ≤ yearLen y := by
  obtain ⟨h1, h2, h3, h4⟩ := h
  unfold dayOfYear
  constructor
  · by_cases hm : m = 1
    · subst hm; rw [daysBeforeMonth_one]; omega
    · have := daysBeforeMonth_mono y (m := 1) (m' := m) (by omega) h2 (by omega)
      rw [daysBeforeMonth_one] at this
      have := (monthLen_bounds (y := y) (m := 1) (by omega) (by omega)).1
      omega
  · have h12 := daysBeforeMonth_twelve y
    have : monthLen y 12 = 31 := by simp [monthLen]
    by_cases hm : m = 12
    · subst hm; omega
    · have := daysBeforeMonth_mono y (m := m) (m' := 12) h1 (by omega) (by omega)
      omega

theorem dayNumber_eq (y m d : Int) : dayNumber y m d = daysBeforeYear y + dayOfYear y m d := by
  unfold dayNumber dayOfYear; omega

/-- Dates are ordered by (year, month, day). -/
theorem dayNumber_lt {y m d y' m' d' : Int} (h : ValidDate y m d) (h' : ValidDate y' m' d')
    (hlt : y < y' ∨ (y = y' ∧ (m < m' ∨ (m = m' ∧ d < d')))) :
    dayNumber y m d < dayNumber y' m' d' := by
  rcases hlt with hy | ⟨rfl, hm | ⟨rfl, hd⟩⟩
  · rw [dayNumber_eq, dayNumber_eq]
    have := dayOfYear_bounds h; have := dayOfYear_bounds h'; have := daysBeforeYear_mono hy
    omega
  · obtain ⟨h1, h2, h3, h4⟩ := h
    obtain ⟨g1, g2, g3, g4⟩ := h'
    have := daysBeforeMonth_mono y h1 g2 hm
    unfold dayNumber; omega
  · unfold dayNumber; omega

/-- Two dates with the same day number are equal. -/
theorem dayNumber_inj {y m d y' m' d' : Int} (h : ValidDate y m d) (h' : ValidDate y' m' d')
    (he : dayNumber y m d = dayNumber y' m' d') : y = y' ∧ m = m' ∧ d = d' := by
  have a := fun hlt => dayNumber_lt h h' hlt
  have b := fun hlt => dayNumber_lt h' h hlt
  omega

theorem dayNumber_lt_iff {y m d y' m' d' : Int} (h : ValidDate y m d) (h' : ValidDate y' m' d') :
    dayNumber y m d < dayNumber y' m' d' ↔
      (y < y' ∨ (y = y' ∧ (m < m' ∨ (m = m' ∧ d < d')))) := by
  refine ⟨fun hl => ?_, dayNumber_lt h h'⟩
  have b := fun hlt => dayNumber_lt h' h hlt
  by_cases he : y = y' ∧ m = m' ∧ d = d'
  · obtain ⟨rfl, rfl, rfl⟩ := he; omega
  · omega

/-- Moments are determined by their instant. -/
theorem instant_inj {y m d h mi s y' m' d' h' mi' s' : Int} (v : ValidDate y m d) (v' : ValidDate y' m' d')
    (t : ValidTime h mi s) (t' : ValidTime h' mi' s')
    (he : instant y m d h mi s = instant y' m' d' h' mi' s') :
    y = y' ∧ m = m' ∧ d = d' ∧ h = h' ∧ mi = mi' ∧ s = s' := by
  unfold instant ValidTime at *
  have : dayNumber y m d = dayNumber y' m' d' := by omega
  have := dayNumber_inj v v' this
  omega

end Cal

namespace Kairos

theorem tmod_beq_zero (y k : Int) : (y.tmod k == 0) = (y % k == 0) := by
  have : y.tmod k = 0 ↔ y % k = 0 := by
    rw [← Int.dvd_iff_tmod_eq_zero, ← Int.dvd_iff_emod_eq_zero]
  rw [Bool.eq_iff_iff]; simp [this]

theorem isLeapYear_eq (y : Int) : isLeapYear y = Cal.isLeap y := by
  unfold isLeapYear Cal.isLeap
  simp only [bne, tmod_beq_zero]

theorem asI32_id {y : Int} (h1 : -2147483648 ≤ y) (h2 : y ≤ 2147483647) : asI32 y = y := by
  unfold asI32
  rw [Int.bmod_eq_iff (by decide)]
  omega

theorem asU32_id {y : Int} (h1 : 0 ≤ y) (h2 : y ≤ 4294967295) : asU32 y = y := by
  unfold asU32; omega

theorem numDays_eq {y m : Int} (h1 : -2147483648 ≤ y) (h2 : y ≤ 2147483647) (hm1 : 1 ≤ m) (hm2 : m ≤ 12) :
    getNumOfDaysInMonth y m = Cal.monthLen y m := by
  have : m = 1 ∨ m = 2 ∨ m = 3 ∨ m = 4 ∨ m = 5 ∨ m = 6 ∨ m = 7 ∨ m = 8 ∨ m = 9 ∨ m = 10 ∨ m = 11 ∨ m = 12 := by omega
  unfold getNumOfDaysInMonth Cal.monthLen
  rw [asI32_id h1 h2, isLeapYear_eq]
  rcases this with h | h | h | h | h | h | h | h | h | h | h | h <;> subst h <;> simp

end Kairos
