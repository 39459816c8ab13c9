import Verif.Lemmas.MomentAdd

/-! When the code's calendar agrees with the Gregorian one. -/

namespace Cal

theorem daysBeforeYear_ge {y y' : Int} (h : y ≤ y') :
    daysBeforeYear y + 365 * (y' - y) ≤ daysBeforeYear y' ∧
    daysBeforeYear y' ≤ daysBeforeYear y + 366 * (y' - y) := by
  unfold daysBeforeYear; omega

theorem month_cases {m : Int} (h1 : 1 ≤ m) (h2 : m ≤ 12) : m = 1 ∨ m = 2 ∨ m = 3 ∨ m = 4 ∨ m = 5 ∨ m = 6 ∨
    m = 7 ∨ m = 8 ∨ m = 9 ∨ m = 10 ∨ m = 11 ∨ m = 12 := by omega

end Cal

namespace Kairos
open Spec

/-- The code's calendar is right exactly for: the starting year; and of the year after it
1–30 January, 1–30 March if it is a leap year, 1 April – 30 May if it is not. -/
def ExactZone (y Y M D : Int) : Prop :=
  Y = y ∨ (Y = y + 1 ∧ ((M = 1 ∧ D ≤ 30) ∨ (M = 3 ∧ D ≤ 30 ∧ Cal.isLeap Y = true) ∨
    (M = 4 ∧ Cal.isLeap Y = false) ∨ (M = 5 ∧ D ≤ 30 ∧ Cal.isLeap Y = false)))

theorem code_exact_iff {y N y' mo' d' Y M D : Int} (hcd : CodeDate y N y' mo' d')
    (hv : Cal.ValidDate Y M D) (hN : N = Cal.dayNumber Y M D - Cal.daysBeforeYear y) (h1 : 1 ≤ N) :
    (y' = Y ∧ mo' = M ∧ d' = D) ↔ ExactZone y Y M D := by
  obtain ⟨c1, c2⟩ := hcd
  have hdoy := Cal.dayOfYear_bounds hv
  have hdn := Cal.dayNumber_eq Y M D
  have hyl := Cal.yearLen_bounds y
  have hsucc := Cal.daysBeforeYear_succ y
  by_cases hY : Y ≤ y
  · -- then Y = y
    have hYy : Y = y := by
      by_cases h : Y < y
      · have := Cal.daysBeforeYear_mono h; omega
      · omega
    subst hYy
    have hle : N ≤ Cal.yearLen Y := by omega
    obtain ⟨rfl, v, w⟩ := c1 hle
    refine ⟨fun _ => .inl rfl, fun _ => ?_⟩
    refine Cal.dayNumber_inj v hv ?_
    rw [Cal.dayNumber_eq, w]; omega
  · have hgt : Cal.yearLen y < N := by
      have := Cal.daysBeforeYear_ge (y := y + 1) (y' := Y) (by omega); omega
    obtain ⟨e1, e2, e3⟩ := c2 hgt
    have hv' := hv
    obtain ⟨v1, v2, v3, v4⟩ := hv'
    by_cases hY1 : Y = y + 1
    · subst hY1
      have hj : N - Cal.yearLen y - 1 = Cal.dayOfYear (y + 1) M D - 1 := by omega
      rw [hj] at e1 e2 e3
      unfold Cal.dayOfYear at *
      unfold ExactZone
      clear hN hdn c1 c2 hj hgt h1 hsucc
      have hy1 : (y + 1 = y ∨ y + 1 = y + 1 ∧
          (M = 1 ∧ D ≤ 30 ∨ M = 3 ∧ D ≤ 30 ∧ Cal.isLeap (y + 1) = true ∨
          M = 4 ∧ Cal.isLeap (y + 1) = false ∨ M = 5 ∧ D ≤ 30 ∧ Cal.isLeap (y + 1) = false)) ↔
          (M = 1 ∧ D ≤ 30 ∨ M = 3 ∧ D ≤ 30 ∧ Cal.isLeap (y + 1) = true ∨
          M = 4 ∧ Cal.isLeap (y + 1) = false ∨ M = 5 ∧ D ≤ 30 ∧ Cal.isLeap (y + 1) = false) := by
        constructor
        · rintro (h | h)
          · omega
          · exact h.2
        · intro h; exact .inr ⟨rfl, h⟩
      rw [hy1]
      rcases Cal.month_cases v1 v2 with h | h | h | h | h | h | h | h | h | h | h | h <;> subst h <;>
        cases hl : Cal.isLeap (y + 1) <;>
        simp [Cal.daysBeforeMonth, Cal.monthLen, hl] at e1 e2 e3 v4 ⊢ <;> omega
    · refine ⟨fun h => ?_, fun h => ?_⟩
      · obtain ⟨rfl, rfl, rfl⟩ := h
        exfalso
        have hge := (Cal.daysBeforeYear_ge (y := y + 1) (y' := y') (by omega)).1
        have hoff : 30 * (mo' - 1) ≤ Cal.daysBeforeMonth y' mo' + 1 := by
          rcases Cal.month_cases v1 v2 with h | h | h | h | h | h | h | h | h | h | h | h <;> rw [h] <;>
            cases hl : Cal.isLeap y' <;> simp [Cal.daysBeforeMonth, hl]
        unfold Cal.dayOfYear at hdn
        omega
      · exfalso
        rcases h with h | h <;> omega

/-- The code's year is never before the calendar's. -/
theorem code_year_ge {y N y' mo' d' Y M D : Int} (hcd : CodeDate y N y' mo' d')
    (hv : Cal.ValidDate Y M D) (hN : N = Cal.dayNumber Y M D - Cal.daysBeforeYear y) (hY : y ≤ Y) : Y ≤ y' := by
  obtain ⟨c1, c2⟩ := hcd
  have hdoy := Cal.dayOfYear_bounds hv
  have hdn := Cal.dayNumber_eq Y M D
  have hsucc := Cal.daysBeforeYear_succ y
  by_cases hgt : N ≤ Cal.yearLen y
  · obtain ⟨rfl, -⟩ := c1 hgt
    by_cases h : Y ≤ y'
    · exact h
    · have := Cal.daysBeforeYear_ge (y := y' + 1) (y' := Y) (by omega); omega
  · obtain ⟨e1, -⟩ := c2 (by omega)
    by_cases h : y + 1 ≤ Y
    · have := Cal.daysBeforeYear_ge (y := y + 1) (y' := Y) (by omega); omega
    · omega

variable (c : Cfg)

/-- Sub-month addition: exactly when it is exact. -/
theorem add_exact_iff {m m' : Moment} (hc : Sane c) (hm : m.Valid c) (hm' : m'.Valid c) (hz : m'.nano = 0)
    (u : TUnit) (hu : u.secs ≤ 86400) (n : Int) (hn : 0 ≤ n) (hi : m'.instant = m.instant + n * u.secs) :
    calculate c (.moment m + amt u n) = .ok (.moment m') ↔ ExactZone m.year m'.year m'.month m'.day := by
  have hc' := hc
  unfold Sane at hc'
  obtain ⟨a1, a2, a3, a4, a5⟩ := hm
  obtain ⟨b1, b2, b3, b4, b5⟩ := hm'
  obtain ⟨p1, p2, p3, p4⟩ := tod_of_instant a4
  obtain ⟨q1, q2, q3, q4⟩ := tod_of_instant b4
  have hpos : 0 < u.secs := by cases u <;> decide
  have hnn : n ≤ n * u.secs := by
    have := Int.mul_le_mul_of_nonneg_left (a := 1) (b := u.secs) (c := n) (by omega) hn; omega
  -- bounds on day numbers
  have dy := Cal.dayNumber_eq m.year m.month m.day
  have dy' := Cal.dayNumber_eq m'.year m'.month m'.day
  have l1 := Cal.dayOfYear_bounds a3
  have l2 := Cal.dayOfYear_bounds b3
  have yl := Cal.yearLen_bounds m.year
  have yl' := Cal.yearLen_bounds m'.year
  have hdb : -800000000 ≤ Cal.daysBeforeYear m.year ∧ Cal.daysBeforeYear m.year ≤ 800000000 := by
    unfold Cal.daysBeforeYear; omega
  have hdb' : -800000000 ≤ Cal.daysBeforeYear m'.year ∧ Cal.daysBeforeYear m'.year ≤ 800000000 := by
    unfold Cal.daysBeforeYear; omega
  have hbn : n ≤ 9223372036854775700 := by
    have : m'.instant ≤ 200000000000000 := by omega
    have : -200000000000000 ≤ m.instant := by omega
    omega
  obtain ⟨y', mo', d', e, hcd⟩ := add_closed c hc ⟨a1, a2, a3, a4, a5⟩ u hu n hn hbn
  rw [e, ← hi]
  rw [← hi] at hcd
  have hge : m.instant ≤ m'.instant := by
    have := Int.mul_nonneg hn (Int.le_of_lt hpos); omega
  have hN1 : 1 ≤ m'.instant / 86400 - Cal.daysBeforeYear m.year := by omega
  have key := code_exact_iff hcd b3 (by rw [← q4]) hN1
  -- the code's date is small
  have small : -2147483648 ≤ y' ∧ y' ≤ 2147483647 ∧ (1 ≤ mo' ∧ mo' ≤ 12) ∧ (1 ≤ d' ∧ d' ≤ 31) := by
    obtain ⟨c1, c2⟩ := hcd
    by_cases hgt : m'.instant / 86400 - Cal.daysBeforeYear m.year ≤ Cal.yearLen m.year
    · obtain ⟨rfl, ⟨v1, v2, v3, v4⟩, -⟩ := c1 hgt
      have := Cal.monthLen_bounds (y := m.year) v1 v2
      omega
    · obtain ⟨e1, e2, e3⟩ := c2 (by omega)
      omega
  have tv := tod_valid m'.instant
  have tv' := tv
  unfold Cal.ValidTime at tv'
  rw [build_in c small.1 small.2.1 (by omega) (by omega) (by omega) (by omega) (by omega)]
  rw [← key]
  constructor
  · intro h
    split at h
    · injection h with h; injection h with h
      exact ⟨congrArg Moment.year h, congrArg Moment.month h, congrArg Moment.day h⟩
    · cases h
  · rintro ⟨rfl, rfl, rfl⟩
    rw [if_pos ⟨b1, b2, b3, tv⟩, ← q1, ← q2, ← q3, ← hz]

end Kairos
