import Verif.Spec.MonthDays
import Verif.Props.AllAmounts
import Verif.Props.Subtracting

/-!
# C169: months counted in days
-/

namespace Props
open Kairos Spec

private theorem monthsInDays_eq (y mo : Int) (h : 1 ≤ mo ∧ mo ≤ 12) (n : Nat) :
    (mo + n ≤ 12 → monthsInDays y mo n = Cal.daysBeforeMonth y (mo + n) - Cal.daysBeforeMonth y mo) ∧
    (12 < mo + n → monthsInDays y mo n = Cal.yearLen y - Cal.daysBeforeMonth y mo + 30 * (mo + n - 13)) := by
  induction n with
  | zero => exact ⟨fun _ => by simp [monthsInDays], fun _ => by omega⟩
  | succ n ih =>
    unfold monthsInDays
    rw [show mo + ((n + 1 : Nat) : Int) = mo + n + 1 by omega]
    refine ⟨fun hn => ?_, fun hn => ?_⟩
    · have := Cal.daysBeforeMonth_succ (y := y) (m := mo + n) (by omega) (by omega)
      rw [ih.1 (by omega), if_pos (by omega)]
      omega
    · by_cases h12 : mo + n ≤ 12
      · have := Cal.daysBeforeMonth_twelve y
        have h31 : Cal.monthLen y 12 = 31 := by simp [Cal.monthLen]
        have e : mo + n = 12 := by omega
        rw [ih.1 h12, if_pos h12, e]
        omega
      · rw [ih.2 (by omega), if_neg h12]
        omega

/-- **C169.** Adding `n` months is adding days, in every case and also where it is an error: each month passed through counts as many days as it has, up to December of the
year of the moment, and 30 days after that. -/
theorem C169_months (c : Cfg) (hc : Sane c) (m : Moment) (hm : m.Valid c) (n : Nat) (hn : (n : Int) ≤ 300000000000000000) :
    calculate c (.moment m + .months n) = calculate c (.moment m + .days (monthsInDays m.year m.month n)) := by
  have hc' := hc
  unfold Sane at hc'
  have hm' := hm
  obtain ⟨a1, a2, ⟨a3, a4, a5, a6⟩, t, a7⟩ := hm'
  have t' := t
  obtain ⟨t1, t2, t3, t4, t5, t6⟩ := t'
  have ml := Cal.monthLen_bounds (y := m.year) a3 a4
  have md := monthsInDays_eq m.year m.month ⟨a3, a4⟩ n
  have l1 := Cal.dayOfYear_bounds ⟨a3, a4, a5, a6⟩
  have yl := Cal.yearLen_bounds m.year
  have b0 : 0 ≤ Cal.daysBeforeMonth m.year m.month := by
    have h1 := Cal.daysBeforeMonth_one m.year
    have h2 := Cal.monthLen_bounds (y := m.year) (m := 1) (by decide) (by decide)
    rcases Int.lt_or_le 1 m.month with h | h
    · have := Cal.daysBeforeMonth_mono m.year (by decide) a4 h
      omega
    · rw [show m.month = 1 by omega]
      omega
  unfold Cal.dayOfYear at l1
  by_cases h12 : m.month + n ≤ 12
  · have e := md.1 h12
    rw [C17_within_the_year_partial c hc m hm n (m.month + n) (by omega) rfl h12]
    have n0 : 0 ≤ monthsInDays m.year m.month n := by
      rw [e]
      rcases Int.lt_or_le m.month (m.month + n) with h | h
      · have := Cal.daysBeforeMonth_mono m.year a3 h12 h
        omega
      · rw [show m.month + n = m.month by omega]
        omega
    split
    · rename_i hd
      refine (C16_within_the_year_partial c hc m { m with month := m.month + n, nano := 0 } hm ⟨a1, a2, ⟨by simp only; omega, h12, a5, hd⟩, t, by simp⟩ rfl .day (by decide) _ n0 ?_ rfl).symm
      simp only [Moment.instant, Cal.instant, Cal.dayNumber, TUnit.secs, e]
      omega
    · rename_i hd
      have hm11 : m.month + n < 12 := by
        apply Classical.byContradiction
        intro h
        have : m.month + n = 12 := by omega
        rw [this] at hd
        simp [Cal.monthLen] at hd
        omega
      have ml1 := Cal.monthLen_bounds (y := m.year) (m := m.month + n) (by omega) (by omega)
      have ml2 := Cal.monthLen_bounds (y := m.year) (m := m.month + n + 1) (by omega) (by omega)
      have s := Cal.daysBeforeMonth_succ (y := m.year) (m := m.month + n) (by omega) hm11
      refine (C16_within_the_year_partial c hc m
        { m with month := m.month + n + 1, day := m.day - Cal.monthLen m.year (m.month + n), nano := 0 } hm ⟨a1, a2, ⟨by simp only; omega, by simp only; omega, by simp only; omega, by simp only; omega⟩, t, by simp⟩ rfl
        .day (by decide) _ n0 ?_ rfl).symm
      simp only [Moment.instant, Cal.instant, Cal.dayNumber, TUnit.secs, e, s]
      omega
  · have e := md.2 (by omega)
    have hJ : (m.month + n - 13) * 30 + (m.day - 1) = 30 * (m.month + n - 13) + m.day - 1 := by omega
    let q := m.month + n - 13
    have hq : q = m.month + n - 13 := rfl
    let Y := m.year + 1 + (30 * q + m.day - 1) / 360
    have hY : Y = m.year + 1 + (30 * q + m.day - 1) / 360 := rfl
    let Z := (Y + 2147483648) % 4294967296 - 2147483648
    have hZ : Z = (Y + 2147483648) % 4294967296 - 2147483648 := rfl
    have ys := Cal.daysBeforeYear_succ m.year
    have d := C16_beyond_the_year_partial c hc m hm .day (by decide) (monthsInDays m.year m.month n) (by rw [e]; omega) (by unfold part; simp only; omega)
      (30 * q + m.day - 1) m.hour m.minute m.second Z ((Y + 2147483648) / 4294967296) (by omega) t
      (by
        simp only [Moment.instant, Cal.instant, Cal.dayNumber, TUnit.secs, e, Cal.daysBeforeMonth_one]
        omega) (by omega) (by omega)
    show _ = calculate c (.moment m + amt .day _)
    rw [d]
    by_cases h31 : m.day ≤ 30
    · have k := C17_beyond_the_year_partial c hc m hm h31 n Y (q % 12 + 1) Z ((Y + 2147483648) / 4294967296) (by omega) (by omega)
        (by unfold Cal.monthIndex; omega) (by omega) (by omega) (by omega)
      rw [k]
      have e1 : (30 * q + m.day - 1) / 30 % 12 + 1 = q % 12 + 1 := by omega
      have e2 : (30 * q + m.day - 1) % 30 + 1 = m.day := by omega
      rw [e1, e2]
    · have h31 : m.day = 31 := by omega
      have e1 : (30 * q + m.day - 1) / 30 % 12 + 1 = (q + 1) % 12 + 1 := by omega
      have e2 : (30 * q + m.day - 1) % 30 + 1 = 1 := by omega
      have k := C17_from_the_31st_partial c hc m hm h31 n Y ((q + 1) % 12 + 1) Z ((Y + 2147483648) / 4294967296) (by omega) (by omega)
        (by unfold Cal.monthIndex; omega) (by omega) (by omega) (by omega)
      rw [k, e1, e2]
      have mlZ := Cal.monthLen_bounds (y := Z) (m := (q + 1) % 12 + 1) (by omega) (by omega)
      have v : Cal.ValidDate Z ((q + 1) % 12 + 1) 1 := ⟨by omega, by omega, by omega, by omega⟩
      simp only [v, and_true]

/-- **C169, one month.** One month is as many days as the month has, whatever the date. -/
theorem C169_one_month (c : Cfg) (hc : Sane c) (m : Moment) (hm : m.Valid c) :
    calculate c (.moment m + .months 1) = calculate c (.moment m + .days (Cal.monthLen m.year m.month)) := by
  have h := C169_months c hc m hm 1 (by decide)
  have e : monthsInDays m.year m.month 1 = Cal.monthLen m.year m.month := by
    have := hm.2.2.1.2.1
    simp [monthsInDays, this]
  rw [e] at h
  exact h

/-- **C169, backwards.** One month back is 31 days back, whatever the date and however long the month before is. -/
theorem C169_one_month_back (c : Cfg) (hc : Sane c) (m : Moment) (hm : m.Valid c) :
    calculate c (.moment m - .months 1) = calculate c (.moment m - .days 31) := by
  have h1 := sub_closed c hc hm .month 1 (by decide) (by decide)
  have h2 := sub_closed c hc hm .day 31 (by decide) (by decide)
  simp only [amt] at h1 h2
  rw [h1, h2]
  obtain ⟨a1, a2, ⟨a3, a4, a5, a6⟩, ⟨t1, t2, t3, t4, t5, t6⟩, a7⟩ := hm
  have ml := Cal.monthLen_bounds (y := m.year) a3 a4
  congr 1
  have s1 : ∀ x, bP m.second 0 60 60 x = (x, m.second) := fun x => by unfold bP; grind
  have s2 : ∀ x, bP m.minute 0 60 60 x = (x, m.minute) := fun x => by unfold bP; grind
  have s3 : ∀ x, bP m.hour 0 24 24 x = (x, m.hour) := fun x => by unfold bP; grind
  have s4 : ∀ x, bP m.day 1 32 31 x = (x, m.day) := fun x => by unfold bP; grind
  have s5 : ∀ x, bP (m.day - 31) 1 32 31 x = (x - 1, m.day) := fun x => by unfold bP; grind
  simp only [subP, subComp, s1, s2, s3, s4, s5]

/-- **C169, a year.** `L` days are the days from a date (not 29 February) to the same date of the next year. Adding them and adding a year agree exactly from 1 to 30
January, and, with `y + 1` a leap year, from 1 to 30 March, and with `y + 1` a common year, from 1 April to 30 May. -/
theorem C169_year (c : Cfg) (hc : Sane c) (m : Moment) (hm : m.Valid c) (hd : ¬ (m.month = 2 ∧ m.day = 29)) (hy : m.year < c.maxYear) (L : Int)
    (hL : L = Cal.dayNumber (m.year + 1) m.month m.day - Cal.dayNumber m.year m.month m.day) :
    calculate c (.moment m + .years 1) = calculate c (.moment m + .days L) ↔
      (m.month = 1 ∧ m.day ≤ 30) ∨ (m.month = 3 ∧ m.day ≤ 30 ∧ Cal.isLeap (m.year + 1) = true) ∨
      (m.month = 4 ∧ Cal.isLeap (m.year + 1) = false) ∨ (m.month = 5 ∧ m.day ≤ 30 ∧ Cal.isLeap (m.year + 1) = false) := by
  have hc' := hc
  unfold Sane at hc'
  have hm' := hm
  obtain ⟨a1, a2, ⟨a3, a4, a5, a6⟩, t, a7⟩ := hm'
  have v : Cal.ValidDate (m.year + 1) m.month m.day := by
    refine ⟨a3, a4, a5, ?_⟩
    unfold Cal.monthLen at a6 ⊢
    by_cases h2 : m.month = 2
    · simp only [h2, if_true] at a6 ⊢
      grind
    · grind
  rw [C18_adding_years_partial c m hm 1 (by omega) (by omega), if_neg (by omega), if_neg (fun h => hd ⟨h.1, h.2.1⟩)]
  have lt : 0 ≤ L := by
    have := (Cal.dayNumber_lt_iff (y := m.year) (m := m.month) (d := m.day) ⟨a3, a4, a5, a6⟩ v).2 (.inl (by omega))
    omega
  have h := C16_exact_iff_partial c hc m { m with year := m.year + 1, nano := 0 } hm ⟨by simp only; omega, by simp only; omega, v, t, by simp⟩ rfl .day (by decide) L lt (by
    simp only [Moment.instant, Cal.instant, TUnit.secs, hL]; omega)
  rw [eq_comm]
  simp only [amt] at h
  rw [h]
  constructor
  · rintro (h | ⟨-, h⟩)
    · omega
    · exact h
  · exact fun h => .inr ⟨trivial, h⟩

/-- Twenty months from 31 August 2017: 31 + 30 + 31 + 30 + 31 days, then fifteen times 30. One month from 31 January; one month back from 5 March; a year. -/
example := C169_months (std .debug) (sane_std _) (at_ 2017 8 31 12 0 0) (by decide) 20 (by decide)
example : monthsInDays 2017 8 20 = 31 + 30 + 31 + 30 + 31 + 15 * 30 ∧
    calculate (std .debug) (.moment (at_ 2017 8 31 12 0 0) + .months 20) = .ok (.moment (at_ 2019 5 1 12 0 0)) := by decide +kernel
example := C169_one_month (std .debug) (sane_std _) (at_ 2017 1 31 12 0 0) (by decide)
example : calculate (std .debug) (.moment (at_ 2017 1 31 12 0 0) + .months 1) = .ok (.moment (at_ 2017 3 3 12 0 0)) := by decide +kernel
example := C169_one_month_back (std .debug) (sane_std _) (at_ 2017 3 5 12 0 0) (by decide)
example : calculate (std .debug) (.moment (at_ 2017 3 5 12 0 0) - .months 1) = .ok (.moment (at_ 2017 2 5 12 0 0)) ∧
    calculate (std .debug) (.moment (at_ 2017 3 5 12 0 0) - .days 28) = .ok (.moment (at_ 2017 2 8 12 0 0)) := by decide +kernel
example := C169_year (std .debug) (sane_std _) (at_ 2017 1 15 12 0 0) (by decide) (by decide) (by decide) 365 (by decide)
example := C169_year (std .debug) (sane_std _) (at_ 2017 6 15 12 0 0) (by decide) (by decide) (by decide) 365 (by decide)

end Props
