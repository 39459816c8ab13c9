import Verif.Lemmas.MonthAdd

/-!
# C16–C18, C20, C27, C28: adding amounts to a moment
-/

namespace Props
open Kairos Spec

/-! ## C16 -/

/-- **C16, exactly when it holds.** `m'` is the date-time that lies exactly `n` seconds, minutes,
hours or days after `m`. Then `m + n` is `m'` if and only if `m'` lies in the same year as `m`, or
in the year after it on 1–30 January, or 1–30 March (leap year), or 1 April – 30 May (common year).
Everywhere else the code's answer is wrong (or an error), because it counts months of 30 days after
the first December. -/
theorem C16_exact_iff_partial (c : Cfg) (hc : Sane c) (m m' : Moment) (hm : m.Valid c) (hm' : m'.Valid c)
    (hz : m'.nano = 0) (u : TUnit) (hu : u = .second ∨ u = .minute ∨ u = .hour ∨ u = .day)
    (n : Int) (hn : 0 ≤ n) (hi : m'.instant = m.instant + n * u.secs) :
    calculate c (.moment m + amt u n) = .ok (.moment m') ↔
      m'.year = m.year ∨ (m'.year = m.year + 1 ∧
        ((m'.month = 1 ∧ m'.day ≤ 30) ∨
         (m'.month = 3 ∧ m'.day ≤ 30 ∧ Cal.isLeap m'.year = true) ∨
         (m'.month = 4 ∧ Cal.isLeap m'.year = false) ∨
         (m'.month = 5 ∧ m'.day ≤ 30 ∧ Cal.isLeap m'.year = false))) :=
  add_exact_iff c hc hm hm' hz u (by rcases hu with rfl | rfl | rfl | rfl <;> decide) n hn hi

example : calculate (std .debug) (.moment (at_ 2017 2 15 0 0 0) + amt .hour 100) = .ok (.moment (at_ 2017 2 19 4 0 0)) :=
  (C16_exact_iff_partial (std .debug) (sane_std _) _ _ (by decide) (by decide) rfl .hour (by decide) 100 (by decide) (by decide)).2 (by decide)
example : calculate (std .debug) (.moment (at_ 2017 2 15 0 0 0) + amt .day 365) ≠ .ok (.moment (at_ 2018 2 15 0 0 0)) :=
  mt (C16_exact_iff_partial (std .debug) (sane_std _) _ _ (by decide) (by decide) rfl .day (by decide) 365 (by decide) (by decide)).1 (by decide)

/-- The day number of a date at most 30 days into the next year. -/
theorem within_30_days {y mo d y' mo' d' : Int} (h : Cal.ValidDate y mo d) (h' : Cal.ValidDate y' mo' d')
    (h1 : Cal.dayNumber y mo d ≤ Cal.dayNumber y' mo' d')
    (h2 : Cal.dayNumber y' mo' d' ≤ Cal.dayNumber y mo d + 30) :
    y' = y ∨ (y' = y + 1 ∧ mo' = 1 ∧ d' ≤ 30) := by
  rw [Cal.dayNumber_eq, Cal.dayNumber_eq] at *
  have a := Cal.dayOfYear_bounds h
  have b := Cal.dayOfYear_bounds h'
  have s := Cal.daysBeforeYear_succ y
  by_cases e : y' = y
  · exact .inl e
  by_cases lt : y' < y
  · have := Cal.daysBeforeYear_mono lt; omega
  right
  have e1 : y' = y + 1 := by
    by_cases g : y + 2 ≤ y'
    · have := (Cal.daysBeforeYear_ge (y := y + 1) (y' := y') (by omega)).1; omega
    · omega
  subst e1
  refine ⟨rfl, ?_⟩
  have hdoy : Cal.dayOfYear (y + 1) mo' d' ≤ 30 := by omega
  unfold Cal.dayOfYear at hdoy
  obtain ⟨v1, v2, v3, v4⟩ := h'
  rcases Cal.month_cases v1 v2 with h | h | h | h | h | h | h | h | h | h | h | h <;> subst h <;>
    cases hl : Cal.isLeap (y + 1) <;> simp [Cal.daysBeforeMonth, hl] at hdoy ⊢ <;> omega

/-- **C16 (partial).** Adding at most 30 days' worth of seconds, minutes, hours or days is exact.
Missing: longer distances, see `C16_exact_iff_partial` and `C16_refuted`. -/
theorem C16_up_to_30_days_partial (c : Cfg) (hc : Sane c) (m m' : Moment) (hm : m.Valid c) (hm' : m'.Valid c)
    (hz : m'.nano = 0) (u : TUnit) (hu : u = .second ∨ u = .minute ∨ u = .hour ∨ u = .day)
    (n : Int) (hn : 0 ≤ n) (hmax : n * u.secs ≤ 30 * 86400) (hi : m'.instant = m.instant + n * u.secs) :
    calculate c (.moment m + amt u n) = .ok (.moment m') := by
  rw [C16_exact_iff_partial c hc m m' hm hm' hz u hu n hn hi]
  have t := hm.2.2.2.1
  have t' := hm'.2.2.2.1
  unfold Cal.ValidTime at t t'
  have h0 : 0 ≤ n * u.secs := Int.mul_nonneg hn (by rcases hu with rfl | rfl | rfl | rfl <;> decide)
  unfold Moment.instant Cal.instant at hi
  -- 30 days later at a later time of day is at most 30 day numbers later
  rcases within_30_days hm.2.2.1 hm'.2.2.1 (by omega) (by omega) with h | h
  · exact .inl h
  · exact .inr ⟨h.1, .inl h.2⟩

example : calculate (std .debug) (.moment (at_ 2017 12 15 0 0 0) + amt .second 2592000) = .ok (.moment (at_ 2018 1 14 0 0 0)) :=
  C16_up_to_30_days_partial (std .debug) (sane_std _) _ _ (by decide) (by decide) rfl .second (by decide) 2592000 (by decide) (by decide) (by decide)

/-- **C16.** Past chrono's last year the result is an error, for amounts up to 4.29 billion years.
(Partial. Missing: the exact date where the property demands one, see `C16_refuted`.) -/
theorem C16_past_the_end_partial (c : Cfg) (hc : Sane c) (m : Moment) (hm : m.Valid c)
    (u : TUnit) (hu : u = .second ∨ u = .minute ∨ u = .hour ∨ u = .day)
    (n : Int) (hn : 0 ≤ n) (hmax : n * u.secs ≤ 133500000000000000)
    (hi : Cal.instant (c.maxYear + 1) 1 1 0 0 0 ≤ m.instant + n * u.secs) :
    ∃ Y M D H MI S, calculate c (.moment m + amt u n) = .err (.outOfBounds Y M D H MI S) := by
  have hus : u.secs ≤ 86400 := by rcases hu with rfl | rfl | rfl | rfl <;> decide
  have hpos : 0 < u.secs := by cases u <;> decide
  have hnn : n ≤ n * u.secs := by
    have := Int.mul_le_mul_of_nonneg_left (a := 1) (b := u.secs) (c := n) (by omega) hn; omega
  obtain ⟨y', mo', d', e, hcd⟩ := add_closed c hc hm u hus n hn (by omega)
  have hc' := hc
  unfold Sane at hc'
  obtain ⟨a1, a2, a3, a4, a5⟩ := hm
  have l1 := Cal.dayOfYear_bounds a3
  have yl := Cal.yearLen_bounds m.year
  have dy := Cal.dayNumber_eq m.year m.month m.day
  obtain ⟨p1, p2, p3, p4⟩ := tod_of_instant a4
  have hlast := (Cal.daysBeforeYear_ge (y := m.year + 1) (y' := c.maxYear + 1) (by omega)).1
  have hsucc := Cal.daysBeforeYear_succ m.year
  have small := codeDate_far hcd (by omega) (by omega) (by omega)
  -- the code's year is past the last one
  have hyear : c.maxYear < y' := by
    obtain ⟨c1, c2⟩ := hcd
    unfold Cal.instant Cal.dayNumber at hi
    rw [Cal.daysBeforeMonth_one] at hi
    have hgt : Cal.yearLen m.year < (m.instant + n * u.secs) / 86400 - Cal.daysBeforeYear m.year := by omega
    obtain ⟨e1, -, -⟩ := c2 hgt
    omega
  rw [e, build_far c hc small.1 small.2.1 (by simp only; omega) (by simp only; omega) (tod_valid _)]
  refine ⟨_, _, _, _, _, _, if_neg ?_⟩
  simp only; omega

example : ∃ Y M D H MI S, calculate (std .debug) (.moment (at_ 262143 12 15 0 0 0) + amt .day 17) = .err (.outOfBounds Y M D H MI S) :=
  C16_past_the_end_partial (std .debug) (sane_std _) _ (by decide) .day (by decide) 17 (by decide) (by decide) (by decide)

/-- **C16 refuted**: 31 December 2000 plus 31 days is 31 January 2001, the code says 1 February. -/
theorem C16_refuted :
    (at_ 2001 1 31 0 0 0).instant = (at_ 2000 12 31 0 0 0).instant + 31 * TUnit.secs .day ∧
    calculate (std .debug) (.moment (at_ 2000 12 31 0 0 0) + amt .day 31) =
      .ok (.moment (at_ 2001 2 1 0 0 0)) := by decide +kernel

/-- A second counterexample in another unit, ten years away. -/
example : calculate (std .debug) (.moment (at_ 2000 12 31 0 0 0) + amt .hour (3652 * 24)) =
      .ok (.moment (at_ 2011 2 22 0 0 0)) := by decide +kernel

example : (at_ 2017 3 1 1 0 0).instant = (at_ 2017 2 27 23 0 0).instant + 26 * TUnit.secs .hour ∧
    (at_ 2017 2 27 23 0 0).Valid (std .debug) ∧ (at_ 2017 3 1 1 0 0).Valid (std .debug) := by decide +kernel

/-! ## C17 -/

/-- **C17, exactly when it holds.** `m'` has the same day of month and time of day as `m`, in the
month that is `n` calendar months after that of `m`. `m + months(n)` is `m'` unless `m` is on a 31st
and the addition leaves the year. -/
theorem C17_exact_iff_partial (c : Cfg) (hc : Sane c) (m m' : Moment) (hm : m.Valid c) (hm' : m'.Valid c)
    (n : Int) (hn : 0 ≤ n)
    (hi : Cal.monthIndex m'.year m'.month = Cal.monthIndex m.year m.month + n)
    (hday : m' = { m with year := m'.year, month := m'.month, nano := 0 }) :
    calculate c (.moment m + .months n) = .ok (.moment m') ↔ (m.day ≤ 30 ∨ m'.year = m.year) := by
  have hc' := hc
  unfold Sane at hc'
  obtain ⟨a1, a2, ⟨a3, a4, a5, a6⟩, at', a7⟩ := hm
  have hv' := hm'
  obtain ⟨b1, b2, b3, b4, b5⟩ := hv'
  have b3' := b3
  obtain ⟨v1, v2, v3, v4⟩ := b3'
  have ml := Cal.monthLen_bounds (y := m.year) a3 a4
  unfold Cal.monthIndex at hi
  have hd' : m'.day = m.day := by rw [hday]
  have small := monthDate_small (y := m.year) (t := m.month + n) (d := m.day) (by omega) (by omega) (by omega) (by omega) a5 (by omega)
  rw [addMonths_closed c hc ⟨a1, a2, ⟨a3, a4, a5, a6⟩, at', a7⟩ n (by omega) (by omega),
    build_cases c small.1 small.2.1 (by simp only; omega) (by simp only; omega) at']
  unfold monthDate
  by_cases h12 : m.month + n ≤ 12
  · have hy : m'.year = m.year := by omega
    have hmo : m'.month = m.month + n := by omega
    have hok : m.day ≤ Cal.monthLen m.year (m.month + n) := by rw [← hy, ← hmo, ← hd']; exact v4
    simp only [if_pos h12, if_pos hok]
    rw [if_pos ⟨by omega, by omega, by rw [← hy, ← hmo, ← hd']; exact b3⟩]
    refine ⟨fun _ => .inr hy, fun _ => ?_⟩
    rw [hday, hmo, hy]
  · by_cases h30 : m.day ≤ 30
    · simp only [if_neg h12, if_pos h30]
      have hy : m'.year = m.year + (m.month + n - 1) / 12 := by omega
      have hmo : m'.month = (m.month + n - 1) % 12 + 1 := by omega
      rw [← hy, ← hmo, if_pos ⟨by omega, by omega, by rw [← hd']; exact b3⟩]
      refine ⟨fun _ => .inl h30, fun _ => ?_⟩
      rw [hday]
    · simp only [if_neg h12, if_neg h30]
      refine ⟨fun h => ?_, fun h => ?_⟩
      · exfalso
        split at h
        · injection h with h; injection h with h
          have := congrArg Moment.day h
          simp only at this; omega
        · cases h
      · exfalso; omega

example : calculate (std .debug) (.moment (at_ 2017 11 30 7 8 9) + .months 14) = .ok (.moment (at_ 2019 1 30 7 8 9)) :=
  (C17_exact_iff_partial (std .debug) (sane_std _) _ _ (by decide) (by decide) 14 (by decide) (by decide) (by decide)).2 (by decide)
example : calculate (std .debug) (.moment (at_ 2017 10 31 7 8 9) + .months 3) ≠ .ok (.moment (at_ 2018 1 31 7 8 9)) :=
  mt (C17_exact_iff_partial (std .debug) (sane_std _) _ _ (by decide) (by decide) 3 (by decide) (by decide) (by decide)).1 (by decide)

/-- **C17 (partial).** For a day of month up to 28, `m + months(n)` is `n` calendar months later on
the same day and time of day; if that is past chrono's last year it is an error (for `n` up to two
billion years). Missing: days 29–31, see `C17_exact_iff_partial` and `C17_refuted`. -/
theorem C17_up_to_28th_partial (c : Cfg) (hc : Sane c) (m : Moment) (hm : m.Valid c) (hd : m.day ≤ 28)
    (n : Int) (hn : 0 ≤ n) (hb : n ≤ 24000000000) (Y M : Int) (hM : 1 ≤ M ∧ M ≤ 12)
    (hi : Cal.monthIndex Y M = Cal.monthIndex m.year m.month + n) :
    calculate c (.moment m + .months n) =
      if Y ≤ c.maxYear then .ok (.moment { m with year := Y, month := M, nano := 0 })
      else .err (.outOfBounds Y M m.hour m.hour m.minute m.second) := by
  have hc' := hc
  unfold Sane at hc'
  obtain ⟨a1, a2, ⟨a3, a4, a5, a6⟩, at', a7⟩ := hm
  unfold Cal.monthIndex at hi
  have mlY := Cal.monthLen_bounds (y := Y) hM.1 hM.2
  have small := monthDate_small (y := m.year) (t := m.month + n) (d := m.day) (by omega) (by omega) (by omega) (by omega) a5 (by omega)
  rw [addMonths_closed c hc ⟨a1, a2, ⟨a3, a4, a5, a6⟩, at', a7⟩ n (by omega) (by omega),
    build_cases c small.1 small.2.1 (by simp only; omega) (by simp only; omega) at']
  have hmd : monthDate m.year (m.month + n) m.day = (Y, M, m.day) := by
    unfold monthDate
    by_cases h12 : m.month + n ≤ 12
    · have ml := Cal.monthLen_bounds (y := m.year) (m := m.month + n) (by omega) h12
      rw [if_pos h12, if_pos (by omega)]
      congr 1
      · omega
      · congr 1; omega
    · rw [if_neg h12, if_pos (by omega)]
      congr 1
      · omega
      · congr 1; omega
  simp only [hmd]
  by_cases hY : Y ≤ c.maxYear
  · rw [if_pos hY, if_pos ⟨by omega, hY, hM.1, hM.2, a5, by omega⟩]
  · rw [if_neg hY, if_neg (by omega)]

example := C17_up_to_28th_partial (std .debug) (sane_std _) (at_ 2017 10 28 7 8 9) (by decide) (by decide) 16 (by decide) (by decide)
  2019 2 (by decide) (by decide)

/-- **C17 refuted**: one month after 31 December 2000 is 31 January 2001; the code says 1 February.
And two months after 30 December 2000 is an error, though one month after 31 January rolls over (`C17_within_the_year_partial`). -/
theorem C17_refuted :
    calculate (std .debug) (.moment (at_ 2000 12 31 0 0 0) + .months 1) = .ok (.moment (at_ 2001 2 1 0 0 0)) ∧
    Cal.monthIndex 2001 1 = Cal.monthIndex 2000 12 + 1 ∧ (at_ 2001 1 31 0 0 0).Valid (std .debug) ∧
    calculate (std .debug) (.moment (at_ 2000 12 30 5 0 0) + .months 2) = .err (.outOfBounds 2001 2 5 5 0 0) := by
  decide +kernel

example : (at_ 2001 2 28 5 6 7).Valid (std .debug) ∧ (at_ 2000 11 28 5 6 7).Valid (std .debug) ∧
    Cal.monthIndex 2001 2 = Cal.monthIndex 2000 11 + 3 := by decide

/-! ## C18 -/

/-- **C18 (partial).** `m + years(n)`, `n` of either sign, if the resulting year is an `i32`: the
same month, day and time in year `y + n`; 29 February becomes 1 March in a common year; years
outside chrono's range are an error. Missing: years beyond `i32`, see `C27_refuted`. -/
theorem C18_adding_years_partial (c : Cfg) (m : Moment) (hm : m.Valid c) (n : Int)
    (hn1 : -2147483648 ≤ m.year + n) (hn2 : m.year + n ≤ 2147483647) :
    calculate c (.moment m + .years n) =
      if m.year + n < c.minYear ∨ c.maxYear < m.year + n then
        .err (.outOfBounds (m.year + n)
          (if m.month = 2 ∧ m.day = 29 ∧ Cal.isLeap (m.year + n) = false then 3 else m.month)
          m.hour m.hour m.minute m.second)
      else if m.month = 2 ∧ m.day = 29 ∧ Cal.isLeap (m.year + n) = false then
        .ok (.moment { m with year := m.year + n, month := 3, day := 1, nano := 0 })
      else .ok (.moment { m with year := m.year + n, nano := 0 }) := by
  obtain ⟨a1, a2, ⟨a3, a4, a5, a6⟩, at', a7⟩ := hm
  have ml := Cal.monthLen_bounds (y := m.year) a3 a4
  rw [addYears_closed c ⟨a1, a2, ⟨a3, a4, a5, a6⟩, at', a7⟩ n hn1 hn2]
  by_cases hf : m.month = 2 ∧ m.day = 29 ∧ Cal.isLeap (m.year + n) = false
  · obtain ⟨f1, f2, f3⟩ := hf
    have hmd : monthDate (m.year + n) m.month m.day = (m.year + n, 3, 1) := by
      unfold monthDate
      rw [f1, f2]; simp [Cal.monthLen, f3]
    have hv : Cal.ValidDate (m.year + n) 3 1 := by simp [Cal.ValidDate, Cal.monthLen]
    simp only [hmd]
    rw [build_cases c (by simpa using hn1) (by simpa using hn2) (by simp) (by simp) at']
    simp only [f1, f2, f3, and_self, if_true, hv, and_true]
    by_cases hr : m.year + n < c.minYear ∨ c.maxYear < m.year + n
    · rw [if_pos hr, if_neg (by omega)]
    · rw [if_neg hr, if_pos (by omega)]
  · have hle : m.day ≤ Cal.monthLen (m.year + n) m.month := by
      rcases Cal.month_cases a3 a4 with h | h | h | h | h | h | h | h | h | h | h | h <;> rw [h] at a6 hf ⊢ <;>
        simp [Cal.monthLen] at a6 hf ⊢ <;> try omega
      cases h1 : Cal.isLeap m.year <;> cases h2 : Cal.isLeap (m.year + n) <;> simp [h1, h2] at a6 hf ⊢ <;> omega
    have hmd : monthDate (m.year + n) m.month m.day = (m.year + n, m.month, m.day) := by
      unfold monthDate
      rw [if_pos a4, if_pos hle]
    simp only [hmd, if_neg hf]
    rw [build_cases c (by simpa using hn1) (by simpa using hn2) (by simp only; omega) (by simp only; omega) at']
    have hv : Cal.ValidDate (m.year + n) m.month m.day := ⟨a3, a4, a5, hle⟩
    simp only [hv, and_true]
    by_cases hr : m.year + n < c.minYear ∨ c.maxYear < m.year + n
    · rw [if_pos hr, if_neg (by omega)]
    · rw [if_neg hr, if_pos (by omega)]

example : calculate (std .debug) (.moment (at_ 2016 2 29 1 2 3) + .years (-3)) =
    .ok (.moment (at_ 2013 3 1 1 2 3)) := by decide +kernel

/-! ## C27 -/

/-- **C27 refuted**: 2^32 years later is reported as the same moment, because the year is truncated
to 32 bits. -/
theorem C27_refuted (p : Profile) :
    calculate (std p) (.moment (at_ 2017 6 15 12 0 0) + .years 4294967296) =
      .ok (.moment (at_ 2017 6 15 12 0 0)) ∧
    calculate (std p) (.moment (at_ 2017 6 15 12 0 0) - .years 4294967296) =
      .ok (.moment (at_ 2017 6 15 12 0 0)) := by cases p <;> decide +kernel

end Props
