import Verif.Props.Periods
import Verif.Props.AllAmounts
import Verif.Props.Subtracting
import Verif.Props.Values

/-!
# C117: the end of a period some periods away
-/

namespace Props
open Kairos Spec

private theorem len_of_last {y mo last : Int} (h : Cal.ValidDate y mo last) (hmax : ∀ d, Cal.ValidDate y mo d → d ≤ last) :
    last = Cal.monthLen y mo :=
  Int.le_antisymm h.2.2.2 (hmax _ ⟨h.1, h.2.1, by have := h.2.2; omega, Int.le_refl _⟩)

private theorem end_of_month_at {c : Cfg} {x : TT} {r : Moment} (h : EvalsTo c x r) :
    calculate c (.endOfMonth x) = .ok (.moment (at_ r.year r.month (Cal.monthLen r.year r.month) 0 0 0)) := by
  obtain ⟨last, e, h1, h2⟩ := C11_end_of_month c x r h
  rw [len_of_last h1 h2] at e
  exact e

private theorem err_end {c : Cfg} {x : TT} {e : ErrorKind} (h : calculate c x = .err e) :
    calculate c (.endOfMonth x) = .err e ∧ calculate c (.endOfYear x) = .err e := by
  rw [calc_month, calc_year, h]
  exact ⟨rfl, rfl⟩

/-- **C117 (years, adding).** The end of the year `n` years later (or earlier, if `n` is negative) is 31 December of that year, from every day, also
from a 29 February; if the year is outside chrono's range it is an OutOfBounds error. For years that fit in 32 bits. -/
theorem C117_years_partial (c : Cfg) (hc : Sane c) (m : Moment) (hm : m.Valid c) (n Y : Int) (hY : Y = m.year + n)
    (h1 : -2147483648 ≤ Y) (h2 : Y ≤ 2147483647) :
    (c.minYear ≤ Y ∧ Y ≤ c.maxYear → calculate c (.endOfYear (.moment m + .years n)) = .ok (.moment (at_ Y 12 31 0 0 0))) ∧
    (¬ (c.minYear ≤ Y ∧ Y ≤ c.maxYear) →
      ∃ M D H MI S, calculate c (.endOfYear (.moment m + .years n)) = .err (.outOfBounds Y M D H MI S)) := by
  have e := C18_adding_years_partial c m hm n (by omega) (by omega)
  rw [← hY] at e
  refine ⟨fun hr => ?_, fun hr => ?_⟩
  · rw [if_neg (by omega)] at e
    have hm' := hm
    obtain ⟨a1, a2, ⟨a3, a4, a5, a6⟩, t, a7⟩ := hm'
    split at e
    · have hv : ({ m with year := Y, month := 3, day := 1, nano := 0 } : Moment).Valid c := by
        refine (C15_computed c (.moment m + .years n) _ (fun _ => by intro h; cases h) e).1
      exact C10_end_of_year c _ _ ⟨hc, e, hv⟩
    · have hv : ({ m with year := Y, nano := 0 } : Moment).Valid c := by
        refine (C15_computed c (.moment m + .years n) _ (fun _ => by intro h; cases h) e).1
      exact C10_end_of_year c _ _ ⟨hc, e, hv⟩
  · rw [if_pos (by omega)] at e
    exact ⟨_, _, _, _, _, (err_end e).2⟩

/-- From 29 February 2016, which has no counterpart in 2017. -/
example : (at_ 2016 2 29 12 0 0).Valid (std .debug) ∧
    calculate (std .debug) (.endOfYear (.moment (at_ 2016 2 29 12 0 0) + .years 1)) = .ok (.moment (at_ 2017 12 31 0 0 0)) := by
  decide +kernel

/-- **C117 (months, adding), exactly when.** `(Y, M)` is the month `n` months after that of `m`. The end of that month is what
`end_of_month(m + months(n))` gives, exactly if the day of `m` exists in that month and `m` is not on a 31st with the turn of a year in between. -/
theorem C117_months_iff_partial (c : Cfg) (hc : Sane c) (m : Moment) (hm : m.Valid c) (n Y M : Int) (hn : 0 ≤ n) (hM : 1 ≤ M ∧ M ≤ 12)
    (hi : Cal.monthIndex Y M = Cal.monthIndex m.year m.month + n) (hY : Y ≤ c.maxYear) :
    calculate c (.endOfMonth (.moment m + .months n)) = .ok (.moment (at_ Y M (Cal.monthLen Y M) 0 0 0)) ↔
      m.day ≤ Cal.monthLen Y M ∧ (m.day ≤ 30 ∨ Y = m.year) := by
  have hc' := hc
  unfold Sane at hc'
  have hm' := hm
  obtain ⟨a1, a2, ⟨a3, a4, a5, a6⟩, t, a7⟩ := hm'
  have ml := Cal.monthLen_bounds (y := m.year) a3 a4
  have mlY := Cal.monthLen_bounds (y := Y) hM.1 hM.2
  have hi' := hi
  unfold Cal.monthIndex at hi'
  -- a result in another month is not the right one
  have ne : ∀ r : Moment, EvalsTo c (.moment m + .months n) r → (r.year ≠ Y ∨ r.month ≠ M) →
      calculate c (.endOfMonth (.moment m + .months n)) ≠ .ok (.moment (at_ Y M (Cal.monthLen Y M) 0 0 0)) := by
    intro r hr hne h
    rw [end_of_month_at hr] at h
    have := ok_moment_inj h
    simp only [at_, Moment.mk.injEq] at this
    omega
  have eq : ∀ r : Moment, EvalsTo c (.moment m + .months n) r → r.year = Y → r.month = M →
      calculate c (.endOfMonth (.moment m + .months n)) = .ok (.moment (at_ Y M (Cal.monthLen Y M) 0 0 0)) := by
    rintro r hr rfl rfl
    exact end_of_month_at hr
  have val : ∀ r : Moment, calculate c (.moment m + .months n) = .ok (.moment r) → EvalsTo c (.moment m + .months n) r :=
    fun r h => ⟨hc, h, (C15_computed c (.moment m + .months n) _ (fun _ => by intro h; cases h) h).1⟩
  by_cases hy : Y = m.year
  · subst hy
    have e := C17_within_the_year_partial c hc m hm n M hn (by omega) (by omega)
    split at e
    · rename_i hd
      exact ⟨fun _ => ⟨hd, .inr rfl⟩, fun _ => eq _ (val _ e) rfl rfl⟩
    · rename_i hd
      refine ⟨fun h => absurd h (ne _ (val _ e) (.inr ?_)), fun h => absurd h.1 hd⟩
      simp only
      omega
  · by_cases hd : m.day ≤ 30
    · have e := C17_beyond_the_year_partial c hc m hm hd n Y M Y 0 (by omega) hM hi (by omega) (by omega) (by omega)
      split at e
      · rename_i hv
        exact ⟨fun _ => ⟨hv.2.2.2.2.2, .inl hd⟩, fun _ => eq _ (val _ e) rfl rfl⟩
      · rename_i hv
        rw [(err_end e).1]
        refine ⟨fun h => (by cases h), fun h => absurd ⟨by omega, hY, hM.1, hM.2, a5, h.1⟩ hv⟩
    · have hd31 : m.day = 31 := by omega
      -- the month after
      obtain ⟨Y', M', hM', hi2⟩ : ∃ Y' M' : Int, (1 ≤ M' ∧ M' ≤ 12) ∧ Cal.monthIndex Y' M' = Cal.monthIndex Y M + 1 := by
        unfold Cal.monthIndex
        by_cases h : M = 12
        · exact ⟨Y + 1, 1, by omega, by omega⟩
        · exact ⟨Y, M + 1, by omega, by omega⟩
      have hi3 := hi2
      unfold Cal.monthIndex at hi3
      have e := C17_from_the_31st_partial c hc m hm hd31 n Y' M' Y' 0 (by omega) hM' (by rw [hi2, hi]) (by omega) (by omega) (by omega)
      refine ⟨fun h => ?_, fun h => by omega⟩
      split at e
      · exact absurd h (ne _ (val _ e) (by simp only; omega))
      · rw [(err_end e).1] at h
        cases h

example : calculate (std .debug) (.endOfMonth (.moment (at_ 2017 1 31 0 0 0) + .months 1)) ≠ .ok (.moment (at_ 2017 2 28 0 0 0)) :=
  mt (C117_months_iff_partial (std .debug) (sane_std _) (at_ 2017 1 31 0 0 0) (by decide) 1 2017 2 (by decide) (by decide) (by decide) (by decide)).1 (by decide)

/-- **C117 (months, adding).** Up to the 28th the end of the month `n` months later is always right. -/
theorem C117_months_partial (c : Cfg) (hc : Sane c) (m : Moment) (hm : m.Valid c) (n Y M : Int) (hn : 0 ≤ n) (hM : 1 ≤ M ∧ M ≤ 12)
    (hi : Cal.monthIndex Y M = Cal.monthIndex m.year m.month + n) (hY : Y ≤ c.maxYear) (hd : m.day ≤ 28) :
    calculate c (.endOfMonth (.moment m + .months n)) = .ok (.moment (at_ Y M (Cal.monthLen Y M) 0 0 0)) := by
  have ml := Cal.monthLen_bounds (y := Y) hM.1 hM.2
  exact (C117_months_iff_partial c hc m hm n Y M hn hM hi hY).2 ⟨by omega, .inl (by omega)⟩

example : calculate (std .debug) (.endOfMonth (.moment (at_ 2017 1 28 0 0 0) + .months 13)) = .ok (.moment (at_ 2018 2 28 0 0 0)) :=
  C117_months_partial (std .debug) (sane_std _) (at_ 2017 1 28 0 0 0) (by decide) 13 2018 2 (by decide) (by decide) (by decide) (by decide) (by decide)

/-- **C117 refuted.** The end of next month, asked for on any 31 January, is 31 March; on any 31 December, 28 or 29 February. -/
theorem C117_refuted (c : Cfg) (hc : Sane c) (m : Moment) (hm : m.Valid c) (hd : m.day = 31) :
    (m.month = 1 → calculate c (.endOfMonth (.moment m + .months 1)) = .ok (.moment (at_ m.year 3 31 0 0 0))) ∧
    (m.month = 12 → m.year < c.maxYear →
      calculate c (.endOfMonth (.moment m + .months 1)) =
        .ok (.moment (at_ (m.year + 1) 2 (Cal.monthLen (m.year + 1) 2) 0 0 0))) := by
  have hc' := hc
  unfold Sane at hc'
  have hm' := hm
  obtain ⟨a1, a2, ⟨a3, a4, a5, a6⟩, t, a7⟩ := hm'
  constructor
  · intro h1
    have e := C17_within_the_year_partial c hc m hm 1 2 (by decide) (by omega) (by decide)
    have ml : Cal.monthLen m.year 2 = 29 ∨ Cal.monthLen m.year 2 = 28 := by
      have : Cal.monthLen m.year 2 = if Cal.isLeap m.year then 29 else 28 := rfl
      rw [this]
      split <;> simp
    rw [if_neg (by omega)] at e
    have hv := (C15_computed c (.moment m + .months 1) _ (fun _ => by intro h; cases h) e).1
    exact end_of_month_at ⟨hc, e, hv⟩
  · intro h12 hy
    have e := C17_from_the_31st_partial c hc m hm hd 1 (m.year + 1) 2 (m.year + 1) 0 (by omega) (by decide)
      (by unfold Cal.monthIndex; omega) (by omega) (by omega) (by omega)
    rw [if_pos (by omega)] at e
    have hv := (C15_computed c (.moment m + .months 1) _ (fun _ => by intro h; cases h) e).1
    exact end_of_month_at ⟨hc, e, hv⟩

/-- 31 January 2017: the end of next month is 28 February, the program says 31 March; from the 28th it is right. -/
example : (at_ 2017 1 31 12 0 0).Valid (std .debug) ∧ Cal.monthIndex 2017 2 = Cal.monthIndex 2017 1 + 1 ∧
    calculate (std .debug) (.endOfMonth (.moment (at_ 2017 1 31 12 0 0) + .months 1)) = .ok (.moment (at_ 2017 3 31 0 0 0)) ∧
    calculate (std .debug) (.endOfMonth (.moment (at_ 2017 1 28 12 0 0) + .months 1)) = .ok (.moment (at_ 2017 2 28 0 0 0)) := by
  decide +kernel

/-- **C117 (months and years, subtracting).** The end of the month `n < 2^32` months earlier is right if the day of `m` exists in that month, fewer
than 12 + (month of `m`) months are subtracted and the year is in chrono's range; otherwise it is an OutOfBounds error. Likewise for years that fit in
32 bits: right if there is such a date, an error otherwise. -/
theorem C117_subtracting_partial (c : Cfg) (hc : Sane c) (m : Moment) (hm : m.Valid c) :
    (∀ n Y M : Int, 0 ≤ n → n < 4294967296 → 1 ≤ M → M ≤ 12 → Cal.monthIndex Y M = Cal.monthIndex m.year m.month - n →
      (n < m.month + 12 ∧ m.day ≤ Cal.monthLen Y M ∧ c.minYear ≤ Y →
        calculate c (.endOfMonth (.moment m - .months n)) = .ok (.moment (at_ Y M (Cal.monthLen Y M) 0 0 0))) ∧
      (¬ (n < m.month + 12 ∧ m.day ≤ Cal.monthLen Y M ∧ c.minYear ≤ Y) →
        ∃ Y M D H MI S, calculate c (.endOfMonth (.moment m - .months n)) = .err (.outOfBounds Y M D H MI S))) ∧
    (∀ n Y : Int, Y = m.year - n → -2147483648 ≤ Y → Y ≤ 2147483647 →
      (c.minYear ≤ Y ∧ Y ≤ c.maxYear ∧ m.day ≤ Cal.monthLen Y m.month →
        calculate c (.endOfYear (.moment m - .years n)) = .ok (.moment (at_ Y 12 31 0 0 0))) ∧
      (¬ (c.minYear ≤ Y ∧ Y ≤ c.maxYear ∧ m.day ≤ Cal.monthLen Y m.month) →
        ∃ M D H MI S, calculate c (.endOfYear (.moment m - .years n)) = .err (.outOfBounds Y M D H MI S))) := by
  refine ⟨fun n Y M h0 h1 hM1 hM2 hi => ?_, fun n Y hY h1 h2 => ?_⟩
  · rcases C22_subtracting_months_partial c hc m hm n h0 h1 Y M ⟨hM1, hM2⟩ hi with ⟨p1, p2, p3, e⟩ | ⟨h, Y', M', D, H, MI, S, e⟩
    · refine ⟨fun _ => ?_, fun h => absurd ⟨p1, p2, p3⟩ h⟩
      exact end_of_month_at ⟨hc, e, (C15_computed c (.moment m - .months n) _ (fun _ => by intro h; cases h) e).1⟩
    · exact ⟨fun q => by omega, fun _ => ⟨_, _, _, _, _, _, (err_end e).1⟩⟩
  · have e := C23_subtracting_years_partial c m hm n (by omega) (by omega)
    rw [← hY] at e
    have hv : Cal.ValidDate Y m.month m.day ↔ m.day ≤ Cal.monthLen Y m.month := by
      obtain ⟨-, -, ⟨a3, a4, a5, a6⟩, -⟩ := hm
      exact ⟨fun h => h.2.2.2, fun h => ⟨a3, a4, a5, h⟩⟩
    refine ⟨fun h => ?_, fun h => ?_⟩
    · rw [if_pos ⟨h.1, h.2.1, hv.2 h.2.2⟩] at e
      exact C10_end_of_year c _ _ ⟨hc, e, (C15_computed c (.moment m - .years n) _ (fun _ => by intro h; cases h) e).1⟩
    · rw [if_neg fun q => h ⟨q.1, q.2.1, hv.1 q.2.2⟩] at e
      exact ⟨_, _, _, _, _, (err_end e).2⟩

example : (at_ 2017 3 31 12 0 0).Valid (std .debug) ∧ Cal.monthIndex 2017 1 = Cal.monthIndex 2017 3 - 2 ∧
    calculate (std .debug) (.endOfMonth (.moment (at_ 2017 3 31 12 0 0) - .months 2)) = .ok (.moment (at_ 2017 1 31 0 0 0)) ∧
    calculate (std .debug) (.endOfMonth (.moment (at_ 2017 3 31 12 0 0) - .months 1)) = .err (.outOfBounds 2017 2 12 12 0 0) := by
  decide +kernel

/-- **C117 (days, hours, minutes, adding).** `m'` is the date-time exactly `n` days (hours, minutes) after `m`, up to 30 days: the end of the day
(hour, minute) `n` days (hours, minutes) later is the last second of the day (hour, minute) of `m'`. -/
theorem C117_days_partial (c : Cfg) (hc : Sane c) (m m' : Moment) (hm : m.Valid c) (hm' : m'.Valid c) (hz : m'.nano = 0) (n : Int) (hn : 0 ≤ n) :
    (n * 86400 ≤ 30 * 86400 → m'.instant = m.instant + n * 86400 →
      calculate c (.endOfDay (.moment m + .days n)) = .ok (.moment (at_ m'.year m'.month m'.day 23 59 59))) ∧
    (n * 3600 ≤ 30 * 86400 → m'.instant = m.instant + n * 3600 →
      calculate c (.endOfHour (.moment m + .hours n)) = .ok (.moment (at_ m'.year m'.month m'.day m'.hour 59 59))) ∧
    (n * 60 ≤ 30 * 86400 → m'.instant = m.instant + n * 60 →
      calculate c (.endOfMinute (.moment m + .minutes n)) = .ok (.moment (at_ m'.year m'.month m'.day m'.hour m'.minute 59))) := by
  refine ⟨fun hb hi => ?_, fun hb hi => ?_, fun hb hi => ?_⟩
  · have e := C16_up_to_30_days_partial c hc m m' hm hm' hz .day (by simp) n hn (by simpa [TUnit.secs] using hb) (by simpa [TUnit.secs] using hi)
    exact (C12_end_of_day_hour_minute c _ _ ⟨hc, e, hm'⟩).1
  · have e := C16_up_to_30_days_partial c hc m m' hm hm' hz .hour (by simp) n hn (by simpa [TUnit.secs] using hb) (by simpa [TUnit.secs] using hi)
    exact (C12_end_of_day_hour_minute c _ _ ⟨hc, e, hm'⟩).2.1
  · have e := C16_up_to_30_days_partial c hc m m' hm hm' hz .minute (by simp) n hn (by simpa [TUnit.secs] using hb) (by simpa [TUnit.secs] using hi)
    exact (C12_end_of_day_hour_minute c _ _ ⟨hc, e, hm'⟩).2.2

/-- The end of the day a week on, over the turn of the year. -/
example : (at_ 2017 12 28 12 0 0).Valid (std .debug) ∧ (at_ 2018 1 4 12 0 0).Valid (std .debug) ∧
    (at_ 2018 1 4 12 0 0).instant = (at_ 2017 12 28 12 0 0).instant + 7 * 86400 ∧
    calculate (std .debug) (.endOfDay (.moment (at_ 2017 12 28 12 0 0) + .days 7)) = .ok (.moment (at_ 2018 1 4 23 59 59)) := by
  decide +kernel

/-- **C117 (days, hours, minutes, subtracting).** `m'` is the date-time exactly `n` days (hours, minutes) before `m`. Where subtraction is right
(`SubRight`, see C21), the end of the day (hour, minute) `n` days (hours, minutes) earlier is the last second of the day (hour, minute) of `m'`. -/
theorem C117_subtracting_days_partial (c : Cfg) (hc : Sane c) (m m' : Moment) (hm : m.Valid c) (hm' : m'.Valid c) (hz : m'.nano = 0)
    (n : Int) (hn : 0 ≤ n) :
    (m'.instant = m.instant - n * 86400 → SubRight m m' n .day →
      calculate c (.endOfDay (.moment m - .days n)) = .ok (.moment (at_ m'.year m'.month m'.day 23 59 59))) ∧
    (m'.instant = m.instant - n * 3600 → SubRight m m' n .hour →
      calculate c (.endOfHour (.moment m - .hours n)) = .ok (.moment (at_ m'.year m'.month m'.day m'.hour 59 59))) ∧
    (m'.instant = m.instant - n * 60 → SubRight m m' n .minute →
      calculate c (.endOfMinute (.moment m - .minutes n)) = .ok (.moment (at_ m'.year m'.month m'.day m'.hour m'.minute 59))) := by
  refine ⟨fun hi hs => ?_, fun hi hs => ?_, fun hi hs => ?_⟩
  · have e := (C21_exact_iff_partial c hc m m' hm hm' hz .day (by simp) n hn (by simpa [TUnit.secs] using hi)).2 hs
    exact (C12_end_of_day_hour_minute c _ _ ⟨hc, e, hm'⟩).1
  · have e := (C21_exact_iff_partial c hc m m' hm hm' hz .hour (by simp) n hn (by simpa [TUnit.secs] using hi)).2 hs
    exact (C12_end_of_day_hour_minute c _ _ ⟨hc, e, hm'⟩).2.1
  · have e := (C21_exact_iff_partial c hc m m' hm hm' hz .minute (by simp) n hn (by simpa [TUnit.secs] using hi)).2 hs
    exact (C12_end_of_day_hour_minute c _ _ ⟨hc, e, hm'⟩).2.2

example : SubRight (at_ 2017 2 1 0 30 0) (at_ 2017 1 31 23 45 0) 45 .minute ∧
    (at_ 2017 2 1 0 30 0).Valid (std .debug) ∧ (at_ 2017 1 31 23 45 0).Valid (std .debug) ∧
    (at_ 2017 1 31 23 45 0).instant = (at_ 2017 2 1 0 30 0).instant - 45 * 60 ∧
    calculate (std .debug) (.endOfMinute (.moment (at_ 2017 2 1 0 30 0) - .minutes 45)) = .ok (.moment (at_ 2017 1 31 23 45 59)) := by
  refine ⟨⟨by decide, by decide⟩, ?_⟩; decide +kernel

end Props
