import Verif.Props.Iterators
import Verif.Props.EndOf

/-!
# C69: what follows the end of a period
-/

namespace Props
open Kairos Spec

/-- One step of a day or a second that lands on an existing date. -/
theorem one_step {c : Cfg} (hc : Sane c) {v r : Moment} (hv : v.Valid c) (hr : r.Valid c) (hz : r.nano = 0) (u : TUnit)
    (hu : u = .second ∨ u = .day) (hi : r.instant = v.instant + u.secs) :
    calculate c (.moment v + amt u 1) = .ok (.moment r) :=
  C16_up_to_30_days_partial c hc v r hv hr hz u (by rcases hu with rfl | rfl <;> simp) 1 (by decide)
    (by rcases hu with rfl | rfl <;> decide) (by rw [hi]; omega)

theorem valid_at {c : Cfg} {y mo d h mi s : Int} (h1 : c.minYear ≤ y) (h2 : y ≤ c.maxYear) (h3 : Cal.ValidDate y mo d)
    (h4 : Cal.ValidTime h mi s) : (at_ y mo d h mi s).Valid c := ⟨h1, h2, h3, h4, by simp [at_], by simp [at_]⟩

/-- **C69 (year).** The day after the end of the year is 1 January of the next year, and the second after the end of the last day of the year
is its first second. -/
theorem C69_after_year (c : Cfg) (x : TT) (m : Moment) (h : EvalsTo c x m) (hy : m.year < c.maxYear) :
    (∃ v, calculate c (.endOfYear x) = .ok v ∧ calculate c (v + .days 1) = .ok (.moment (at_ (m.year + 1) 1 1 0 0 0))) ∧
    (∃ v, calculate c (.endOfDay (.endOfYear x)) = .ok v ∧
      calculate c (v + .seconds 1) = .ok (.moment (at_ (m.year + 1) 1 1 0 0 0))) := by
  have hm := h.valid
  have v1 : (at_ m.year 12 31 0 0 0).Valid c := valid_at hm.1 hm.2.1 (by simp [Cal.ValidDate, Cal.monthLen]) (by decide)
  have v2 : (at_ m.year 12 31 23 59 59).Valid c := valid_at hm.1 hm.2.1 (by simp [Cal.ValidDate, Cal.monthLen]) (by decide)
  have v3 : (at_ (m.year + 1) 1 1 0 0 0).Valid c :=
    valid_at (by have := hm.1; omega) (by omega) (by simp [Cal.ValidDate, Cal.monthLen]) (by decide)
  have hd : Cal.dayNumber (m.year + 1) 1 1 = Cal.dayNumber m.year 12 31 + 1 := by
    have := Cal.dayNumber_nextDay (y := m.year) (m := 12) (d := 31) (by simp [Cal.ValidDate, Cal.monthLen])
    simpa [Cal.nextDay, Cal.monthLen] using this
  refine ⟨⟨_, C10_end_of_year c x m h, one_step h.sane v1 v3 rfl .day (by simp) ?_⟩,
    ⟨_, (C12_end_of_day_hour_minute c _ _ ⟨h.sane, C10_end_of_year c x m h, v1⟩).1,
      one_step h.sane v2 v3 rfl .second (by simp) ?_⟩⟩
  · simp only [Moment.instant, at_, Cal.instant, TUnit.secs, hd]; omega
  · simp only [Moment.instant, at_, Cal.instant, TUnit.secs, hd]; omega

example := C69_after_year (std .debug) (.moment (at_ 2017 6 15 7 8 9) + .months 8) (at_ 2018 2 15 7 8 9) ⟨by decide, by decide +kernel, by decide⟩ (by decide)

/-- **C69 (month).** The day after the end of the month is the first of the next month, and the second after the end of the last day of the
month is its first second. -/
theorem C69_after_month (c : Cfg) (x : TT) (m : Moment) (h : EvalsTo c x m) (Y M : Int) (hM : 1 ≤ M ∧ M ≤ 12)
    (hY : Y ≤ c.maxYear) (hnext : Cal.monthIndex Y M = Cal.monthIndex m.year m.month + 1) :
    (∃ v, calculate c (.endOfMonth x) = .ok v ∧ calculate c (v + .days 1) = .ok (.moment (at_ Y M 1 0 0 0))) ∧
    (∃ v, calculate c (.endOfDay (.endOfMonth x)) = .ok v ∧
      calculate c (v + .seconds 1) = .ok (.moment (at_ Y M 1 0 0 0))) := by
  have hm := h.valid
  obtain ⟨last, he, hl, hmax⟩ := C11_end_of_month c x m h
  have hlast : last = Cal.monthLen m.year m.month :=
    Int.le_antisymm hl.2.2.2 (hmax _ ⟨hl.1, hl.2.1, by have := hl.2.2; omega, Int.le_refl _⟩)
  have v1 : (at_ m.year m.month last 0 0 0).Valid c := valid_at hm.1 hm.2.1 hl (by decide)
  have v2 : (at_ m.year m.month last 23 59 59).Valid c := valid_at hm.1 hm.2.1 hl (by decide)
  have hb := Cal.monthLen_bounds (y := Y) hM.1 hM.2
  unfold Cal.monthIndex at hnext
  have v3 : (at_ Y M 1 0 0 0).Valid c :=
    valid_at (by have := hm.1; have := hl.1; have := hl.2.1; omega) hY ⟨hM.1, hM.2, by decide, by omega⟩ (by decide)
  have hd : Cal.dayNumber Y M 1 = Cal.dayNumber m.year m.month last + 1 := by
    have := Cal.dayNumber_nextDay hl
    have h12 := hl.1
    have h12' := hl.2.1
    rw [← this]
    by_cases hlt : m.month < 12
    · have e1 : Y = m.year := by omega
      have e2 : M = m.month + 1 := by omega
      simp [Cal.nextDay, hlast, hlt, e1, e2]
    · have e1 : Y = m.year + 1 := by omega
      have e2 : M = 1 := by omega
      simp [Cal.nextDay, hlast, hlt, e1, e2]
  refine ⟨⟨_, he, one_step h.sane v1 v3 rfl .day (by simp) ?_⟩,
    ⟨_, (C12_end_of_day_hour_minute c _ _ ⟨h.sane, he, v1⟩).1, one_step h.sane v2 v3 rfl .second (by simp) ?_⟩⟩
  · simp only [Moment.instant, at_, Cal.instant, TUnit.secs, hd]; omega
  · simp only [Moment.instant, at_, Cal.instant, TUnit.secs, hd]; omega

example := C69_after_month (std .debug) (.moment (at_ 2017 6 15 7 8 9) + .months 6) (at_ 2017 12 15 7 8 9) ⟨by decide, by decide +kernel, by decide⟩
  2018 1 (by decide) (by decide) (by decide)

/-- **C69 (day, hour, minute).** The second after the end of the day, hour or minute is the start of the next day, hour or minute: `r` on a full
day, hour or minute, that much after the start of the one in which the moment lies. -/
theorem C69_after_day_hour_minute (c : Cfg) (x : TT) (m r : Moment) (h : EvalsTo c x m) (hr : r.Valid c) (hz : r.nano = 0) :
    (r.hour = 0 ∧ r.minute = 0 ∧ r.second = 0 →
      r.instant = (at_ m.year m.month m.day 0 0 0).instant + 86400 →
      ∃ v, calculate c (.endOfDay x) = .ok v ∧ calculate c (v + .seconds 1) = .ok (.moment r)) ∧
    (r.minute = 0 ∧ r.second = 0 → r.instant = (at_ m.year m.month m.day m.hour 0 0).instant + 3600 →
      ∃ v, calculate c (.endOfHour x) = .ok v ∧ calculate c (v + .seconds 1) = .ok (.moment r)) ∧
    (r.second = 0 → r.instant = (at_ m.year m.month m.day m.hour m.minute 0).instant + 60 →
      ∃ v, calculate c (.endOfMinute x) = .ok v ∧ calculate c (v + .seconds 1) = .ok (.moment r)) := by
  have hm := h.valid
  have ht := hm.2.2.2.1
  unfold Cal.ValidTime at ht
  obtain ⟨h1, h2, h3⟩ := C12_end_of_day_hour_minute c x m h
  have v1 : (at_ m.year m.month m.day 23 59 59).Valid c := valid_at hm.1 hm.2.1 hm.2.2.1 (by decide)
  have v2 : (at_ m.year m.month m.day m.hour 59 59).Valid c :=
    valid_at hm.1 hm.2.1 hm.2.2.1 (by unfold Cal.ValidTime; omega)
  have v3 : (at_ m.year m.month m.day m.hour m.minute 59).Valid c :=
    valid_at hm.1 hm.2.1 hm.2.2.1 (by unfold Cal.ValidTime; omega)
  refine ⟨fun _ hi => ⟨_, h1, one_step h.sane v1 hr hz .second (by simp) ?_⟩,
    fun _ hi => ⟨_, h2, one_step h.sane v2 hr hz .second (by simp) ?_⟩,
    fun _ hi => ⟨_, h3, one_step h.sane v3 hr hz .second (by simp) ?_⟩⟩ <;>
  · rw [hi]; simp only [Moment.instant, at_, Cal.instant, TUnit.secs]; omega

/-- The last day of a leap-year February. -/
example : EvalsTo (std .debug) (.moment (at_ 2016 1 31 7 8 9) + .days 29) (at_ 2016 2 29 7 8 9) ∧
    Cal.monthIndex 2016 3 = Cal.monthIndex 2016 2 + 1 ∧
    (at_ 2016 3 1 0 0 0).instant = (at_ 2016 2 29 0 0 0).instant + 86400 ∧
    (at_ 2016 2 29 8 0 0).instant = (at_ 2016 2 29 7 0 0).instant + 3600 ∧
    (at_ 2016 2 29 7 9 0).instant = (at_ 2016 2 29 7 8 0).instant + 60 :=
  ⟨⟨sane_std _, by decide +kernel, by decide⟩, by decide +kernel⟩

end Props
