import Verif.Spec.AddRight
import Verif.Props.NextPeriod
import Verif.Props.SmallerUnits

/-!
# C117: exactly when the end of the day, hour or minute some of them away is right
-/

namespace Props
open Kairos Spec

/-- The end of `x` is a moment only if `x` is. -/
private theorem arg_moment {c : Cfg} (hc : Sane c) {x : TT} {v : TT} (hx : ∀ n, x ≠ .moment n)
    (h : calculate c (.endOfDay x) = .ok v ∨ calculate c (.endOfHour x) = .ok v ∨ calculate c (.endOfMinute x) = .ok v) :
    ∃ r : Moment, calculate c x = .ok (.moment r) ∧ r.nano = 0 ∧ EvalsTo c x r := by
  have h0 := h
  rw [calc_day, calc_hour, calc_minute] at h
  have : ∃ w, calculate c x = .ok w := by
    cases hx' : calculate c x with
    | ok w => exact ⟨w, rfl⟩
    | err e => rw [hx'] at h; rcases h with h | h | h <;> cases h
    | panic => rw [hx'] at h; rcases h with h | h | h <;> cases h
    | oof => rw [hx'] at h; rcases h with h | h | h <;> cases h
  obtain ⟨w, hw⟩ := this
  rcases C02_result_evaluated c x w hw with ⟨u, n, rfl⟩ | ⟨r, rfl⟩
  · obtain ⟨-, -, ⟨e1, h1⟩, ⟨e2, h2⟩, ⟨e3, h3⟩⟩ := C14_not_on_amounts c x u n hw
    rw [h1, h2, h3] at h0
    rcases h0 with h | h | h <;> cases h
  · have v := C15_computed c x r hx hw
    exact ⟨r, hw, v.2, hc, hw, v.1⟩

/-- The end is right only if the moment itself is, since smaller units are left alone (C111). -/
private theorem exact_of_end {c : Cfg} (hc : Sane c) (m m' : Moment) (hm : m.Valid c) (hm' : m'.Valid c) (hz : m'.nano = 0) (u : TUnit) (n d : Int)
    (hi : m'.instant = m.instant + d * u.secs) (x : TT) (hx : x = .moment m + amt u n ∨ x = .moment m - amt u n) :
    (u = .day → calculate c (.endOfDay x) = .ok (.moment (at_ m'.year m'.month m'.day 23 59 59)) → calculate c x = .ok (.moment m')) ∧
    (u = .hour → calculate c (.endOfHour x) = .ok (.moment (at_ m'.year m'.month m'.day m'.hour 59 59)) → calculate c x = .ok (.moment m')) ∧
    (u = .minute → calculate c (.endOfMinute x) = .ok (.moment (at_ m'.year m'.month m'.day m'.hour m'.minute 59)) →
      calculate c x = .ok (.moment m')) := by
  have hx' : ∀ n, x ≠ .moment n := by intro n h; rcases hx with rfl | rfl <;> cases h
  have hs : ∀ r, calculate c x = .ok (.moment r) → _ := fun r h =>
    C111_smaller_units c m r hm u n (by rcases hx with rfl | rfl; exact .inl h; exact .inr h)
  have i1 : m.instant = Cal.dayNumber m.year m.month m.day * 86400 + (m.hour * 3600 + m.minute * 60 + m.second) := by
    unfold Moment.instant Cal.instant; omega
  have i2 : m'.instant = Cal.dayNumber m'.year m'.month m'.day * 86400 + (m'.hour * 3600 + m'.minute * 60 + m'.second) := by
    unfold Moment.instant Cal.instant; omega
  have t1 := hm.2.2.2.1
  have t2 := hm'.2.2.2.1
  unfold Cal.ValidTime at t1 t2
  refine ⟨?_, ?_, ?_⟩
  · rintro rfl h
    obtain ⟨r, e, z, ev⟩ := arg_moment hc hx' (.inl h)
    rw [(C12_end_of_day_hour_minute c x r ev).1] at h
    have := ok_moment_inj h
    simp only [at_, Moment.mk.injEq] at this
    obtain ⟨s1, s2, s3⟩ := hs r e
    have s1 := s1 (by simp); have s2 := s2 (by simp) (by simp); have s3 := s3 (by simp)
    simp only [TUnit.secs] at hi
    have : r = m' := by
      cases r; cases m'; simp only [Moment.mk.injEq] at *; omega
    rw [← this]; exact e
  · rintro rfl h
    obtain ⟨r, e, z, ev⟩ := arg_moment hc hx' (.inr (.inl h))
    rw [(C12_end_of_day_hour_minute c x r ev).2.1] at h
    have := ok_moment_inj h
    simp only [at_, Moment.mk.injEq] at this
    obtain ⟨s1, s2, -⟩ := hs r e
    have s1 := s1 (by simp); have s2 := s2 (by simp) (by simp)
    simp only [TUnit.secs] at hi
    have : r = m' := by
      cases r; cases m'; simp only [Moment.mk.injEq] at *; omega
    rw [← this]; exact e
  · rintro rfl h
    obtain ⟨r, e, z, ev⟩ := arg_moment hc hx' (.inr (.inr h))
    rw [(C12_end_of_day_hour_minute c x r ev).2.2] at h
    have := ok_moment_inj h
    simp only [at_, Moment.mk.injEq] at this
    obtain ⟨s1, -, -⟩ := hs r e
    have s1 := s1 (by simp)
    simp only [TUnit.secs] at hi
    have : r = m' := by
      cases r; cases m'; simp only [Moment.mk.injEq] at *; omega
    rw [← this]; exact e

/-- **C117 (days, hours, minutes, adding), exactly when.** `m'` is the date-time exactly `n` days (hours, minutes) after `m`, for any `n ≥ 0`. The end of the
day (hour, minute) `n` days (hours, minutes) later is the last second of the day (hour, minute) of `m'` exactly if `m'` lies in the year of `m` or on certain
days of the year after it (`AddRight`, as in C16). -/
theorem C117_days_iff_partial (c : Cfg) (hc : Sane c) (m m' : Moment) (hm : m.Valid c) (hm' : m'.Valid c) (hz : m'.nano = 0) (n : Int) (hn : 0 ≤ n) :
    (m'.instant = m.instant + n * 86400 →
      (calculate c (.endOfDay (.moment m + .days n)) = .ok (.moment (at_ m'.year m'.month m'.day 23 59 59)) ↔ AddRight m m')) ∧
    (m'.instant = m.instant + n * 3600 →
      (calculate c (.endOfHour (.moment m + .hours n)) = .ok (.moment (at_ m'.year m'.month m'.day m'.hour 59 59)) ↔ AddRight m m')) ∧
    (m'.instant = m.instant + n * 60 →
      (calculate c (.endOfMinute (.moment m + .minutes n)) = .ok (.moment (at_ m'.year m'.month m'.day m'.hour m'.minute 59)) ↔ AddRight m m')) := by
  refine ⟨fun hi => ⟨fun h => ?_, fun h => ?_⟩, fun hi => ⟨fun h => ?_, fun h => ?_⟩, fun hi => ⟨fun h => ?_, fun h => ?_⟩⟩
  · exact (C16_exact_iff_partial c hc m m' hm hm' hz .day (by simp) n hn hi).1
      ((exact_of_end hc m m' hm hm' hz .day n n hi _ (.inl rfl)).1 rfl h)
  · have e := (C16_exact_iff_partial c hc m m' hm hm' hz .day (by simp) n hn hi).2 h
    exact (C12_end_of_day_hour_minute c _ _ ⟨hc, e, hm'⟩).1
  · exact (C16_exact_iff_partial c hc m m' hm hm' hz .hour (by simp) n hn hi).1
      ((exact_of_end hc m m' hm hm' hz .hour n n hi _ (.inl rfl)).2.1 rfl h)
  · have e := (C16_exact_iff_partial c hc m m' hm hm' hz .hour (by simp) n hn hi).2 h
    exact (C12_end_of_day_hour_minute c _ _ ⟨hc, e, hm'⟩).2.1
  · exact (C16_exact_iff_partial c hc m m' hm hm' hz .minute (by simp) n hn hi).1
      ((exact_of_end hc m m' hm hm' hz .minute n n hi _ (.inl rfl)).2.2 rfl h)
  · have e := (C16_exact_iff_partial c hc m m' hm hm' hz .minute (by simp) n hn hi).2 h
    exact (C12_end_of_day_hour_minute c _ _ ⟨hc, e, hm'⟩).2.2

/-- A hundred days: right within the year, wrong by a day from 1 December 2017 to 11 March. -/
example : (at_ 2017 4 11 8 0 0).instant = (at_ 2017 1 1 8 0 0).instant + 100 * 86400 ∧ AddRight (at_ 2017 1 1 8 0 0) (at_ 2017 4 11 8 0 0) ∧
    (at_ 2018 3 11 8 0 0).instant = (at_ 2017 12 1 8 0 0).instant + 100 * 86400 ∧ ¬ AddRight (at_ 2017 12 1 8 0 0) (at_ 2018 3 11 8 0 0) ∧
    calculate (std .debug) (.endOfDay (.moment (at_ 2017 12 1 8 0 0) + .days 100)) = .ok (.moment (at_ 2018 3 10 23 59 59)) := by
  decide +kernel

/-- **C117 (days, hours, minutes, subtracting), exactly when.** `m'` is the date-time exactly `n` days (hours, minutes) before `m`. The end of the day (hour,
minute) `n` days (hours, minutes) earlier is the last second of the day (hour, minute) of `m'` exactly if subtraction is right (`SubRight`, as in C21). -/
theorem C117_subtracting_days_iff_partial (c : Cfg) (hc : Sane c) (m m' : Moment) (hm : m.Valid c) (hm' : m'.Valid c) (hz : m'.nano = 0)
    (n : Int) (hn : 0 ≤ n) :
    (m'.instant = m.instant - n * 86400 →
      (calculate c (.endOfDay (.moment m - .days n)) = .ok (.moment (at_ m'.year m'.month m'.day 23 59 59)) ↔ SubRight m m' n .day)) ∧
    (m'.instant = m.instant - n * 3600 →
      (calculate c (.endOfHour (.moment m - .hours n)) = .ok (.moment (at_ m'.year m'.month m'.day m'.hour 59 59)) ↔ SubRight m m' n .hour)) ∧
    (m'.instant = m.instant - n * 60 →
      (calculate c (.endOfMinute (.moment m - .minutes n)) = .ok (.moment (at_ m'.year m'.month m'.day m'.hour m'.minute 59)) ↔
        SubRight m m' n .minute)) := by
  refine ⟨fun hi => ⟨fun h => ?_, fun h => ?_⟩, fun hi => ⟨fun h => ?_, fun h => ?_⟩, fun hi => ⟨fun h => ?_, fun h => ?_⟩⟩
  · exact (C21_exact_iff_partial c hc m m' hm hm' hz .day (by simp) n hn hi).1
      ((exact_of_end hc m m' hm hm' hz .day n (-n) (by simp only [TUnit.secs]; omega) _ (.inr rfl)).1 rfl h)
  · exact (C117_subtracting_days_partial c hc m m' hm hm' hz n hn).1 hi h
  · exact (C21_exact_iff_partial c hc m m' hm hm' hz .hour (by simp) n hn hi).1
      ((exact_of_end hc m m' hm hm' hz .hour n (-n) (by simp only [TUnit.secs]; omega) _ (.inr rfl)).2.1 rfl h)
  · exact (C117_subtracting_days_partial c hc m m' hm hm' hz n hn).2.1 hi h
  · exact (C21_exact_iff_partial c hc m m' hm hm' hz .minute (by simp) n hn hi).1
      ((exact_of_end hc m m' hm hm' hz .minute n (-n) (by simp only [TUnit.secs]; omega) _ (.inr rfl)).2.2 rfl h)
  · exact (C117_subtracting_days_partial c hc m m' hm hm' hz n hn).2.2 hi h

/-- Five days before 1 May: the end of 26 April is asked for, 27 April is the answer. -/
example : (at_ 2017 4 26 8 0 0).instant = (at_ 2017 5 1 8 0 0).instant - 5 * 86400 ∧
    ¬ SubRight (at_ 2017 5 1 8 0 0) (at_ 2017 4 26 8 0 0) 5 .day ∧
    calculate (std .debug) (.endOfDay (.moment (at_ 2017 5 1 8 0 0) - .days 5)) = .ok (.moment (at_ 2017 4 27 23 59 59)) := by
  refine ⟨by decide +kernel, ?_, by decide +kernel⟩
  unfold SubRight; decide +kernel

end Props
