import Verif.Props.NegEvery
import Verif.Props.AllAmounts
import Verif.Props.Backwards
import Verif.Props.Evaluation

/-!
# C119: from every moment every other can be reached
-/

namespace Props
open Kairos Spec

/-- **C119, one component.** If adding `n` to the component of `m` that belongs to the unit gives a date-time of chrono's range, without
touching the other components, then that is the result of adding `n` units, for every unit and for `n` of either sign. -/
theorem C119_component (c : Cfg) (hc : Sane c) (m r : Moment) (hm : m.Valid c) (u : TUnit) (n : Int)
    (hr : r = withPart m u (part m u + n)) (hv : r.Valid c) : calculate c (.moment m + amt u n) = .ok (.moment r) := by
  have hc' := hc
  unfold Sane at hc'
  have hv' := hv
  have hm' := hm
  obtain ⟨a1, a2, ⟨a3, a4, a5, a6⟩, ⟨t1, t2, t3, t4, t5, t6⟩, -⟩ := hm'
  obtain ⟨b1, b2, ⟨b3, b4, b5, b6⟩, ⟨s1, s2, s3, s4, s5, s6⟩, -⟩ := hv'
  have ml := Cal.monthLen_bounds (y := m.year) a3 a4
  have small : ∀ u, (u = .second ∨ u = .minute ∨ u = .hour ∨ u = .day) → r.nano = 0 → r.instant = m.instant + n * TUnit.secs u →
      n * TUnit.secs u ≤ 30 * 86400 → -371085171523200 ≤ n * TUnit.secs u → NegRight m r u → calculate c (.moment m + amt u n) = .ok (.moment r) := by
    intro u hu hz hi h1 h2 hneg
    by_cases hn : 0 ≤ n
    · exact C16_up_to_30_days_partial c hc m r hm hv hz u hu n hn h1 hi
    · exact (C60_adding_negative_iff_partial c hc m r hm hv hz u hu n (by omega) h2 hi).2 hneg
  cases u with
  | second =>
    subst hr
    simp only [withPart, part] at *
    refine small .second (by simp) (by simp) ?_ ?_ ?_ ⟨⟨rfl, rfl⟩, .inl ⟨rfl, rfl, rfl⟩⟩ <;> simp only [TUnit.secs, Moment.instant, Cal.instant] <;> omega
  | minute =>
    subst hr
    simp only [withPart, part] at *
    refine small .minute (by simp) (by simp) ?_ ?_ ?_ ⟨⟨rfl, rfl⟩, .inl ⟨rfl, rfl⟩⟩ <;> simp only [TUnit.secs, Moment.instant, Cal.instant] <;> omega
  | hour =>
    subst hr
    simp only [withPart, part] at *
    refine small .hour (by simp) (by simp) ?_ ?_ ?_ ⟨⟨rfl, rfl⟩, .inl rfl⟩ <;> simp only [TUnit.secs, Moment.instant, Cal.instant] <;> omega
  | day =>
    subst hr
    simp only [withPart, part] at *
    refine small .day (by simp) (by simp) ?_ ?_ ?_ ⟨⟨rfl, rfl⟩, trivial⟩ <;> simp only [TUnit.secs, Moment.instant, Cal.instant, Cal.dayNumber] <;> omega
  | month =>
    subst hr
    simp only [withPart, part] at *
    by_cases hn : 0 ≤ n
    · have e := C17_within_the_year_partial c hc m hm n _ hn rfl b4
      rw [if_pos b6] at e
      exact e
    · have e := (C95_negative_months_partial c hc m hm n _ (by omega) (by omega) rfl).1 b3
      rw [if_pos b6] at e
      exact e
  | year =>
    subst hr
    simp only [withPart, part] at *
    have e := C18_adding_years_partial c m hm n (by omega) (by omega)
    rw [if_neg (by omega)] at e
    rw [if_neg] at e
    · exact e
    · rintro ⟨h1, h2, h3⟩
      rw [h1, h2] at b6
      have : Cal.monthLen (m.year + n) 2 = if Cal.isLeap (m.year + n) then 29 else 28 := rfl
      rw [this, h3] at b6
      simp at b6

example : (at_ 2016 2 29 12 0 0).Valid (std .debug) ∧ (withPart (at_ 2016 2 29 12 0 0) .year 2004).Valid (std .debug) ∧
    calculate (std .debug) (.moment (at_ 2016 2 29 12 0 0) + amt .year (-12)) = .ok (.moment (at_ 2004 2 29 12 0 0)) := by decide +kernel

/-- **C119.** From every moment every date-time of chrono's range, past or future, is reached by a single expression: the moment and seven amounts
added to it, one after the other. -/
theorem C119_reachable (c : Cfg) (hc : Sane c) (m r : Moment) (hm : m.Valid c) (hr : r.Valid c) (hz : r.nano = 0) :
    calculate c (.moment m + .days (1 - m.day) + .months (r.month - m.month) + .years (r.year - m.year) + .days (r.day - 1) +
      .hours (r.hour - m.hour) + .minutes (r.minute - m.minute) + .seconds (r.second - m.second)) = .ok (.moment r) := by
  have hm' := hm
  obtain ⟨a1, a2, ⟨a3, a4, a5, a6⟩, ⟨t1, t2, t3, t4, t5, t6⟩, -⟩ := hm'
  have hr' := hr
  obtain ⟨b1, b2, ⟨b3, b4, b5, b6⟩, ⟨s1, s2, s3, s4, s5, s6⟩, -⟩ := hr'
  have ml := Cal.monthLen_bounds (y := m.year) a3 a4
  have mk : ∀ {y mo d h mi s : Int}, c.minYear ≤ y → y ≤ c.maxYear → 1 ≤ mo → mo ≤ 12 → 1 ≤ d → (d = 1 ∨ d ≤ Cal.monthLen y mo) →
      0 ≤ h → h < 24 → 0 ≤ mi → mi < 60 → 0 ≤ s → s < 60 → (⟨y, mo, d, h, mi, s, 0⟩ : Moment).Valid c := by
    intro y mo d h mi s h1 h2 h3 h4 h5 h6 h7 h8 h9 h10 h11 h12
    have := Cal.monthLen_bounds (y := y) h3 h4
    exact ⟨h1, h2, ⟨h3, h4, h5, show d ≤ Cal.monthLen y mo by omega⟩, ⟨h7, h8, h9, h10, h11, h12⟩, Int.le_refl 0, by show (0 : Int) < _; decide⟩
  -- one step of the chain
  have step : ∀ {x a : TT} {v w : Moment} (u : TUnit) (n : Int), calculate c (x + a) = .ok (.moment v) → v.Valid c →
      w = withPart v u (part v u + n) → w.Valid c → calculate c ((x + a) + amt u n) = .ok (.moment w) := by
    intro x a v w u n hx hv hw hwv
    rw [(C07_chain_partial c x a u n).1, hx]
    exact C119_component c hc v w hv u n hw hwv
  have v0 : (⟨m.year, m.month, 1, m.hour, m.minute, m.second, 0⟩ : Moment).Valid c := mk a1 a2 a3 a4 (by omega) (.inl rfl) t1 t2 t3 t4 t5 t6
  have e0 : calculate c (.moment m + .days (1 - m.day)) = .ok (.moment ⟨m.year, m.month, 1, m.hour, m.minute, m.second, 0⟩) :=
    C119_component c hc m _ hm .day (1 - m.day) (by simp [withPart, part]; try omega) v0
  have v1 : (⟨m.year, r.month, 1, m.hour, m.minute, m.second, 0⟩ : Moment).Valid c := mk a1 a2 b3 b4 (by omega) (.inl rfl) t1 t2 t3 t4 t5 t6
  have e1 := step .month (r.month - m.month) e0 v0 (by simp [withPart, part]; try omega) v1
  have v2 : (⟨r.year, r.month, 1, m.hour, m.minute, m.second, 0⟩ : Moment).Valid c := mk b1 b2 b3 b4 (by omega) (.inl rfl) t1 t2 t3 t4 t5 t6
  have e2 := step .year (r.year - m.year) e1 v1 (by simp [withPart, part]; try omega) v2
  have v3 : (⟨r.year, r.month, r.day, m.hour, m.minute, m.second, 0⟩ : Moment).Valid c := mk b1 b2 b3 b4 b5 (.inr b6) t1 t2 t3 t4 t5 t6
  have e3 := step .day (r.day - 1) e2 v2 (by simp [withPart, part]; try omega) v3
  have v4 : (⟨r.year, r.month, r.day, r.hour, m.minute, m.second, 0⟩ : Moment).Valid c := mk b1 b2 b3 b4 b5 (.inr b6) s1 s2 t3 t4 t5 t6
  have e4 := step .hour (r.hour - m.hour) e3 v3 (by simp [withPart, part]; try omega) v4
  have v5 : (⟨r.year, r.month, r.day, r.hour, r.minute, m.second, 0⟩ : Moment).Valid c := mk b1 b2 b3 b4 b5 (.inr b6) s1 s2 s3 s4 t5 t6
  have e5 := step .minute (r.minute - m.minute) e4 v4 (by simp [withPart, part]; try omega) v5
  refine step .second (r.second - m.second) e5 v5 ?_ hr
  rcases r with ⟨y, mo, d, h, mi, s, na⟩
  simp only at hz
  subst hz
  simp [withPart, part]
  omega

/-- From 29 February 2016 back to 31 December 1899. -/
example : (at_ 2016 2 29 8 30 15).Valid (std .debug) ∧ (at_ 1899 12 31 23 59 59).Valid (std .debug) ∧
    calculate (std .debug) (.moment (at_ 2016 2 29 8 30 15) + .days (-28) + .months 10 + .years (-117) + .days 30 + .hours 15 + .minutes 29 +
      .seconds 44) = .ok (.moment (at_ 1899 12 31 23 59 59)) := by decide +kernel

/-- **C119, a single amount does not do.** No non-negative number of seconds, minutes, hours or days, as long as it does not overflow, leads from any
moment to a 31st of a later year; and no number of months either. -/
theorem C119_no_single_amount (c : Cfg) (hc : Sane c) (m r : Moment) (hm : m.Valid c) (hy : m.year < r.year) (hd : r.day = 31) (u : TUnit) (hu : u ≠ .year)
    (n : Int) (hn : 0 ≤ n) (hb : part m u + n < 9223372036854775807) : calculate c (.moment m + amt u n) ≠ .ok (.moment r) := by
  intro h
  have hc' := hc
  unfold Sane at hc'
  have hm' := hm
  obtain ⟨a1, a2, ⟨a3, a4, a5, a6⟩, ⟨t1, t2, t3, t4, t5, t6⟩, -⟩ := hm'
  have ml := Cal.monthLen_bounds (y := m.year) a3 a4
  have wrap : ∀ Y : Int, ∃ Z k : Int, (-2147483648 ≤ Z ∧ Z ≤ 2147483647) ∧ Y = Z + k * 4294967296 :=
    fun Y => ⟨(Y + 2147483648) % 4294967296 - 2147483648, (Y + 2147483648) / 4294967296, by omega, by omega⟩
  by_cases hum : u = .month
  · subst hum
    simp only [part, amt] at hb h
    by_cases h12 : m.month + n ≤ 12
    · have e := C17_within_the_year_partial c hc m hm n _ hn rfl h12
      rw [h] at e
      split at e <;> · cases e; simp only at hy; omega
    · obtain ⟨Y, M, hM, hi⟩ : ∃ Y M : Int, (1 ≤ M ∧ M ≤ 12) ∧ Cal.monthIndex Y M = Cal.monthIndex m.year m.month + n := by
        unfold Cal.monthIndex
        exact ⟨(12 * m.year + (m.month - 1) + n) / 12, (12 * m.year + (m.month - 1) + n) % 12 + 1, by omega, by omega⟩
      have hi' := hi
      unfold Cal.monthIndex at hi'
      by_cases h30 : m.day ≤ 30
      · obtain ⟨Z, k, hZ, hk⟩ := wrap Y
        have e := C17_beyond_the_year_partial c hc m hm h30 n Y M Z k (by omega) hM hi (by omega) hZ hk
        rw [h] at e
        split at e
        · cases e; simp only at hd; omega
        · cases e
      · obtain ⟨Y, M, hM, hi⟩ : ∃ Y M : Int, (1 ≤ M ∧ M ≤ 12) ∧ Cal.monthIndex Y M = Cal.monthIndex m.year m.month + n + 1 := by
          unfold Cal.monthIndex
          exact ⟨(12 * m.year + (m.month - 1) + n + 1) / 12, (12 * m.year + (m.month - 1) + n + 1) % 12 + 1, by omega, by omega⟩
        obtain ⟨Z, k, hZ, hk⟩ := wrap Y
        have e := C17_from_the_31st_partial c hc m hm (by omega) n Y M Z k (by omega) hM hi (by omega) hZ hk
        rw [h] at e
        split at e
        · cases e; simp only at hd; omega
        · cases e
  · have hu' : u = .second ∨ u = .minute ∨ u = .hour ∨ u = .day := by cases u <;> simp_all
    have hs : 0 ≤ n * u.secs := Int.mul_nonneg hn (by cases u <;> decide)
    by_cases hin : m.instant + n * u.secs < Cal.instant (m.year + 1) 1 1 0 0 0
    · have hmono : Cal.instant (m.year + 1) 1 1 0 0 0 ≤ Cal.instant (c.maxYear + 1) 1 1 0 0 0 := by
        rcases Int.lt_or_eq_of_le a2 with hlt | heq
        · exact Int.le_of_lt (instant_lt_of_year (by simp [Cal.ValidDate, Cal.monthLen]) (by decide) (by omega))
        · rw [heq]; exact Int.le_refl _
      obtain ⟨m', v, z, i⟩ := moment_exists hm (m.instant + n * u.secs) (by omega) (by omega)
      have y1 := year_le_of_instant v.2.2.1 v.2.2.2.1 (show Cal.instant m'.year m'.month m'.day m'.hour m'.minute m'.second < _ by
        have : m'.instant < Cal.instant (m.year + 1) 1 1 0 0 0 := by omega
        exact this)
      have y2 : m.year ≤ m'.year := by
        by_cases hlt : m'.year + 1 ≤ m.year
        · have q := instant_lt_of_year (Y := m.year - 1) v.2.2.1 v.2.2.2.1 (by omega)
          have := year_le_of_instant (Y := m.year - 1) hm.2.2.1 hm.2.2.2.1 (show m.instant < _ by
            have q' : m'.instant < Cal.instant (m.year - 1 + 1) 1 1 0 0 0 := q
            omega)
          omega
        · omega
      have e := C16_within_the_year_partial c hc m m' hm v z u hu' n hn i (by omega)
      rw [h] at e
      cases e
      omega
    · obtain ⟨D, hD⟩ : ∃ D, D = m.instant + n * u.secs - Cal.instant (m.year + 1) 1 1 0 0 0 := ⟨_, rfl⟩
      obtain ⟨Z, k, hZ, hk⟩ := wrap (m.year + 1 + D / 86400 / 360)
      have e := C16_beyond_the_year_partial c hc m hm u hu' n hn (by omega) (D / 86400) (D % 86400 / 3600) (D % 3600 / 60) (D % 60) Z k
        (by omega) (by unfold Cal.ValidTime; omega) (by omega) hZ hk
      rw [h] at e
      split at e
      · cases e; simp only at hd; omega
      · cases e

example : (at_ 2015 12 31 0 0 0).Valid (std .debug) ∧ part (at_ 2015 12 31 0 0 0) .day + 31 < 9223372036854775807 ∧
    calculate (std .debug) (.moment (at_ 2015 12 31 0 0 0) + amt .day 30) = .ok (.moment (at_ 2016 1 30 0 0 0)) ∧
    calculate (std .debug) (.moment (at_ 2015 12 31 0 0 0) + amt .day 31) = .ok (.moment (at_ 2016 2 1 0 0 0)) := by decide +kernel

end Props
