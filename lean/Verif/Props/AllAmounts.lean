import Verif.Props.Laws
import Verif.Lemmas.AllYears

/-!
# C16, C17, C22 for every amount the integer type can hold (but for a margin at its end)
-/

namespace Props
open Kairos Spec

variable {c : Cfg}

/-- `buildMoment` with a year of any size: only its value modulo 2^32 matters. -/
private theorem build_mod {y Z k mo d h mi s : Int} (hZ : -2147483648 ≤ Z ∧ Z ≤ 2147483647) (e : y = Z + k * 4294967296)
    (hmo : 0 ≤ mo ∧ mo ≤ 4294967295) (hd : 0 ≤ d ∧ d ≤ 4294967295) (ht : Cal.ValidTime h mi s) :
    Eval.buildMoment c ⟨y, mo, d, h, mi, s⟩ =
      if c.minYear ≤ Z ∧ Z ≤ c.maxYear ∧ Cal.ValidDate Z mo d
      then .ok (.moment ⟨Z, mo, d, h, mi, s, 0⟩) else .err (.outOfBounds Z mo h h mi s) := by
  rw [build_congr c (Y := Z) (by rw [asI32_of hZ.1 hZ.2 e, asI32_id hZ.1 hZ.2])]
  exact build_cases c (p := ⟨Z, mo, d, h, mi, s⟩) hZ.1 hZ.2 hmo hd ht

/-! ## C16 -/

/-- **C16, every amount that stays in the year**: exact.
(Partial. Missing: amounts that leave the year, see `C16_refuted`.) -/
theorem C16_within_the_year_partial (c : Cfg) (hc : Sane c) (m m' : Moment) (hm : m.Valid c) (hm' : m'.Valid c) (hz : m'.nano = 0)
    (u : TUnit) (hu : u = .second ∨ u = .minute ∨ u = .hour ∨ u = .day) (n : Int) (hn : 0 ≤ n)
    (hi : m'.instant = m.instant + n * u.secs) (hy : m'.year = m.year) :
    calculate c (.moment m + amt u n) = .ok (.moment m') :=
  (add_exact_iff c hc hm hm' hz u (by rcases hu with rfl | rfl | rfl | rfl <;> decide) n hn hi).mpr (.inl hy)

example : calculate (std .debug) (.moment (at_ 2017 2 15 0 0 0) + amt .day 300) = .ok (.moment (at_ 2017 12 12 0 0 0)) :=
  C16_within_the_year_partial (std .debug) (sane_std _) _ _ (by decide) (by decide) rfl .day (by decide) 300 (by decide) (by decide) (by decide)

/-- **C16, every amount that leads beyond the year of the moment.** Let the exact result be `J` days, `H` hours, `MI`
minutes and `S` seconds after the next 1 January 00:00. The code counts these `J` days in months of 30 days and years of
twelve such months, and only keeps the year modulo 2^32 (`Z`). If that gives a date of chrono's range, that is the result;
otherwise it is an error.
(Partial: what happens instead of the exact date, see `C16_refuted`.) -/
theorem C16_beyond_the_year_partial (c : Cfg) (hc : Sane c) (m : Moment) (hm : m.Valid c)
    (u : TUnit) (hu : u = .second ∨ u = .minute ∨ u = .hour ∨ u = .day) (n : Int) (hn : 0 ≤ n) (hb : part m u + n ≤ 9223372036854775807)
    (J H MI S Z k : Int) (hJ : 0 ≤ J) (ht : Cal.ValidTime H MI S)
    (hi : m.instant + n * u.secs = Cal.instant (m.year + 1) 1 1 0 0 0 + J * 86400 + H * 3600 + MI * 60 + S)
    (hZ : -2147483648 ≤ Z ∧ Z ≤ 2147483647) (hk : m.year + 1 + J / 360 = Z + k * 4294967296) :
    calculate c (.moment m + amt u n) =
      if c.minYear ≤ Z ∧ Z ≤ c.maxYear ∧ Cal.ValidDate Z (J / 30 % 12 + 1) (J % 30 + 1)
      then .ok (.moment ⟨Z, J / 30 % 12 + 1, J % 30 + 1, H, MI, S, 0⟩)
      else .err (.outOfBounds Z (J / 30 % 12 + 1) H H MI S) := by
  obtain ⟨y', mo', d', e, cd⟩ := add_closed_full c hc hm u (by rcases hu with rfl | rfl | rfl | rfl <;> decide) n hn hb
  have ht' := ht
  unfold Cal.ValidTime at ht'
  have hs := Cal.daysBeforeYear_succ m.year
  have hnew : Cal.instant (m.year + 1) 1 1 0 0 0 = (Cal.daysBeforeYear (m.year + 1) + 1) * 86400 := by
    unfold Cal.instant Cal.dayNumber Cal.daysBeforeMonth; simp
  rw [hnew] at hi
  have q : (m.instant + n * u.secs) / 86400 = Cal.daysBeforeYear (m.year + 1) + 1 + J := by omega
  obtain ⟨f1, f2, f3⟩ := cd.2 (by omega)
  have hN : (m.instant + n * u.secs) / 86400 - Cal.daysBeforeYear m.year - Cal.yearLen m.year - 1 = J := by omega
  rw [hN] at f1 f2 f3
  have w1 : todH (m.instant + n * u.secs) = H := by unfold todH; omega
  have w2 : todM (m.instant + n * u.secs) = MI := by unfold todM; omega
  have w3 : todS (m.instant + n * u.secs) = S := by unfold todS; omega
  rw [e, w1, w2, w3, f1, f2, f3, build_mod hZ hk (by omega) (by omega) ht]

/-- 400 days after 1 July 2017: 216 days after New Year, that is 7 months and 6 days of the code's calendar; and 2^32 of
its years and a day after New Year's Eve. -/
example : calculate (std .debug) (.moment (at_ 2017 7 1 12 0 0) + amt .day 400) = .ok (.moment (at_ 2018 8 7 12 0 0)) ∧
    (at_ 2017 7 1 12 0 0).instant + 400 * TUnit.secs .day = Cal.instant 2018 1 1 0 0 0 + 216 * 86400 + 12 * 3600 + 0 * 60 + 0 ∧
    (at_ 2017 12 31 12 0 0).instant + (360 * 4294967296 + 1) * TUnit.secs .day =
      Cal.instant 2018 1 1 0 0 0 + 360 * 4294967296 * 86400 + 12 * 3600 + 0 * 60 + 0 ∧
    2017 + 1 + 360 * 4294967296 / 360 = 2018 + 1 * 4294967296 := by decide +kernel

/-- **C16 refuted far away**: whatever the moment on a 31 December, `360 * 2^32 + 1` days later is the next day. -/
theorem C16_refuted_far (c : Cfg) (hc : Sane c) (m : Moment) (hm : m.Valid c) (hd : m.month = 12 ∧ m.day = 31)
    (hy : m.year < c.maxYear) :
    calculate c (.moment m + .days (360 * 4294967296 + 1)) =
      .ok (.moment { m with year := m.year + 1, month := 1, day := 1, nano := 0 }) := by
  have hc' := hc
  unfold Sane at hc'
  have y1 := hm.1
  have ht := hm.2.2.2.1
  have hs := Cal.daysBeforeYear_succ m.year
  have e := C16_beyond_the_year_partial c hc m hm .day (by simp) (360 * 4294967296 + 1) (by omega) (by simp only [part]; omega)
    (360 * 4294967296) m.hour m.minute m.second (m.year + 1) 1 (by omega) ht
    (by
      unfold Moment.instant Cal.instant Cal.dayNumber
      rw [hd.1, hd.2]
      have : Cal.daysBeforeMonth m.year 12 + 31 = Cal.yearLen m.year := by
        unfold Cal.daysBeforeMonth Cal.yearLen; simp; split <;> omega
      have h1 : Cal.daysBeforeMonth (m.year + 1) 1 = 0 := by simp [Cal.daysBeforeMonth]
      simp only [TUnit.secs]; omega)
    (by omega) (by omega)
  have hv : Cal.ValidDate (m.year + 1) (360 * 4294967296 / 30 % 12 + 1) (360 * 4294967296 % 30 + 1) := by
    refine ⟨by decide, by decide, by decide, ?_⟩
    show (1 : Int) ≤ Cal.monthLen (m.year + 1) 1
    simp [Cal.monthLen]
  rw [if_pos ⟨by omega, by omega, hv⟩] at e
  exact e

example := C16_refuted_far (std .debug) (sane_std _) (at_ 2017 12 31 8 0 0) (by decide) (by decide) (by decide)

/-! ## C17 -/

/-- **C17, every amount that stays in the year.** `M` is the month `n` months later. If it is too short for the day of
`m`, the surplus days lead into the following month.
(Partial. Missing: amounts that leave the year, see `C17_refuted`.) -/
theorem C17_within_the_year_partial (c : Cfg) (hc : Sane c) (m : Moment) (hm : m.Valid c) (n M : Int) (hn : 0 ≤ n)
    (hM : M = m.month + n) (hy : M ≤ 12) :
    calculate c (.moment m + .months n) =
      if m.day ≤ Cal.monthLen m.year M then .ok (.moment { m with month := M, nano := 0 })
      else .ok (.moment { m with month := M + 1, day := m.day - Cal.monthLen m.year M, nano := 0 }) := by
  have hc' := hc
  unfold Sane at hc'
  have hm' := hm
  obtain ⟨a1, a2, ⟨a3, a4, a5, a6⟩, t, a7⟩ := hm'
  have ml := Cal.monthLen_bounds (y := m.year) a3 a4
  have ml' := Cal.monthLen_bounds (y := m.year) (m := M) (by omega) hy
  rw [addMonths_closed c hc hm n (by omega) (by omega), ← hM]
  unfold monthDate
  rw [if_pos hy]
  by_cases h : m.day ≤ Cal.monthLen m.year M
  · rw [if_pos h, if_pos h]
    rw [build_mod (Z := m.year) (k := 0) (by omega) (by simp) (by simp only; omega) (by simp only; omega) t,
      if_pos ⟨by omega, by omega, by simp only; omega, hy, a5, h⟩]
  · rw [if_neg h, if_neg h]
    have h12 : M ≠ 12 := by rintro rfl; simp [Cal.monthLen] at h; omega
    have ml2 := Cal.monthLen_bounds (y := m.year) (m := M + 1) (by omega) (by omega)
    rw [build_mod (Z := m.year) (k := 0) (by omega) (by simp) (by simp only; omega) (by simp only; omega) t,
      if_pos ⟨by omega, by omega, by simp only; omega, by simp only; omega, by simp only; omega, by simp only; omega⟩]

example : calculate (std .debug) (.moment (at_ 2017 1 31 0 0 0) + .months 1) = .ok (.moment (at_ 2017 3 3 0 0 0)) :=
  C17_within_the_year_partial (std .debug) (sane_std _) (at_ 2017 1 31 0 0 0) (by decide) 1 2 (by decide) (by decide) (by decide)

/-- **C17, every amount that leads beyond the year, up to the 30th.** `(Y, M)` is the month `n` months later, `Z` is `Y`
modulo 2^32. The result is the same day and time in that month of year `Z`, or an error if there is no such date.
(Partial: the year is only right modulo 2^32, see `C17_refuted_far`.) -/
theorem C17_beyond_the_year_partial (c : Cfg) (hc : Sane c) (m : Moment) (hm : m.Valid c) (hd : m.day ≤ 30) (n Y M Z k : Int)
    (hb : m.month + n ≤ 9223372036854775807) (hM : 1 ≤ M ∧ M ≤ 12)
    (hi : Cal.monthIndex Y M = Cal.monthIndex m.year m.month + n) (hY : m.year < Y)
    (hZ : -2147483648 ≤ Z ∧ Z ≤ 2147483647) (hk : Y = Z + k * 4294967296) :
    calculate c (.moment m + .months n) =
      if c.minYear ≤ Z ∧ Z ≤ c.maxYear ∧ Cal.ValidDate Z M m.day
      then .ok (.moment { m with year := Z, month := M, nano := 0 })
      else .err (.outOfBounds Z M m.hour m.hour m.minute m.second) := by
  have hm' := hm
  obtain ⟨a1, a2, ⟨a3, a4, a5, a6⟩, t, a7⟩ := hm'
  unfold Cal.monthIndex at hi
  rw [addMonths_closed_full c hc hm n (by omega) (by omega) (by omega)]
  unfold monthDate
  rw [if_neg (by omega), if_pos hd]
  simp only
  rw [show m.year + (m.month + n - 1) / 12 = Y by omega, show (m.month + n - 1) % 12 + 1 = M by omega]
  rw [build_mod hZ hk (by omega) (by omega) t]

example := C17_beyond_the_year_partial (std .debug) (sane_std _) (at_ 2017 10 30 0 0 0) (by decide) (by decide) 51539607556 4294969314 2 2018 1
  (by decide) (by decide) (by decide) (by decide) (by decide) (by decide)

/-- **C17, every amount that leads from a 31st beyond the year**: always to the first of the month after (`n + 1`
months later, `(Y, M)`), even if the month `n` months later has 31 days.
(Partial: what happens instead of the same day, see `C17_refuted`.) -/
theorem C17_from_the_31st_partial (c : Cfg) (hc : Sane c) (m : Moment) (hm : m.Valid c) (hd : m.day = 31) (n Y M Z k : Int)
    (hb : m.month + n < 9223372036854775807) (hM : 1 ≤ M ∧ M ≤ 12)
    (hi : Cal.monthIndex Y M = Cal.monthIndex m.year m.month + n + 1) (hY : 12 < m.month + n)
    (hZ : -2147483648 ≤ Z ∧ Z ≤ 2147483647) (hk : Y = Z + k * 4294967296) :
    calculate c (.moment m + .months n) =
      if c.minYear ≤ Z ∧ Z ≤ c.maxYear then .ok (.moment { m with year := Z, month := M, day := 1, nano := 0 })
      else .err (.outOfBounds Z M m.hour m.hour m.minute m.second) := by
  have hm' := hm
  obtain ⟨a1, a2, ⟨a3, a4, a5, a6⟩, t, a7⟩ := hm'
  unfold Cal.monthIndex at hi
  rw [addMonths_closed_full c hc hm n (by omega) (by omega) (by omega)]
  unfold monthDate
  rw [if_neg (by omega), if_neg (by omega), hd]
  simp only
  rw [show m.year + (m.month + n) / 12 = Y by omega, show (m.month + n) % 12 + 1 = M by omega, show (31 : Int) - 30 = 1 by rfl]
  rw [build_mod hZ hk (by omega) (by omega) t]
  have ml := Cal.monthLen_bounds (y := Z) hM.1 hM.2
  by_cases h : c.minYear ≤ Z ∧ Z ≤ c.maxYear
  · rw [if_pos h, if_pos ⟨h.1, h.2, hM.1, hM.2, by omega, by omega⟩]
  · rw [if_neg h, if_neg (fun q => h ⟨q.1, q.2.1⟩)]

example : calculate (std .debug) (.moment (at_ 2017 1 31 0 0 0) + .months 1) = .ok (.moment (at_ 2017 3 3 0 0 0)) ∧
    calculate (std .debug) (.moment (at_ 2017 1 31 0 0 0) + .months 12) = .ok (.moment (at_ 2018 2 1 0 0 0)) ∧
    calculate (std .debug) (.moment (at_ 2017 1 30 0 0 0) + .months 13) = .err (.outOfBounds 2018 2 0 0 0 0) ∧
    calculate (std .debug) (.moment (at_ 2017 1 30 0 0 0) + .months 14) = .ok (.moment (at_ 2018 3 30 0 0 0)) := by
  decide +kernel

/-- **C17 refuted far away**: `12 * 2^32` months later is the same day, up to the 28th. -/
theorem C17_refuted_far (c : Cfg) (hc : Sane c) (m : Moment) (hm : m.Valid c) (hd : m.day ≤ 28) :
    calculate c (.moment m + .months (12 * 4294967296)) = .ok (.moment { m with nano := 0 }) := by
  have hc' := hc
  unfold Sane at hc'
  have hm' := hm
  obtain ⟨a1, a2, hv, t, a7⟩ := hm'
  rw [C17_beyond_the_year_partial c hc m hm (by omega) _ (m.year + 4294967296) m.month m.year 1 (by have := hv.2.1; omega) ⟨hv.1, hv.2.1⟩
    (by unfold Cal.monthIndex; omega) (by omega) (by omega) (by omega), if_pos ⟨a1, a2, hv⟩]

example := C17_refuted_far (std .debug) (sane_std _) (at_ 2017 6 15 12 0 0) (by decide) (by decide)

/-! ## C22 -/

/-- **C22, every amount.** Within the year the result is the same day of the earlier month, or an error
if that is too short. Beyond it, with `r = n - month` months to go back from December of the previous year, it is an error unless
`r` is 0 … 11 modulo 2^32; in this case the month is right modulo 2^32 months, but the year goes back by one year in every *thirteen*
months.
(Partial: what happens instead of the right month, see `C22_refuted`.) -/
theorem C22_every_amount_partial (c : Cfg) (hc : Sane c) (m : Moment) (hm : m.Valid c) (n r Z k : Int) (hr : r = n - m.month)
    (hn : 0 ≤ n) (hb : n ≤ 9223372036854775807)
    (hZ : -2147483648 ≤ Z ∧ Z ≤ 2147483647) (hk : m.year - 1 - r / 13 = Z + k * 4294967296) :
    calculate c (.moment m - .months n) =
      if r < 0 then
        if m.day ≤ Cal.monthLen m.year (m.month - n) then .ok (.moment { m with month := m.month - n, nano := 0 })
        else .err (.outOfBounds m.year (m.month - n) m.hour m.hour m.minute m.second)
      else if r % 4294967296 ≤ 11 then
        if c.minYear ≤ Z ∧ Z ≤ c.maxYear ∧ m.day ≤ Cal.monthLen Z (12 - r % 4294967296)
        then .ok (.moment { m with year := Z, month := 12 - r % 4294967296, nano := 0 })
        else .err (.outOfBounds Z (12 - r % 4294967296) m.hour m.hour m.minute m.second)
      else .err (.outOfBounds Z ((12 - r) % 4294967296) m.hour m.hour m.minute m.second) := by
  have hc' := hc
  unfold Sane at hc'
  have e1 := sub_closed_full c hc hm .month n (by unfold InI64; omega)
    (by have := hm.2.2.1.1; have := hm.2.2.1.2.1; unfold InI64; simp only [part]; omega)
  obtain ⟨a1, a2, ⟨a3, a4, a5, a6⟩, t, a7⟩ := hm
  have ml := Cal.monthLen_bounds (y := m.year) a3 a4
  have t' := t
  unfold Cal.ValidTime at t'
  simp only [amt, subComp, subP] at e1
  rw [e1]
  simp only [bP, if_neg (show ¬ m.second < 0 by omega), if_neg (show ¬ m.minute < 0 by omega),
    if_neg (show ¬ m.hour < 0 by omega), if_neg (show ¬ m.day < 1 by omega)]
  by_cases h : r < 0
  · rw [if_pos h, if_neg (show ¬ m.month - n < 1 by omega)]
    simp only
    rw [build_mod (Z := m.year) (k := 0) (by omega) (by simp) (by omega) (by omega) t]
    by_cases hd : m.day ≤ Cal.monthLen m.year (m.month - n)
    · rw [if_pos hd, if_pos ⟨a1, a2, by omega, by omega, a5, hd⟩]
    · rw [if_neg hd, if_neg (fun q => hd q.2.2.2.2.2)]
  · rw [if_neg h, if_pos (show m.month - n < 1 by omega)]
    simp only
    have u (x : Int) (hx : 12 + (m.month - n) = x + (-(r / 4294967296)) * 4294967296)
        : Eval.buildMoment c ⟨m.year - (-(m.month - n) / 13 + 1), 12 + (m.month - n), m.day, m.hour, m.minute, m.second⟩ =
          Eval.buildMoment c ⟨m.year - (-(m.month - n) / 13 + 1), x, m.day, m.hour, m.minute, m.second⟩ := by
      unfold Eval.buildMoment
      have : asU32 (12 + (m.month - n)) = asU32 x := by unfold asU32; omega
      simp only [this]
    rw [show -(m.month - n) = r by omega] at *
    rw [show m.year - (r / 13 + 1) = m.year - 1 - r / 13 by omega] at *
    by_cases h11 : r % 4294967296 ≤ 11
    · rw [if_pos h11, u (12 - r % 4294967296) (by omega), build_mod hZ hk (by omega) (by omega) t]
      by_cases hd : c.minYear ≤ Z ∧ Z ≤ c.maxYear ∧ m.day ≤ Cal.monthLen Z (12 - r % 4294967296)
      · rw [if_pos hd, if_pos ⟨hd.1, hd.2.1, by omega, by omega, a5, hd.2.2⟩]
      · rw [if_neg hd, if_neg (fun q => hd ⟨q.1, q.2.1, q.2.2.2.2.2⟩)]
    · rw [if_neg h11]
      have u' : Eval.buildMoment c ⟨m.year - 1 - r / 13, 12 + (m.month - n), m.day, m.hour, m.minute, m.second⟩ =
          Eval.buildMoment c ⟨m.year - 1 - r / 13, (12 - r) % 4294967296, m.day, m.hour, m.minute, m.second⟩ := by
        unfold Eval.buildMoment
        have : asU32 (12 + (m.month - n)) = asU32 ((12 - r) % 4294967296) := by unfold asU32; omega
        simp only [this]
      rw [u', build_mod hZ hk (by omega) (by omega) t, if_neg (fun q => by have := q.2.2.1; have := q.2.2.2.1; omega)]

/-- Fourteen months back from March; fifteen months are an error; `2^32 * 13` months back from December are `2^32` years. -/
example : calculate (std .debug) (.moment (at_ 2017 3 15 12 0 0) - .months 14) = .ok (.moment (at_ 2016 1 15 12 0 0)) ∧
    calculate (std .debug) (.moment (at_ 2017 3 15 12 0 0) - .months 15) = .err (.outOfBounds 2016 0 12 12 0 0) ∧
    calculate (std .debug) (.moment (at_ 2017 3 15 12 0 0) - .months 16) = .err (.outOfBounds 2015 4294967295 12 12 0 0) ∧
    calculate (std .debug) (.moment (at_ 2017 3 15 12 0 0) - .months (13 * 4294967296 + 3)) = .ok (.moment (at_ 2016 12 15 12 0 0)) := by
  decide +kernel

end Props
