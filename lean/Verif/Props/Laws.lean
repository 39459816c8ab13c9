import Verif.Props.Subtracting
import Verif.Props.Evaluation
import Verif.Props.AllYears

/-!
# C19, C20, C24, C25, C28: laws relating additions and subtractions on moments
-/

namespace Props
open Kairos Spec

/-! ## C19 -/

/-- **C19.** Adding or subtracting zero of any unit gives the moment itself, without its sub-second part. -/
theorem C19_zero (c : Cfg) (hc : Sane c) (m : Moment) (hm : m.Valid c) (u : TUnit) :
    calculate c (.moment m + amt u 0) = .ok (.moment { m with nano := 0 }) ∧
    calculate c (.moment m - amt u 0) = .ok (.moment { m with nano := 0 }) := by
  have hc' := hc
  unfold Sane at hc'
  have hm' := hm
  obtain ⟨a1, a2, a3, a4, a5⟩ := hm'
  have hz : ({ m with nano := 0 } : Moment).Valid c := ⟨a1, a2, a3, a4, by simp, by simp⟩
  constructor
  · by_cases h1 : u = .year
    · subst h1
      have := C18_adding_years_partial c m hm 0 (by omega) (by omega)
      simp only [amt]
      rw [this, if_neg (by omega), if_neg]
      · simp
      · rintro ⟨e1, e2, e3⟩
        obtain ⟨-, -, -, h⟩ := a3
        rw [e1, e2] at h
        simp [Cal.monthLen] at h
        rw [show m.year + 0 = m.year by omega] at e3
        simp [e3] at h
    by_cases h2 : u = .month
    · subst h2
      refine (C17_exact_iff_partial c hc m _ hm hz 0 (by omega) ?_ ?_).2 (.inr rfl)
      · simp
      · rfl
    · refine (C16_exact_iff_partial c hc m _ hm hz rfl u ?_ 0 (by omega) ?_).2 (.inl rfl)
      · cases u <;> simp at h1 h2 ⊢
      · simp [Moment.instant]
  · by_cases h1 : u = .year
    · subst h1
      simp only [amt]
      rw [C23_subtracting_years_partial c m hm 0 (by omega) (by omega)]
      simp only [Int.sub_zero]
      rw [if_pos ⟨a1, a2, a3⟩]
    · rw [sub_neg c hc hm u h1 0 (by omega) (by omega) _ rfl]
      have e : subComp m u 0 = ⟨m.year, m.month, m.day, m.hour, m.minute, m.second⟩ := by
        cases u <;> simp [subComp]
      rw [e]
      simp only
      rw [if_pos ⟨a3, a4⟩]

example : (⟨2016, 2, 29, 23, 59, 59, 5⟩ : Moment).Valid (std .debug) := by decide

/-! ## C20 -/

theorem later_year {c : Cfg} {m r : Moment} (hm : m.Valid c) (hr : r.Valid c) (h : m.year < r.year) :
    m.instant < r.instant := by
  have := Cal.dayNumber_lt hm.2.2.1 hr.2.2.1 (.inl h)
  have t := hm.2.2.2.1; have t' := hr.2.2.2.1
  unfold Cal.ValidTime at t t'
  unfold Moment.instant Cal.instant; omega

theorem later_month {c : Cfg} {m r : Moment} (hm : m.Valid c) (hr : r.Valid c) (hy : m.year = r.year) (h : m.month < r.month) :
    m.instant < r.instant := by
  have := Cal.dayNumber_lt hm.2.2.1 hr.2.2.1 (.inr ⟨hy, .inl h⟩)
  have t := hm.2.2.2.1; have t' := hr.2.2.2.1
  unfold Cal.ValidTime at t t'
  unfold Moment.instant Cal.instant; omega

/-- Adding up to nearly 2^32 years: if it succeeds, the year is right. -/
theorem far_year (c : Cfg) (hc : Sane c) {m r : Moment} (hm : m.Valid c) (n : Int) (hn : 0 ≤ n) (hb : n ≤ 4292900000)
    (h : calculate c (.moment m + .years n) = .ok (.moment r)) : r.year = m.year + n := by
  have y1 := hm.1; have y2 := hm.2.1
  unfold Sane at hc
  by_cases hs : m.year + n ≤ 2147483647
  · rw [C18_every_amount_partial c m hm n (m.year + n) 0 (by omega) hs (by omega), if_neg (by omega)] at h
    split at h
    · cases h
    · split at h <;> rw [← ok_moment_inj h]
  · rw [C18_every_amount_partial c m hm n (m.year + n - 4294967296) 1 (by omega) (by omega) (by omega), if_neg (by omega), if_pos (by omega)] at h
    cases h

/-- **C20 (partial).** Adding a positive amount of any unit, up to 4.29 billion years, moves strictly
forward if it succeeds. Missing: larger amounts, see `C20_refuted`. -/
theorem C20_forward_partial (c : Cfg) (hc : Sane c) (m r : Moment) (hm : m.Valid c) (u : TUnit) (n : Int)
    (hn : 0 < n) (hmax : n * u.secs ≤ 133500000000000000)
    (h : calculate c (.moment m + amt u n) = .ok (.moment r)) : m.instant < r.instant := by
  have hc' := hc
  unfold Sane at hc'
  have hm' := hm
  obtain ⟨a1, a2, ⟨a3, a4, a5, a6⟩, t, a7⟩ := hm'
  have ml := Cal.monthLen_bounds (y := m.year) a3 a4
  have hr : r.Valid c := by
    rw [calc_add_moment, exec_addToMoment] at h
    have : ∃ p, Eval.buildMoment c p = .ok (.moment r) := by
      cases u <;> simp only [amt, Eval.addToMoment, OutE.bind_eq_ok] at h <;>
        (obtain ⟨_, -, p, -, h⟩ := h; exact ⟨p, h⟩)
    obtain ⟨p, hp⟩ := this
    obtain ⟨r', e, -, hb⟩ := buildMoment_ok hp
    cases e; exact hb.1
  by_cases h1 : u = .year
  · subst h1
    simp only [TUnit.secs, amt] at *
    have hy := far_year c hc hm n (by omega) (by omega) h
    exact later_year hm hr (by omega)
  by_cases h2 : u = .month
  · subst h2
    simp only [TUnit.secs, amt] at *
    have small := monthDate_far (y := m.year) (t := m.month + n) (d := m.day) (by omega) (by omega) (by omega) (by omega) a5 (by omega)
    rw [addMonths_closed c hc hm n (by omega) (by omega),
      build_far c hc small.1 small.2.1 (by simp only; omega) (by simp only; omega) t] at h
    split at h
    · have e := ok_moment_inj h
      have hy : r.year = (monthDate m.year (m.month + n) m.day).1 := by rw [← e]
      have hmo : r.month = (monthDate m.year (m.month + n) m.day).2.1 := by rw [← e]
      unfold monthDate at hy hmo
      by_cases h12 : m.month + n ≤ 12
      · have : m.year = r.year ∧ m.month < r.month := by
          rw [if_pos h12] at hy hmo
          split at hy <;> simp_all <;> omega
        exact later_month hm hr this.1 this.2
      · refine later_year hm hr ?_
        rw [if_neg h12] at hy
        split at hy <;> simp only at hy <;> omega
    · cases h
  · have hus : u.secs ≤ 86400 := by cases u <;> simp [TUnit.secs] at h1 h2 ⊢
    have hpos : 0 < u.secs := by cases u <;> decide
    have hnn : n ≤ n * u.secs := by
      have := Int.mul_le_mul_of_nonneg_left (a := 1) (b := u.secs) (c := n) (by omega) (by omega); omega
    obtain ⟨y', mo', d', e, hcd⟩ := add_closed c hc hm u hus n (by omega) (by omega)
    obtain ⟨p1, p2, p3, p4⟩ := tod_of_instant t
    have l1 := Cal.dayOfYear_bounds hm.2.2.1
    have yl := Cal.yearLen_bounds m.year
    have dy := Cal.dayNumber_eq m.year m.month m.day
    have small := codeDate_far hcd (by omega) (by omega) (by omega)
    rw [e, build_far c hc small.1 small.2.1 (by simp only; omega) (by simp only; omega) (tod_valid _)] at h
    split at h
    · have er := ok_moment_inj h
      have hy : r.year = y' := by rw [← er]
      obtain ⟨c1, c2⟩ := hcd
      by_cases hN : (m.instant + n * u.secs) / 86400 - Cal.daysBeforeYear m.year ≤ Cal.yearLen m.year
      · obtain ⟨rfl, v, dn⟩ := c1 hN
        have : r.instant = m.instant + n * u.secs := by
          rw [← er]
          exact instant_of (by simp only; rw [Cal.dayNumber_eq]; omega)
        omega
      · exact later_year hm hr (by have := (c2 (by omega)).1; omega)
    · cases h

example := C20_forward_partial (std .debug) (sane_std _) (at_ 2017 2 15 0 0 0) (at_ 2018 2 16 0 0 0) (by decide) .day 365 (by decide) (by decide)
  (by decide +kernel)

/-- **C20 refuted** for huge amounts: 2^32 years forward is the same moment, 2^32 - 1 years forward
the year before. -/
theorem C20_refuted (p : Profile) :
    calculate (std p) (.moment (at_ 2017 6 15 12 0 0) + .years 4294967296) =
      .ok (.moment (at_ 2017 6 15 12 0 0)) ∧
    calculate (std p) (.moment (at_ 2017 6 15 12 0 0) + .years 4294967295) =
      .ok (.moment (at_ 2016 6 15 12 0 0)) := by cases p <;> decide +kernel

example : calculate (std .debug) (.moment (at_ 2017 6 15 12 0 0) + amt .month 40) =
    .ok (.moment (at_ 2020 10 15 12 0 0)) ∧ 40 * TUnit.secs .month ≤ 133500000000000000 := by decide +kernel

/-! ## C24 -/

/-- **C24, exactly when it holds** for up to 30 days of seconds, minutes, hours or days. `m'` is the
date-time `n` units after `m`: `(m + n) - n` is `m` again iff subtracting from `m'` goes right. -/
theorem C24_round_trip_iff_partial (c : Cfg) (hc : Sane c) (m m' : Moment) (hm : m.Valid c) (hm' : m'.Valid c)
    (hz : m.nano = 0) (hz' : m'.nano = 0) (u : TUnit) (hu : u = .second ∨ u = .minute ∨ u = .hour ∨ u = .day)
    (n : Int) (hn : 0 ≤ n) (hmax : n * u.secs ≤ 30 * 86400) (hi : m'.instant = m.instant + n * u.secs) :
    calculate c (.moment m + amt u n - amt u n) = .ok (.moment m) ↔ SubRight m' m n u := by
  have hpos : 1 ≤ u.secs := by cases u <;> decide
  have hnn : n ≤ n * u.secs := by
    have := Int.mul_le_mul_of_nonneg_left hpos hn; omega
  rw [(C07_chain_partial c (.moment m) (amt u n) u n).2.1,
    C16_up_to_30_days_partial c hc m m' hm hm' hz' u hu n hn hmax hi, OutE.ok_bind]
  exact C21_exact_iff_partial c hc m' m hm' hm hz u hu n hn (by omega)

example : calculate (std .debug) (.moment (at_ 2017 3 31 0 0 0) + amt .day 5 - amt .day 5) = .ok (.moment (at_ 2017 3 31 0 0 0)) :=
  (C24_round_trip_iff_partial (std .debug) (sane_std _) _ (at_ 2017 4 5 0 0 0) (by decide) (by decide) rfl rfl .day (by decide) 5 (by decide) (by decide)
    (by decide)).2 (.inr ⟨by decide, by decide⟩)

/-- **C24 (partial), within a month.** Up to 59 seconds, 59 minutes, 23 hours or any days that stay in
the month come back exactly. -/
theorem C24_round_trip_partial (c : Cfg) (hc : Sane c) (m m' : Moment) (hm : m.Valid c) (hm' : m'.Valid c)
    (hz : m.nano = 0) (hz' : m'.nano = 0) (u : TUnit) (n : Int) (hn : 0 ≤ n)
    (hu : (u = .second ∧ n < 60) ∨ (u = .minute ∧ n < 60) ∨ (u = .hour ∧ n < 24) ∨ u = .day)
    (hsame : m'.year = m.year ∧ m'.month = m.month) (hi : m'.instant = m.instant + n * u.secs) :
    calculate c (.moment m + amt u n - amt u n) = .ok (.moment m) := by
  obtain ⟨-, -, ⟨a3, a4, a5, a6⟩, t, -⟩ := id hm
  obtain ⟨-, -, ⟨b3, b4, b5, b6⟩, t', -⟩ := id hm'
  have ml := Cal.monthLen_bounds (y := m.year) a3 a4
  have tt := t; have tt' := t'
  unfold Cal.ValidTime at tt tt'
  have hi' := hi
  unfold Moment.instant Cal.instant Cal.dayNumber at hi'
  rw [hsame.1, hsame.2] at hi' b6
  refine (C24_round_trip_iff_partial c hc m m' hm hm' hz hz' u ?_ n hn ?_ hi).2 ?_
  · rcases hu with ⟨rfl, -⟩ | ⟨rfl, -⟩ | ⟨rfl, -⟩ | rfl <;> simp
  · rcases hu with ⟨rfl, h⟩ | ⟨rfl, h⟩ | ⟨rfl, h⟩ | rfl <;> simp only [TUnit.secs] at * <;> omega
  · rcases hu with ⟨rfl, h⟩ | ⟨rfl, h⟩ | ⟨rfl, h⟩ | rfl
    · exact ⟨by omega, .inl hsame.2.symm⟩
    · exact ⟨by omega, .inl hsame.2.symm⟩
    · exact .inl ⟨by omega, .inl hsame.2.symm⟩
    · exact .inl ⟨hsame.1.symm, hsame.2.symm⟩

example : calculate (std .debug) (.moment (at_ 2017 2 10 0 0 0) + amt .day 18 - amt .day 18) = .ok (.moment (at_ 2017 2 10 0 0 0)) :=
  C24_round_trip_partial (std .debug) (sane_std _) _ (at_ 2017 2 28 0 0 0) (by decide) (by decide) rfl rfl .day 18 (by decide) (by decide) (by decide) (by decide)

/-- **C24 (partial), months and years.** Up to 12 months from a day up to 28, and any number of years
except from 29 February, come back exactly (if the years are in range). -/
theorem C24_months_years_partial (c : Cfg) (hc : Sane c) (m : Moment) (hm : m.Valid c) (hz : m.nano = 0) :
    (∀ n Y M : Int, 0 ≤ n → n ≤ 12 → m.day ≤ 28 → 1 ≤ M ∧ M ≤ 12 → Y ≤ c.maxYear →
      Cal.monthIndex Y M = Cal.monthIndex m.year m.month + n →
      calculate c (.moment m + .months n - .months n) = .ok (.moment m)) ∧
    (∀ n : Int, c.minYear ≤ m.year + n → m.year + n ≤ c.maxYear → ¬ (m.month = 2 ∧ m.day = 29) →
      calculate c (.moment m + .years n - .years n) = .ok (.moment m)) := by
  have hc' := hc
  unfold Sane at hc'
  have hm' := hm
  obtain ⟨a1, a2, ⟨a3, a4, a5, a6⟩, t, a7⟩ := hm'
  have hself : ∀ y mo : Int, y = m.year → mo = m.month →
      ({ m with year := y, month := mo, nano := 0 } : Moment) = m := by
    rintro _ _ rfl rfl; cases m; simp only at hz; subst hz; rfl
  constructor
  · intro n Y M hn hn2 hd hM hY hi
    have ch := (C07_chain_partial c (.moment m) (.months n) .month n).2.1
    simp only [amt] at ch
    have mlY := Cal.monthLen_bounds (y := Y) hM.1 hM.2
    have hi' := hi
    unfold Cal.monthIndex at hi'
    rw [ch, C17_up_to_28th_partial c hc m hm hd n hn (by omega) Y M hM hi, if_pos hY, OutE.ok_bind]
    have hv : ({ m with year := Y, month := M, nano := 0 } : Moment).Valid c :=
      ⟨by simp only; omega, hY, ⟨hM.1, hM.2, a5, by simp only; omega⟩, t, by simp, by simp⟩
    rcases C22_subtracting_months_partial c hc _ hv n hn (by omega) m.year m.month ⟨a3, a4⟩ (by simp only; omega) with
      ⟨-, -, -, h⟩ | ⟨h, -⟩
    · rw [h]
      simp only
      rw [hself _ _ rfl rfl]
    · simp only at h; omega
  · intro n h1 h2 h3
    have ch := (C07_chain_partial c (.moment m) (.years n) .year n).2.1
    simp only [amt] at ch
    have hle : m.day ≤ Cal.monthLen (m.year + n) m.month := by
      rcases Cal.month_cases a3 a4 with h | h | h | h | h | h | h | h | h | h | h | h <;> rw [h] at a6 h3 ⊢ <;>
        simp [Cal.monthLen] at a6 h3 ⊢ <;> (try split at a6) <;> (try split) <;> omega
    have hv : ({ m with year := m.year + n, nano := 0 } : Moment).Valid c :=
      ⟨h1, h2, ⟨a3, a4, a5, hle⟩, t, by simp, by simp⟩
    rw [ch, C18_adding_years_partial c m hm n (by omega) (by omega), if_neg (by omega), if_neg (fun h => h3 ⟨h.1, h.2.1⟩),
      OutE.ok_bind, C23_subtracting_years_partial c _ hv n (by simp only; omega) (by simp only; omega)]
    simp only
    rw [show m.year + n - n = m.year by omega, if_pos ⟨a1, a2, a3, a4, a5, a6⟩]
    rw [hself _ _ rfl rfl]

example : calculate (std .debug) (.moment (at_ 2017 10 28 0 0 0) + .months 4 - .months 4) = .ok (.moment (at_ 2017 10 28 0 0 0)) :=
  (C24_months_years_partial (std .debug) (sane_std _) _ (by decide) rfl).1 4 2018 2 (by decide) (by decide) (by decide) (by decide) (by decide) (by decide)

/-- **C24 refuted**: 70 minutes, and 29 February plus a year. -/
theorem C24_refuted :
    calculate (std .debug) (.moment (at_ 2017 1 1 11 0 0) + .minutes 70 - .minutes 70) =
      .ok (.moment (at_ 2017 1 1 10 0 0)) ∧
    calculate (std .debug) (.moment (at_ 2016 2 29 0 0 0) + .years 1 - .years 1) =
      .ok (.moment (at_ 2016 3 1 0 0 0)) := by decide +kernel

example : calculate (std .debug) (.moment (at_ 2017 1 1 23 50 0) + .minutes 59 - .minutes 59) =
    .ok (.moment (at_ 2017 1 1 23 50 0)) := by decide +kernel

/-! ## C25 -/

/-- **C25 (partial).** For amounts of seconds, minutes, hours and days with a total of up to 30 days,
`(m + a) + b` and `m + (a + b)` are the same moment, the exact one. -/
theorem C25_grouping_partial (c : Cfg) (hc : Sane c) (m m₁ m₂ : Moment) (hm : m.Valid c) (hm₁ : m₁.Valid c)
    (hm₂ : m₂.Valid c) (hz₁ : m₁.nano = 0) (hz₂ : m₂.nano = 0) (u v : TUnit)
    (hu : u = .second ∨ u = .minute ∨ u = .hour ∨ u = .day) (hv : v = .second ∨ v = .minute ∨ v = .hour ∨ v = .day)
    (n k : Int) (hn : 0 ≤ n) (hk : 0 ≤ k) (hmax : n * u.secs + k * v.secs ≤ 30 * 86400)
    (h₁ : m₁.instant = m.instant + n * u.secs) (h₂ : m₂.instant = m.instant + (n * u.secs + k * v.secs)) :
    calculate c (.moment m + amt u n + amt v k) = .ok (.moment m₂) ∧
    calculate c (.moment m + (amt u n + amt v k)) = .ok (.moment m₂) := by
  have pu : 0 < u.secs := by cases u <;> decide
  have pv : 0 < v.secs := by cases v <;> decide
  have nu : 0 ≤ n * u.secs := Int.mul_nonneg hn (by omega)
  have kv : 0 ≤ k * v.secs := Int.mul_nonneg hk (by omega)
  constructor
  · rw [(C07_chain_partial c (.moment m) (amt u n) v k).1,
      C16_up_to_30_days_partial c hc m m₁ hm hm₁ hz₁ u hu n hn (by omega) h₁, OutE.ok_bind]
    exact C16_up_to_30_days_partial c hc m₁ m₂ hm₁ hm₂ hz₂ v hv k hk (by omega) (by omega)
  · have e := (C08_amounts_combined_first c m (.plus (.amt u n) (.amt v k))).1
    simp only [AmtTree.toTT] at e
    obtain ⟨w, hw, hs, -⟩ := C05_amounts_succeed c (.plus (.amt u n) (.amt v k)) (by
      simp only [AmtTree.mag]; rw [if_neg (by omega), if_neg (by omega)]; omega)
    simp only [AmtTree.toTT, AmtTree.secs] at hw hs
    rw [e, hw, OutE.ok_bind]
    have hf : AmtTree.finest (.plus (.amt u n) (.amt v k)) = .second ∨ AmtTree.finest (.plus (.amt u n) (.amt v k)) = .minute ∨
        AmtTree.finest (.plus (.amt u n) (.amt v k)) = .hour ∨ AmtTree.finest (.plus (.amt u n) (.amt v k)) = .day := by
      by_cases hle : u.secs ≤ v.secs
      · have : ((AmtTree.amt u n).plus (AmtTree.amt v k)).finest = u := if_pos hle
        rw [this]; exact hu
      · have : ((AmtTree.amt u n).plus (AmtTree.amt v k)).finest = v := if_neg hle
        rw [this]; exact hv
    have pf : 0 < (AmtTree.finest (.plus (.amt u n) (.amt v k))).secs := by
      rcases hf with h | h | h | h <;> rw [h] <;> decide
    have hw0 : 0 ≤ w := by
      refine Int.not_lt.1 fun hneg => ?_
      have := Int.mul_neg_of_neg_of_pos hneg pf
      omega
    exact C16_up_to_30_days_partial c hc m m₂ hm hm₂ hz₂ _ hf w hw0 (by omega) (by omega)

example := C25_grouping_partial (std .debug) (sane_std _) (at_ 2017 12 20 0 0 0) (at_ 2018 1 4 0 0 0) (at_ 2018 1 4 18 0 0) (by decide) (by decide) (by decide) rfl rfl
  .day .hour (by decide) (by decide) 15 18 (by decide) (by decide) (by decide) (by decide) (by decide)

/-- **C25 refuted**: twice 20 days from 31 December 2000, and 40 days at once. -/
theorem C25_refuted :
    calculate (std .debug) (.moment (at_ 2000 12 31 0 0 0) + .days 20 + .days 20) =
      .ok (.moment (at_ 2001 2 9 0 0 0)) ∧
    calculate (std .debug) (.moment (at_ 2000 12 31 0 0 0) + (.days 20 + .days 20)) =
      .ok (.moment (at_ 2001 2 10 0 0 0)) := by decide +kernel

example : (at_ 2017 3 2 1 0 0).instant = (at_ 2017 2 28 0 0 0).instant + (1 * TUnit.secs .day + 25 * TUnit.secs .hour) ∧
    (at_ 2017 3 1 0 0 0).instant = (at_ 2017 2 28 0 0 0).instant + 1 * TUnit.secs .day := by decide +kernel

/-! ## C28 -/

/-- **C28 refuted, in general.** The third field of an OutOfBounds error from `m ± amount`, which
should be the day, always repeats the fourth, the hour. -/
theorem C28_refuted (c : Cfg) (m : Moment) (u : TUnit) (n Y M D H MI S : Int)
    (h : calculate c (.moment m + amt u n) = .err (.outOfBounds Y M D H MI S) ∨
         calculate c (.moment m - amt u n) = .err (.outOfBounds Y M D H MI S)) : D = H := by
  have build : ∀ p, Eval.buildMoment c p = .err (.outOfBounds Y M D H MI S) → D = H := by
    intro p hp
    unfold Eval.buildMoment at hp
    split at hp
    · cases hp
    · cases hp; rfl
  have bind : ∀ {α : Type} {x : Out α} {f : α → Out TT} {e : ErrorKind}, (∀ e, x ≠ .err e) →
      (x >>= f) = .err e → ∃ a, f a = .err e := by
    intro α x f e hx hb
    cases x with
    | ok a => exact ⟨a, hb⟩
    | err e' => exact absurd rfl (hx e')
    | panic => cases hb
    | oof => cases hb
  rcases h with h | h
  · rw [calc_add_moment, exec_addToMoment] at h
    cases u <;> simp only [amt, Eval.addToMoment] at h <;>
      (obtain ⟨a, h⟩ := bind (fun e => chk_ne_err c _ e) h
       obtain ⟨p, h⟩ := bind (fun e => adjustTimesAdd_ne_err c _ e) h
       exact build p h)
  · rw [calc_sub_moment, exec_subFromMoment] at h
    cases u <;> simp only [amt, Eval.subFromMoment] at h <;>
      (obtain ⟨a, h⟩ := bind (fun e => chk_ne_err c _ e) h
       obtain ⟨p, h⟩ := bind (fun e => adjustTimesSub_ne_err c _ e) h
       exact build p h)

/-- **C28 refuted**, concretely: 29 February 2016 minus a year at 23:10 is reported as day 23. -/
theorem C28_refuted_witness :
    calculate (std .debug) (.moment (at_ 2016 2 29 23 10 0) - .years 1) =
      .err (.outOfBounds 2015 2 23 23 10 0) := by decide +kernel

example : (23 : Int) = 23 := C28_refuted (std .debug) (at_ 2016 2 29 23 10 0) .year 1 2015 2 23 23 10 0 (.inr C28_refuted_witness)

/-- **C28 (partial).** The other five fields are right, for years: subtracting reports year, month and
time of the date that does not exist; adding seconds, minutes, hours or days past the end reports
the time of day of the exact answer. Missing: the day, and the month when days were carried. -/
theorem C28_other_fields_partial (c : Cfg) (hc : Sane c) (m : Moment) (hm : m.Valid c) :
    (∀ n Y M D H MI S : Int, -2147483648 ≤ m.year - n → m.year - n ≤ 2147483647 →
      calculate c (.moment m - .years n) = .err (.outOfBounds Y M D H MI S) →
      Y = m.year - n ∧ M = m.month ∧ H = m.hour ∧ MI = m.minute ∧ S = m.second) ∧
    (∀ (u : TUnit) (n Y M D H MI S : Int), (u = .second ∨ u = .minute ∨ u = .hour ∨ u = .day) → 0 ≤ n →
      part m u + n ≤ 9223372036854775807 →
      calculate c (.moment m + amt u n) = .err (.outOfBounds Y M D H MI S) →
      Cal.ValidTime H MI S ∧ (86400 : Int) ∣ m.instant + n * u.secs - (H * 3600 + MI * 60 + S)) := by
  constructor
  · intro n Y M D H MI S h1 h2 h
    rw [C23_subtracting_years_partial c m hm n h1 h2] at h
    split at h
    · cases h
    · cases h; exact ⟨rfl, rfl, rfl, rfl, rfl⟩
  · intro u n Y M D H MI S hu hn hmax h
    have hc' := hc
    unfold Sane at hc'
    have hus : u.secs ≤ 86400 := by rcases hu with rfl | rfl | rfl | rfl <;> decide
    obtain ⟨y', mo', d', e, -⟩ := add_closed_full c hc hm u hus n hn hmax
    obtain ⟨t1, t2, t3, t4, t5, t6⟩ := tod_valid (m.instant + n * u.secs)
    rw [e] at h
    unfold Eval.buildMoment at h
    simp only [asU32_id t1 (show todH (m.instant + n * u.secs) ≤ 4294967295 by omega),
      asU32_id t3 (show todM (m.instant + n * u.secs) ≤ 4294967295 by omega),
      asU32_id t5 (show todS (m.instant + n * u.secs) ≤ 4294967295 by omega)] at h
    split at h
    · cases h
    · cases h
      refine ⟨tod_valid _, ?_⟩
      simp only [todH, todM, todS]; omega

example : calculate (std .debug) (.moment (at_ 262143 12 31 23 10 0) + .minutes 70) =
    .err (.outOfBounds 262144 1 0 0 20 0) := by decide +kernel

end Props
