import Verif.Props.AllAmounts
import Verif.Props.Subtracting
import Verif.Props.Equivalent
import Verif.Props.Values
import Verif.Lemmas.CalExists

/-!
# C104: whole weeks later or earlier it is the same weekday
-/

namespace Props
open Kairos Spec

/-- `is_a` gives the same answers on two moments exactly if the weekdays are the same. -/
theorem same_weekday (r m : Moment) :
    (∀ d, (TT.moment r).isA d = (TT.moment m).isA d) ↔ (Cal.dayNumber r.year r.month r.day - Cal.dayNumber m.year m.month m.day) % 7 = 0 := by
  have hw : ∀ a : Moment, 0 ≤ a.weekday ∧ a.weekday < 7 := fun a => by unfold Moment.weekday Cal.weekday; omega
  have key : (Cal.dayNumber r.year r.month r.day - Cal.dayNumber m.year m.month m.day) % 7 = 0 ↔ r.weekday = m.weekday := by
    unfold Moment.weekday Cal.weekday; omega
  rw [key]
  constructor
  · intro h
    obtain ⟨d, hd⟩ : ∃ d : Day, d.into = m.weekday := by
      have := hw m
      generalize m.weekday = w at this
      have : w = 0 ∨ w = 1 ∨ w = 2 ∨ w = 3 ∨ w = 4 ∨ w = 5 ∨ w = 6 := by omega
      rcases this with rfl | rfl | rfl | rfl | rfl | rfl | rfl
      · exact ⟨.monday, rfl⟩
      · exact ⟨.tuesday, rfl⟩
      · exact ⟨.wednesday, rfl⟩
      · exact ⟨.thursday, rfl⟩
      · exact ⟨.friday, rfl⟩
      · exact ⟨.saturday, rfl⟩
      · exact ⟨.sunday, rfl⟩
    have := h d
    simp only [TT.isA, hd, OutE.ok.injEq] at this
    simpa using this
  · intro h d
    simp only [TT.isA, h]

/-- **C104, adding (partial).** Up to 51 weeks later it is the same weekday exactly if the result is in the same year, or in the first year after
it in January, or in March of a leap year, or in April or May of a common year. Missing: the rest of the following year, see
`C104_refuted`, because the code counts months of 30 days there. -/
theorem C104_adding_partial (c : Cfg) (hc : Sane c) (m r : Moment) (hm : m.Valid c) (n : Int) (hn : 0 ≤ n ∧ n ≤ 51) (w : TT)
    (hw : TT.weeks c n = .ok w) (h : calculate c (.moment m + w) = .ok (.moment r)) :
    (∀ d, (TT.moment r).isA d = (TT.moment m).isA d) ↔
      r.year = m.year ∨ r.month = 1 ∨ (r.month = 3 ∧ Cal.isLeap r.year = true) ∨
        ((r.month = 4 ∨ r.month = 5) ∧ Cal.isLeap r.year = false) := by
  rw [same_weekday]
  rw [(C83_weeks_partial c n).1 (by unfold InI64; omega)] at hw
  cases hw
  obtain ⟨y1, y2, v, t, -⟩ := id hm
  have b := Cal.dayOfYear_bounds v
  have e1 := Cal.dayNumber_eq m.year m.month m.day
  have e2 := Cal.dayNumber_newYear (m.year + 1)
  have e3 := Cal.daysBeforeYear_succ m.year
  have e4 := Cal.yearLen_bounds m.year
  have e5 := Cal.yearLen_bounds m.year
  by_cases hin : Cal.dayNumber m.year m.month m.day + n * 7 < Cal.dayNumber (m.year + 1) 1 1
  · obtain ⟨m', vm', z', i'⟩ := moment_exists hm (m.instant + n * 7 * 86400) (by omega) (by
      have : Cal.dayNumber (m.year + 1) 1 1 ≤ Cal.dayNumber (c.maxYear + 1) 1 1 := by
        by_cases e : m.year = c.maxYear
        · rw [e]; exact Int.le_refl _
        · exact Int.le_of_lt (Cal.dayNumber_lt (by simp [Cal.ValidDate, Cal.monthLen]) (by simp [Cal.ValidDate, Cal.monthLen]) (.inl (by omega)))
      unfold Moment.instant Cal.instant
      unfold Cal.ValidTime at t
      omega)
    have hday : Cal.dayNumber m'.year m'.month m'.day = Cal.dayNumber m.year m.month m.day + n * 7 := by
      have t' := vm'.2.2.2.1
      unfold Moment.instant Cal.instant at i'
      unfold Cal.ValidTime at t t'
      omega
    have hy : m'.year = m.year := by
      have h1 : ¬ m'.year < m.year := by
        intro hlt
        have := Cal.dayNumber_lt vm'.2.2.1 v (.inl hlt)
        omega
      have h2 : ¬ m.year < m'.year := by
        intro hlt
        have b' := Cal.dayOfYear_bounds vm'.2.2.1
        have e' := Cal.dayNumber_eq m'.year m'.month m'.day
        have g : Cal.daysBeforeYear (m.year + 1) ≤ Cal.daysBeforeYear m'.year := by
          by_cases e : m.year + 1 = m'.year
          · rw [e]; exact Int.le_refl _
          · have := Cal.daysBeforeYear_mono (y := m.year + 1) (y' := m'.year) (by omega)
            have := Cal.yearLen_bounds (m.year + 1)
            omega
        omega
      omega
    have := C16_within_the_year_partial c hc m m' hm vm' z' .day (by simp) (n * 7) (by omega) i' hy
    simp only [amt] at this
    rw [this] at h
    cases h
    constructor
    · intro _; exact .inl hy
    · intro _; omega
  · have hJ : 0 ≤ Cal.dayNumber m.year m.month m.day + n * 7 - Cal.dayNumber (m.year + 1) 1 1 := by omega
    have hJ' : Cal.dayNumber m.year m.month m.day + n * 7 - Cal.dayNumber (m.year + 1) 1 1 < 360 := by omega
    generalize hJd : Cal.dayNumber m.year m.month m.day + n * 7 - Cal.dayNumber (m.year + 1) 1 1 = J at hJ hJ'
    unfold Sane at hc
    have := C16_beyond_the_year_partial c hc m hm .day (by simp) (n * 7) (by omega) (by
      have := v.2.2.2
      have := Cal.monthLen_bounds (y := m.year) v.1 v.2.1
      simp only [part]; omega) J m.hour m.minute m.second (m.year + 1) 0 hJ t (by
        simp only [TUnit.secs]
        unfold Moment.instant Cal.instant
        omega) (by omega) (by omega)
    simp only [amt] at this
    rw [this] at h
    split at h
    · rename_i hv
      cases h
      simp only
      have b1 : J / 30 % 12 = J / 30 := Int.emod_eq_of_lt (by omega) (by omega)
      rw [b1] at hv ⊢
      have hd : J = 30 * (J / 30) + J % 30 := by omega
      have hr : 0 ≤ J / 30 ∧ J / 30 ≤ 11 := by omega
      generalize J / 30 = q at *
      generalize J % 30 = s at *
      have e6 : Cal.dayNumber (m.year + 1) (q + 1) (s + 1) = Cal.daysBeforeYear (m.year + 1) + Cal.daysBeforeMonth (m.year + 1) (q + 1) + (s + 1) := rfl
      have : q = 0 ∨ q = 1 ∨ q = 2 ∨ q = 3 ∨ q = 4 ∨ q = 5 ∨ q = 6 ∨ q = 7 ∨ q = 8 ∨ q = 9 ∨ q = 10 ∨ q = 11 := by omega
      rw [e6]
      cases hl : Cal.isLeap (m.year + 1) <;>
      rcases this with rfl | rfl | rfl | rfl | rfl | rfl | rfl | rfl | rfl | rfl | rfl | rfl <;>
        simp [Cal.daysBeforeMonth, hl] <;> omega
    · cases h

example := C104_adding_partial (std .debug) (sane_std _) (at_ 2017 2 15 0 0 0) (at_ 2018 2 8 0 0 0) (by decide) 51 (by decide) (.days 357) rfl

/-- **C104, adding (partial).** In particular, always up to four weeks later. -/
theorem C104_four_weeks_partial (c : Cfg) (hc : Sane c) (m r : Moment) (hm : m.Valid c) (n : Int) (hn : 0 ≤ n ∧ n ≤ 4) (w : TT)
    (hw : TT.weeks c n = .ok w) (h : calculate c (.moment m + w) = .ok (.moment r)) (d : Day) :
    (TT.moment r).isA d = (TT.moment m).isA d := by
  refine (same_weekday r m).2 ?_ d
  rw [(C83_weeks_partial c n).1 (by unfold InI64; omega)] at hw
  cases hw
  obtain ⟨m', vm', z', i'⟩ | hend : (∃ m' : Moment, m'.Valid c ∧ m'.nano = 0 ∧ m'.instant = m.instant + n * 7 * 86400) ∨
      Cal.instant (c.maxYear + 1) 1 1 0 0 0 ≤ m.instant + n * 7 * 86400 := by
    by_cases e : m.instant + n * 7 * 86400 < Cal.instant (c.maxYear + 1) 1 1 0 0 0
    · exact .inl (moment_exists hm _ (by omega) e)
    · exact .inr (by omega)
  · have := C16_up_to_30_days_partial c hc m m' hm vm' z' .day (by simp) (n * 7) (by omega) (by simp only [TUnit.secs]; omega) i'
    simp only [amt] at this
    rw [this] at h
    cases h
    have t := hm.2.2.2.1
    have t' := vm'.2.2.2.1
    unfold Moment.instant Cal.instant at i'
    unfold Cal.ValidTime at t t'
    omega
  · obtain ⟨Y, M, D, H, MI, S, h'⟩ := C16_past_the_end_partial c hc m hm .day (by simp) (n * 7) (by omega) (by simp only [TUnit.secs]; omega) hend
    simp only [amt] at h'
    rw [h'] at h
    cases h

example (d : Day) := C104_four_weeks_partial (std .debug) (sane_std _) (at_ 2017 12 15 0 0 0) (at_ 2018 1 12 0 0 0) (by decide) 4 (by decide) (.days 28) (by decide +kernel)
  (by decide +kernel) d

/-- **C104, subtracting (partial).** Whole weeks earlier it is the same weekday exactly if the result is in the same month, or the month before it
has 31 days. (Up to 2^32 days; beyond the month before the result is an error.) Missing: shorter months, see `C104_refuted`. -/
theorem C104_subtracting_partial (c : Cfg) (hc : Sane c) (m r : Moment) (hm : m.Valid c) (n : Int) (hn : 0 ≤ n) (hb : n * 7 < 4294967296) (w : TT)
    (hw : TT.weeks c n = .ok w) (h : calculate c (.moment m - w) = .ok (.moment r)) :
    (∀ d, (TT.moment r).isA d = (TT.moment m).isA d) ↔ r.month = m.month ∨ Cal.monthLen r.year r.month = 31 := by
  rw [same_weekday]
  rw [(C83_weeks_partial c n).1 (by unfold InI64; omega)] at hw
  cases hw
  have v := hm.2.2.1
  obtain ⟨v1, v2, v3, v4⟩ := id v
  obtain ⟨Y, M, hM, hp⟩ : ∃ Y M : Int, (1 ≤ M ∧ M ≤ 12) ∧ Cal.monthIndex Y M = Cal.monthIndex m.year m.month - 1 := by
    unfold Cal.monthIndex
    by_cases e : m.month = 1
    · exact ⟨m.year - 1, 12, by omega, by omega⟩
    · exact ⟨m.year, m.month - 1, by omega, by omega⟩
  rcases C21_days_partial c hc m hm (n * 7) (by omega) hb Y M hM hp with ⟨h1, h2⟩ | ⟨h1, h2, h3, h4, h5⟩ | ⟨-, -, Y', M', D, H, MI, S, h'⟩
  · rw [h2] at h
    cases h
    constructor
    · intro _; exact .inl rfl
    · intro _
      simp only [Cal.dayNumber]
      omega
  · rw [h5] at h
    cases h
    simp only
    -- the first of the month is the day after the last of the month before
    have hnext : Cal.dayNumber m.year m.month 1 = Cal.dayNumber Y M (Cal.monthLen Y M) + 1 := by
      have hl := Cal.monthLen_bounds (y := Y) hM.1 hM.2
      have := Cal.dayNumber_nextDay (y := Y) (m := M) (d := Cal.monthLen Y M) ⟨hM.1, hM.2, by omega, Int.le_refl _⟩
      rw [← this]
      unfold Cal.nextDay
      rw [if_neg (by omega)]
      unfold Cal.monthIndex at hp
      by_cases e : M < 12
      · rw [if_pos e]
        have e1 : m.year = Y := by omega
        have e2 : m.month = M + 1 := by omega
        rw [e1, e2]
      · rw [if_neg e]
        have e1 : m.year = Y + 1 := by omega
        have e2 : m.month = 1 := by omega
        rw [e1, e2]
    have hl := Cal.monthLen_bounds (y := Y) hM.1 hM.2
    have hne : M ≠ m.month := by unfold Cal.monthIndex at hp; omega
    simp only [Cal.dayNumber] at hnext ⊢
    constructor
    · intro h; right; omega
    · rintro (h | h)
      · exact absurd h hne
      · omega
  · rw [h'] at h
    cases h

example := C104_subtracting_partial (std .debug) (sane_std _) (at_ 2017 4 5 0 0 0) (at_ 2017 3 29 0 0 0) (by decide) 1 (by decide) (by decide) (.days 7) (by decide +kernel)
  (by decide +kernel)

/-- **C104 refuted**: six weeks after Monday 25 December 2017 the code arrives on a Tuesday; one week before Monday 1 May 2017 it arrives on a Tuesday. -/
theorem C104_refuted (p : Profile) :
    TT.weeks (std p) 6 = .ok (.days 42) ∧ TT.weeks (std p) 1 = .ok (.days 7) ∧
    calculate (std p) (.moment (at_ 2017 12 25 12 0 0) + .days 42) = .ok (.moment (at_ 2018 2 6 12 0 0)) ∧
    (TT.moment (at_ 2017 12 25 12 0 0)).isA .monday = .ok true ∧ (TT.moment (at_ 2018 2 6 12 0 0)).isA .tuesday = .ok true ∧
    calculate (std p) (.moment (at_ 2017 5 1 12 0 0) - .days 7) = .ok (.moment (at_ 2017 4 25 12 0 0)) ∧
    (TT.moment (at_ 2017 5 1 12 0 0)).isA .monday = .ok true ∧ (TT.moment (at_ 2017 4 25 12 0 0)).isA .tuesday = .ok true := by
  cases p <;> decide +kernel

/-- Six weeks after 1 May it is a Monday again, and one week before 3 April as well. -/
example : (at_ 2017 5 1 12 0 0).Valid (std .debug) ∧
    calculate (std .debug) (.moment (at_ 2017 5 1 12 0 0) + .days 42) = .ok (.moment (at_ 2017 6 12 12 0 0)) ∧
    calculate (std .debug) (.moment (at_ 2017 4 3 12 0 0) - .days 7) = .ok (.moment (at_ 2017 3 27 12 0 0)) ∧
    (TT.moment (at_ 2017 6 12 12 0 0)).isA .monday = .ok true ∧ (TT.moment (at_ 2017 3 27 12 0 0)).isA .monday = .ok true := by
  decide +kernel

end Props
