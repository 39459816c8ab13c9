import Verif.Props.AllAmounts
import Verif.Props.Counts
import Verif.Props.Values
import Verif.Props.GroupingExact
import Verif.Props.Monotone

/-!
# C82: exactly when adding the same number of months or years keeps the order
-/

namespace Props
open Kairos Spec

/-- Where adding months leads: the same day and time so many months later, or, if the code counts `L` days for that month and that is not enough, `L` days less in
the month after. -/
theorem months_lead {c : Cfg} (hc : Sane c) {m r : Moment} (hm : m.Valid c) {n L : Int} (hn : 0 ≤ n) (hmax : n ≤ 24000000000)
    (hL : L = if m.month + n ≤ 12 then Cal.monthLen m.year (m.month + n) else 30)
    (e : calculate c (.moment m + .months n) = .ok (.moment r)) :
    r.Valid c ∧ (28 ≤ L ∧ L ≤ 31) ∧
    (m.day ≤ L ∧ Cal.monthIndex r.year r.month = Cal.monthIndex m.year m.month + n ∧ inMonth r = inMonth m ∨
      L < m.day ∧ Cal.monthIndex r.year r.month = Cal.monthIndex m.year m.month + n + 1 ∧ inMonth r = inMonth m - L * 86400) := by
  have hv := C15_computed c _ r (fun p => TT.noConfusion) e
  have hc' := hc
  unfold Sane at hc'
  obtain ⟨a1, a2, ⟨a3, a4, a5, a6⟩, t, a7⟩ := id hm
  have ml := Cal.monthLen_bounds (y := m.year) a3 a4
  have small := monthDate_small (y := m.year) (t := m.month + n) (d := m.day) (by omega) (by omega) (by omega) (by omega) a5 (by omega)
  rw [addMonths_closed c hc hm n (by omega) (by omega), build_cases c small.1 small.2.1 (by simp only; omega) (by simp only; omega) t] at e
  split at e
  · have e := ok_moment_inj e
    refine ⟨hv.1, ?_, ?_⟩
    · by_cases h : m.month + n ≤ 12
      · rw [if_pos h] at hL
        have := Cal.monthLen_bounds (y := m.year) (m := m.month + n) (by omega) h
        omega
      · rw [if_neg h] at hL; omega
    · rw [← e]
      unfold monthDate Cal.monthIndex inMonth
      by_cases h : m.month + n ≤ 12
      · rw [if_pos h] at hL
        rw [if_pos h, ← hL]
        by_cases h' : m.day ≤ L
        · rw [if_pos h']; exact .inl ⟨h', by simp only; omega, rfl⟩
        · rw [if_neg h']; exact .inr ⟨by omega, by simp only; omega, by simp only; omega⟩
      · rw [if_neg h] at hL
        rw [if_neg h]
        by_cases h' : m.day ≤ 30
        · rw [if_pos h']; exact .inl ⟨by omega, by simp only; omega, rfl⟩
        · rw [if_neg h']; exact .inr ⟨by omega, by simp only; omega, by simp only; omega⟩
  · cases e

/-- **C82, months, exactly when (partial).** Two moments, the first before the second, and the same number of months (up to two billion years) added to both. The
order is lost if and only if the second moment is in the month after the first and the code carries the first so far into the month after the right one that it is
not before the second any more: `L` is the length of the right month, or 30 if that is after the year of the first moment, and `inMonth` is the time since the
beginning of the month, in seconds. (Missing: that the order is always kept, see `C82_refuted`.) -/
theorem C82_months_iff_partial (c : Cfg) (hc : Sane c) (m₁ m₂ r₁ r₂ : Moment) (h1 : m₁.Valid c) (h2 : m₂.Valid c)
    (n : Int) (hn : 0 ≤ n) (hmax : n ≤ 24000000000) (h : m₁.instant < m₂.instant)
    (e₁ : calculate c (.moment m₁ + .months n) = .ok (.moment r₁)) (e₂ : calculate c (.moment m₂ + .months n) = .ok (.moment r₂))
    (L : Int) (hL : L = if m₁.month + n ≤ 12 then Cal.monthLen m₁.year (m₁.month + n) else 30) :
    r₁.instant < r₂.instant ↔
      ¬ (Cal.monthIndex m₂.year m₂.month = Cal.monthIndex m₁.year m₁.month + 1 ∧ inMonth m₂ + L * 86400 ≤ inMonth m₁) := by
  obtain ⟨v₁, l₁, c₁⟩ := months_lead hc h1 hn hmax hL e₁
  obtain ⟨v₂, l₂, c₂⟩ := months_lead hc h2 hn hmax rfl e₂
  rw [instant_lt_iff v₁ v₂]
  rw [instant_lt_iff h1 h2] at h
  have b₁ := h1.2.2.1; have b₂ := h2.2.2.1
  unfold Cal.ValidDate at b₁ b₂
  have m₁' := Cal.monthLen_bounds (y := m₁.year) b₁.1 b₁.2.1
  have m₂' := Cal.monthLen_bounds (y := m₂.year) b₂.1 b₂.2.1
  have t₁ := h1.2.2.2.1; have t₂ := h2.2.2.2.1
  unfold Cal.ValidTime at t₁ t₂
  have i₁ : inMonth m₁ = m₁.day * 86400 + m₁.hour * 3600 + m₁.minute * 60 + m₁.second := rfl
  have i₂ : inMonth m₂ = m₂.day * 86400 + m₂.hour * 3600 + m₂.minute * 60 + m₂.second := rfl
  by_cases hs : Cal.monthIndex m₁.year m₁.month = Cal.monthIndex m₂.year m₂.month
  · have e : m₁.year = m₂.year ∧ m₁.month = m₂.month := by unfold Cal.monthIndex at hs; omega
    rw [← e.1, ← e.2, ← hL] at c₂
    omega
  · omega

/-- The order is lost from 31 January and 1 February, kept from 31 January and 4 February. -/
example : ¬ (at_ 2017 3 3 0 0 0).instant < (at_ 2017 3 1 0 0 0).instant ∧ (at_ 2017 3 3 0 0 0).instant < (at_ 2017 3 4 0 0 0).instant :=
  ⟨fun h => (C82_months_iff_partial (std .debug) (sane_std _) (at_ 2017 1 31 0 0 0) (at_ 2017 2 1 0 0 0) _ _ (by decide) (by decide) 1 (by decide) (by decide)
      (by decide +kernel) (by decide +kernel) (by decide +kernel) 28 rfl).mp h (by decide),
    (C82_months_iff_partial (std .debug) (sane_std _) (at_ 2017 1 31 0 0 0) (at_ 2017 2 4 0 0 0) _ _ (by decide) (by decide) 1 (by decide) (by decide)
      (by decide +kernel) (by decide +kernel) (by decide +kernel) 28 rfl).mpr (by decide)⟩

/-- **C82, months (partial): when it is safe.** The order is kept if both moments are in the same month, or more than one month apart, or if the first is on a day
up to the 28th or the second on the 4th or later. -/
theorem C82_months_safe_partial (c : Cfg) (hc : Sane c) (m₁ m₂ r₁ r₂ : Moment) (h1 : m₁.Valid c) (h2 : m₂.Valid c)
    (n : Int) (hn : 0 ≤ n) (hmax : n ≤ 24000000000) (h : m₁.instant < m₂.instant)
    (hs : Cal.monthIndex m₂.year m₂.month ≠ Cal.monthIndex m₁.year m₁.month + 1 ∨ m₁.day ≤ 28 ∨ 4 ≤ m₂.day)
    (e₁ : calculate c (.moment m₁ + .months n) = .ok (.moment r₁)) (e₂ : calculate c (.moment m₂ + .months n) = .ok (.moment r₂)) :
    r₁.instant < r₂.instant := by
  refine (C82_months_iff_partial c hc m₁ m₂ r₁ r₂ h1 h2 n hn hmax h e₁ e₂ _ rfl).mpr ?_
  obtain ⟨-, l, -⟩ := months_lead hc h1 hn hmax rfl e₁
  generalize (if m₁.month + n ≤ 12 then Cal.monthLen m₁.year (m₁.month + n) else 30) = L at *
  have b₁ := h1.2.2.1; have b₂ := h2.2.2.1
  unfold Cal.ValidDate at b₁ b₂
  have m₁' := Cal.monthLen_bounds (y := m₁.year) b₁.1 b₁.2.1
  have t₁ := h1.2.2.2.1; have t₂ := h2.2.2.2.1
  unfold Cal.ValidTime at t₁ t₂
  unfold inMonth
  omega

/-- From 30 and 31 January. -/
example : (at_ 2017 3 2 23 0 0).instant < (at_ 2017 3 3 0 0 0).instant :=
  C82_months_safe_partial (std .debug) (sane_std _) (at_ 2017 1 30 23 0 0) (at_ 2017 1 31 0 0 0) _ _ (by decide) (by decide) 1 (by decide) (by decide)
    (by decide +kernel) (by decide +kernel) (by decide +kernel) (by decide +kernel)

private theorem shift {y₁ a y₂ b i j n : Int} (h : 12 * y₁ + (a - 1) < 12 * y₂ + (b - 1) ∨ 12 * y₁ + (a - 1) = 12 * y₂ + (b - 1) ∧ i < j) :
    12 * (y₁ + n) + (a - 1) < 12 * (y₂ + n) + (b - 1) ∨ 12 * (y₁ + n) + (a - 1) = 12 * (y₂ + n) + (b - 1) ∧ i < j := by omega

private theorem shift_feb {y₁ a y₂ i j j' n : Int}
    (h : 12 * y₁ + (a - 1) < 12 * y₂ + (2 - 1) ∨ 12 * y₁ + (a - 1) = 12 * y₂ + (2 - 1) ∧ i < j) :
    12 * (y₁ + n) + (a - 1) < 12 * (y₂ + n) + (3 - 1) ∨ 12 * (y₁ + n) + (a - 1) = 12 * (y₂ + n) + (3 - 1) ∧ i < j' := by omega

/-- **C82, years, exactly when (partial).** The same number of years added to (or, if negative, taken from) two moments, the first before the second: the order is
lost if and only if the first is on a 29 February, the year reached is a common year, and the second is on 1 March at most 24 hours later.
(Missing: that the order is always kept, see `C82_refuted_years`.) -/
theorem C82_years_iff_partial (c : Cfg) (m₁ m₂ r₁ r₂ : Moment) (h1 : m₁.Valid c) (h2 : m₂.Valid c) (n : Int)
    (hn₁ : -2147483648 ≤ m₁.year + n ∧ m₁.year + n ≤ 2147483647) (hn₂ : -2147483648 ≤ m₂.year + n ∧ m₂.year + n ≤ 2147483647) (h : m₁.instant < m₂.instant)
    (e₁ : calculate c (.moment m₁ + .years n) = .ok (.moment r₁)) (e₂ : calculate c (.moment m₂ + .years n) = .ok (.moment r₂)) :
    r₁.instant < r₂.instant ↔
      ¬ (m₁.month = 2 ∧ m₁.day = 29 ∧ Cal.isLeap (m₁.year + n) = false ∧ m₂.month = 3 ∧ m₂.day = 1 ∧ m₂.instant ≤ m₁.instant + 86400) := by
  have hv₁ := (C15_computed c _ r₁ (fun p => TT.noConfusion) e₁).1
  have hv₂ := (C15_computed c _ r₂ (fun p => TT.noConfusion) e₂).1
  rw [C18_adding_years_partial c m₁ h1 n hn₁.1 hn₁.2] at e₁
  rw [C18_adding_years_partial c m₂ h2 n hn₂.1 hn₂.2] at e₂
  split at e₁
  · cases e₁
  split at e₂
  · cases e₂
  rw [instant_lt_iff hv₁ hv₂]
  have h' := h
  rw [instant_lt_iff h1 h2] at h
  have b₁ := h1.2.2.1; have b₂ := h2.2.2.1
  unfold Cal.ValidDate at b₁ b₂
  have t₁ := h1.2.2.2.1; have t₂ := h2.2.2.2.1
  unfold Cal.ValidTime at t₁ t₂
  have l : m₁.month = 2 → m₁.day = 29 → Cal.isLeap m₁.year = true := by
    intro x y
    have a6 := b₁.2.2.2
    rw [x, y] at a6
    cases hl : Cal.isLeap m₁.year
    · simp [Cal.monthLen, hl] at a6
    · rfl
  have key : m₁.month = 2 → m₁.day = 29 → m₂.month = 3 → m₂.day = 1 →
      (m₂.instant ≤ m₁.instant + 86400 ↔ m₂.year = m₁.year ∧ m₂.hour * 3600 + m₂.minute * 60 + m₂.second ≤ m₁.hour * 3600 + m₁.minute * 60 + m₁.second) := by
    intro x y x' y'
    have e1 : m₁.instant = (Cal.daysBeforeYear m₁.year + 60) * 86400 + m₁.hour * 3600 + m₁.minute * 60 + m₁.second := by
      unfold Moment.instant Cal.instant Cal.dayNumber
      rw [x, y]; simp [Cal.daysBeforeMonth]; omega
    have e2 : m₂.instant = (Cal.daysBeforeYear m₂.year + Cal.daysBeforeMonth m₂.year 3 + 1) * 86400 + m₂.hour * 3600 + m₂.minute * 60 + m₂.second := by
      unfold Moment.instant Cal.instant Cal.dayNumber
      rw [x', y']
    by_cases hy : m₂.year = m₁.year
    · have : Cal.daysBeforeMonth m₂.year 3 = 60 := by rw [hy]; simp [Cal.daysBeforeMonth, l x y]
      rw [hy] at e2 this
      omega
    · have hlt : m₁.year + 1 ≤ m₂.year := by unfold Cal.monthIndex at h; omega
      have := (Cal.daysBeforeYear_ge hlt).1
      have := Cal.daysBeforeYear_succ m₁.year
      have := Cal.yearLen_bounds m₁.year
      have : 59 ≤ Cal.daysBeforeMonth m₂.year 3 := by unfold Cal.daysBeforeMonth; cases Cal.isLeap m₂.year <;> decide
      omega
  unfold Cal.monthIndex inMonth at *
  by_cases s₁ : m₁.month = 2 ∧ m₁.day = 29 ∧ Cal.isLeap (m₁.year + n) = false
  · rw [if_pos s₁] at e₁
    have e₁ := ok_moment_inj e₁
    obtain ⟨x, y, z⟩ := s₁
    by_cases s₂ : m₂.month = 2 ∧ m₂.day = 29 ∧ Cal.isLeap (m₂.year + n) = false
    · rw [if_pos s₂] at e₂
      have e₂ := ok_moment_inj e₂
      rw [← e₁, ← e₂]
      simp only
      omega
    · rw [if_neg s₂] at e₂
      have e₂ := ok_moment_inj e₂
      rw [← e₁, ← e₂]
      simp only [x, y, z, true_and]
      have key := key x y
      by_cases q : m₂.month = 3 ∧ m₂.day = 1
      · rw [key q.1 q.2, q.1, q.2]; omega
      · have nf : ¬ (m₂.month = 2 ∧ m₂.year = m₁.year) := by
          rintro ⟨p1, p2⟩
          have a6 := b₂.2.2.2
          rw [p1, p2] at a6
          simp only [Cal.monthLen, l x y] at a6
          have a6 : m₂.day ≤ 29 := a6
          rw [p1, p2, x, y] at h
          exact s₂ ⟨p1, by omega, by rw [p2]; exact z⟩
        clear key l s₂ e₁ e₂ hv₁ hv₂ h1 h2 h'
        refine ⟨fun _ hh => q ⟨hh.1, hh.2.1⟩, fun _ => ?_⟩
        rw [x, y] at h
        by_cases hm3 : m₂.year = m₁.year ∧ m₂.month = 3
        · rw [hm3.1, hm3.2]
          have : 2 ≤ m₂.day := by omega
          omega
        · omega
  · rw [if_neg s₁] at e₁
    have e₁ := ok_moment_inj e₁
    have : ¬ (m₁.month = 2 ∧ m₁.day = 29 ∧ Cal.isLeap (m₁.year + n) = false ∧ m₂.month = 3 ∧ m₂.day = 1 ∧ m₂.instant ≤ m₁.instant + 86400) :=
      fun ⟨x, y, z, _⟩ => s₁ ⟨x, y, z⟩
    simp only [this, not_false_eq_true, iff_true]
    clear key l
    by_cases s₂ : m₂.month = 2 ∧ m₂.day = 29 ∧ Cal.isLeap (m₂.year + n) = false
    · rw [if_pos s₂] at e₂
      have e₂ := ok_moment_inj e₂
      rw [s₂.1] at h
      rw [← e₁, ← e₂]
      exact shift_feb h
    · rw [if_neg s₂] at e₂
      have e₂ := ok_moment_inj e₂
      rw [← e₁, ← e₂]
      exact shift h

/-- Lost from 29 February 12:00 and 1 March 10:00, kept from 29 February 12:00 and 1 March 13:00. -/
example : ¬ (at_ 2017 3 1 12 0 0).instant < (at_ 2017 3 1 10 0 0).instant ∧ (at_ 2017 3 1 12 0 0).instant < (at_ 2017 3 1 13 0 0).instant :=
  ⟨fun h => (C82_years_iff_partial (std .debug) (at_ 2016 2 29 12 0 0) (at_ 2016 3 1 10 0 0) _ _ (by decide) (by decide) 1 (by decide) (by decide)
      (by decide +kernel) (by decide +kernel) (by decide +kernel)).mp h (by decide +kernel),
    (C82_years_iff_partial (std .debug) (at_ 2016 2 29 12 0 0) (at_ 2016 3 1 13 0 0) _ _ (by decide) (by decide) 1 (by decide) (by decide)
      (by decide +kernel) (by decide +kernel) (by decide +kernel)).mpr (by decide +kernel)⟩

/-- Where a sum leads that is after the year of the moment. -/
theorem sum_beyond {c : Cfg} (hc : Sane c) {m r : Moment} (hm : m.Valid c) {u : TUnit} (hu : u.secs ≤ 86400) {n : Int} (hn : 0 ≤ n)
    (hmax : n * u.secs ≤ 133500000000000000) (e : calculate c (.moment m + amt u n) = .ok (.moment r)) (hy : r.year ≠ m.year) :
    ∃ J, (m.instant + n * u.secs) / 86400 = Cal.daysBeforeYear (m.year + 1) + 1 + J ∧ 0 ≤ J ∧
      Cal.monthIndex r.year r.month = 12 * (m.year + 1) + J / 30 ∧ inMonth r = (J % 30 + 1) * 86400 + (m.instant + n * u.secs) % 86400 := by
  obtain ⟨cd, -, a1, a2, a3, -, -⟩ := sum_closed c hc hm u hu n hn hmax e
  have hs := Cal.daysBeforeYear_succ m.year
  refine ⟨(m.instant + n * u.secs) / 86400 - Cal.daysBeforeYear m.year - Cal.yearLen m.year - 1, by omega, ?_⟩
  have hN : ¬ (m.instant + n * u.secs) / 86400 - Cal.daysBeforeYear m.year ≤ Cal.yearLen m.year := fun h => hy (cd.1 h).1
  obtain ⟨f1, f2, f3⟩ := cd.2 (by omega)
  refine ⟨by omega, ?_, ?_⟩
  · unfold Cal.monthIndex
    rw [f1, f2]
    omega
  · unfold inMonth
    rw [a1, a2, a3, f3]
    unfold todH todM todS
    omega

/-- **C82, seconds to days, exactly when (partial).** The same amount added to two moments, the first before the second. If the first sum is in the year of the first
moment, the order is kept. If both sums are after the years of their moments, the order is kept if and only if the moments are further apart than the
`Y` years from the one to the other are longer than `Y` times 360 days. (The first sum after its year and the second not: `C82_late_iff_partial`.) -/
theorem C82_days_iff_partial (c : Cfg) (hc : Sane c) (m₁ m₂ r₁ r₂ : Moment) (h1 : m₁.Valid c) (h2 : m₂.Valid c)
    (u : TUnit) (hu : u = .second ∨ u = .minute ∨ u = .hour ∨ u = .day) (n : Int) (hn : 0 ≤ n)
    (hmax : n * u.secs ≤ 133500000000000000) (h : m₁.instant < m₂.instant)
    (e₁ : calculate c (.moment m₁ + amt u n) = .ok (.moment r₁)) (e₂ : calculate c (.moment m₂ + amt u n) = .ok (.moment r₂)) :
    (r₁.year = m₁.year → r₁.instant < r₂.instant) ∧
    (r₁.year ≠ m₁.year → r₂.year ≠ m₂.year → (r₁.instant < r₂.instant ↔
      (Cal.dayNumber (m₂.year + 1) 1 1 - Cal.dayNumber (m₁.year + 1) 1 1 - 360 * (m₂.year - m₁.year)) * 86400 < m₂.instant - m₁.instant)) := by
  have hu' : u.secs ≤ 86400 := by rcases hu with rfl | rfl | rfl | rfl <;> decide
  constructor
  · intro hy
    by_cases hyy : m₁.year = m₂.year
    · exact C82_same_year_partial c hc m₁ m₂ r₁ r₂ h1 h2 hyy u hu n hn hmax h e₁ e₂
    · obtain ⟨cd, -, -, -, -, -, v₂⟩ := sum_closed c hc h2 u hu' n hn hmax e₂
      obtain ⟨-, -, -, -, -, -, v₁⟩ := sum_closed c hc h1 u hu' n hn hmax e₁
      have hlt : m₁.year < m₂.year := by
        rw [instant_lt_iff h1 h2] at h
        have := h1.2.2.1.1; have := h1.2.2.1.2.1; have := h2.2.2.1.1; have := h2.2.2.1.2.1
        unfold Cal.monthIndex at h; omega
      have h2y : m₂.year ≤ r₂.year := by
        by_cases hN : (m₂.instant + n * u.secs) / 86400 - Cal.daysBeforeYear m₂.year ≤ Cal.yearLen m₂.year
        · rw [(cd.1 hN).1]; omega
        · have := (cd.2 (by omega)).1
          omega
      rw [instant_lt_iff v₁ v₂]
      have := v₁.2.2.1.1; have := v₁.2.2.1.2.1; have := v₂.2.2.1.1; have := v₂.2.2.1.2.1
      unfold Cal.monthIndex
      omega
  · intro y₁ y₂
    obtain ⟨J₁, a1, a2, a3, a4⟩ := sum_beyond hc h1 hu' hn hmax e₁ y₁
    obtain ⟨J₂, b1, b2, b3, b4⟩ := sum_beyond hc h2 hu' hn hmax e₂ y₂
    obtain ⟨-, -, -, -, -, -, v₁⟩ := sum_closed c hc h1 u hu' n hn hmax e₁
    obtain ⟨-, -, -, -, -, -, v₂⟩ := sum_closed c hc h2 u hu' n hn hmax e₂
    rw [instant_lt_iff v₁ v₂, a3, a4, b3, b4, Cal.dayNumber_newYear, Cal.dayNumber_newYear]
    omega

/-- 400 days after New Year's Eve 2016 and after 1 and 6 January 2017: the year 2017 is 5 days longer than 360. -/
example : ¬ (at_ 2018 2 10 0 0 0).instant < (at_ 2018 2 6 0 0 0).instant ∧ (at_ 2018 2 10 0 0 0).instant < (at_ 2018 2 11 0 0 0).instant :=
  ⟨fun h => absurd (((C82_days_iff_partial (std .debug) (sane_std _) (at_ 2016 12 31 0 0 0) (at_ 2017 1 1 0 0 0) _ _ (by decide) (by decide) .day (by decide) 400
      (by decide) (by decide) (by decide +kernel) (by decide +kernel) (by decide +kernel)).2 (by decide) (by decide)).mp h) (by decide +kernel),
    ((C82_days_iff_partial (std .debug) (sane_std _) (at_ 2016 12 31 0 0 0) (at_ 2017 1 6 0 0 0) _ _ (by decide) (by decide) .day (by decide) 400
      (by decide) (by decide) (by decide +kernel) (by decide +kernel) (by decide +kernel)).2 (by decide) (by decide)).mpr (by decide +kernel)⟩

end Props
