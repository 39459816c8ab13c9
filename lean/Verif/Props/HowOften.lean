import Verif.Props.Weekdays
import Verif.Props.Counts
import Verif.Spec.Yields

/-!
# C130: how often a weekday occurs
-/

namespace Props
open Kairos Spec

/-- Counted at once. -/
private theorem weekdayCount_eq {w d : Int} (hd : 0 ≤ d ∧ d < 7) : ∀ N, (weekdayCount w d N : Int) = (N + 6 - (d - w) % 7) / 7
  | 0 => by unfold weekdayCount; simp only [List.range_zero, List.filter_nil, List.length_nil]; omega
  | N + 1 => by
    have ih := weekdayCount_eq (w := w) hd N
    have hs : weekdayCount w d (N + 1) = weekdayCount w d N + if (w + (N : Int)) % 7 = d then 1 else 0 := by
      unfold weekdayCount
      rw [List.range_succ, List.filter_append, List.length_append]
      congr 1
      by_cases h : (w + (N : Int)) % 7 = d <;> simp [h]
    rw [hs]
    split <;> omega

/-- A list of what an iterator yields, from its first calls. -/
theorem yields_of {nx : Iter → Iter × Item} {s : Iter} (m : Moment) (N : Nat) (P : Moment → Prop)
    (h1 : ∀ q, q < N → ∃ r : Moment, nth nx q s = some (.ok (.moment r)) ∧ P r)
    (h2 : ∀ q t, N ≤ q → nth nx q s ≠ some (.ok t)) : ∃ l, Yields nx s l ∧ l.length = N ∧ ∀ r ∈ l, P r := by
  obtain ⟨f, hf⟩ : ∃ f : Nat → Moment, f = fun q => match nth nx q s with
    | some (.ok (.moment r)) => r
    | _ => m := ⟨_, rfl⟩
  refine ⟨(List.range N).map f, ⟨?_, ?_⟩, by simp, ?_⟩
  · simp only [List.length_map, List.length_range, List.map_map]
    unfold items
    refine List.map_congr_left (fun q hq => ?_)
    obtain ⟨r, hr, -⟩ := h1 q (List.mem_range.1 hq)
    simp only [hr, hf, Function.comp]
  · simpa using h2
  · intro r hr
    rw [List.mem_map] at hr
    obtain ⟨q, hq, rfl⟩ := hr
    obtain ⟨r, hr, hP⟩ := h1 q (List.mem_range.1 hq)
    simp only [hf, hr]
    exact hP

/-- **C130.** From `m` until the same time `N` days later, `daily(1).every(day)` yields one date for each of these `N` days that has the weekday, and nothing else;
no call looks at more than seven days. -/
theorem C130_count (c : Cfg) (hc : Sane c) (m e : Moment) (hm : m.Valid c) (he : e.Valid c) (N : Nat) (hd : DaysLater m e N) (hz : e.nano = 0)
    (d : Day) (it : Iter) (hit : Ext.daily (.moment m) 1 = .ok it) (fuel : Nat) (hf : 7 ≤ fuel) :
    ∃ l, Yields (untilNext c (filterNext (Iter.next c) d.matches fuel) e) it l ∧ l.length = weekdayCount m.weekday d.into N ∧
      ∀ r ∈ l, (TT.moment r).isA d = .ok true := by
  have hd7 : 0 ≤ d.into ∧ d.into < 7 := by cases d <;> decide
  have hcnt := weekdayCount_eq (w := m.weekday) hd7 N
  have hei : e.instant = m.instant + N * 86400 := by
    unfold Moment.instant Cal.instant
    rw [hd.1, hd.2.1, hd.2.2.1, hd.2.2.2]
    omega
  have hri : ∀ (r : Moment) (K : Int), DaysLater m r K → r.instant = m.instant + K * 86400 := by
    intro r K h
    unfold Moment.instant Cal.instant
    rw [h.1, h.2.1, h.2.2.1, h.2.2.2]
    omega
  refine yields_of m _ _ (fun q hq => ?_) (fun q t hq h => ?_)
  · rcases C67_daily_every c hc m hm d it hit fuel hf q with ⟨r, h1, v, ha, hl⟩ | ⟨hi, -⟩
    · refine ⟨r, ?_, ha⟩
      rw [(C41_until c _ e it q).1 r h1 v he, if_pos]
      have := hri r _ hl
      left
      omega
    · have := moment_lt_end he
      omega
  · rcases C67_daily_every c hc m hm d it hit fuel hf q with ⟨r, h1, v, ha, hl⟩ | ⟨-, _, _, _, _, _, _, h1⟩
    · rw [(C41_until c _ e it q).1 r h1 v he, if_neg] at h
      · cases h
      · have := hri r _ hl
        rintro (h' | ⟨h', h''⟩)
        · omega
        · have := v.2.2.2.2
          omega
    · rw [(C41_until c _ e it q).2.1 _ h1] at h; cases h

/-- The Thursdays of June 2017, from the 1st, a Thursday, on: five. -/
example : DaysLater (at_ 2017 6 1 9 0 0) (at_ 2017 7 1 9 0 0) (30 : Nat) ∧ weekdayCount (at_ 2017 6 1 9 0 0).weekday (Day.into .thursday) 30 = 5 ∧
    weekdayCount (at_ 2017 6 1 9 0 0).weekday (Day.into .sunday) 30 = 4 := by
  refine ⟨⟨by decide +kernel, rfl, rfl, rfl⟩, by decide +kernel, by decide +kernel⟩

/-- **C130 (weeks).** In any number of whole weeks each weekday occurs once a week. -/
theorem C130_weeks (c : Cfg) (hc : Sane c) (m e : Moment) (hm : m.Valid c) (he : e.Valid c) (W : Nat) (hd : DaysLater m e (7 * W : Nat)) (hz : e.nano = 0)
    (d : Day) (it : Iter) (hit : Ext.daily (.moment m) 1 = .ok it) (fuel : Nat) (hf : 7 ≤ fuel) :
    ∃ l, Yields (untilNext c (filterNext (Iter.next c) d.matches fuel) e) it l ∧ l.length = W ∧ ∀ r ∈ l, (TT.moment r).isA d = .ok true := by
  obtain ⟨l, h1, h2, h3⟩ := C130_count c hc m e hm he _ hd hz d it hit fuel hf
  refine ⟨l, h1, ?_, h3⟩
  have hd7 : 0 ≤ d.into ∧ d.into < 7 := by cases d <;> decide
  have hcnt := weekdayCount_eq (w := m.weekday) hd7 (7 * W)
  omega

example := C130_weeks (std .debug) (sane_std _) (at_ 2017 6 1 9 0 0) (at_ 2017 8 3 9 0 0) (by decide) (by decide) 9 ⟨by decide +kernel, rfl, rfl, rfl⟩ rfl .monday _ rfl 7 (by decide)

/-- **C130 (a year).** From 1 January until the next, each weekday occurs 52 times, but 53 times if it is that of 1 January or, in a leap year, of 2 January. -/
theorem C130_year (c : Cfg) (hc : Sane c) (m e : Moment) (hm : m.Valid c) (he : e.Valid c) (hj : m.month = 1 ∧ m.day = 1)
    (hee : e = { m with year := m.year + 1, nano := 0 })
    (d : Day) (it : Iter) (hit : Ext.daily (.moment m) 1 = .ok it) (fuel : Nat) (hf : 7 ≤ fuel) :
    ∃ l, Yields (untilNext c (filterNext (Iter.next c) d.matches fuel) e) it l ∧
      l.length = (if d.into = m.weekday ∨ (Cal.isLeap m.year = true ∧ d.into = (m.weekday + 1) % 7) then 53 else 52) ∧
      ∀ r ∈ l, (TT.moment r).isA d = .ok true := by
  have hd7 : 0 ≤ d.into ∧ d.into < 7 := by cases d <;> decide
  have hw : 0 ≤ m.weekday ∧ m.weekday < 7 := by unfold Moment.weekday Cal.weekday; omega
  have hs := Cal.daysBeforeYear_succ m.year
  have hlen := Cal.yearLen_bounds m.year
  have hd : DaysLater m e ((Cal.yearLen m.year).toNat : Nat) := by
    subst hee
    refine ⟨?_, rfl, rfl, rfl⟩
    show Cal.dayNumber (m.year + 1) m.month m.day = _
    unfold Cal.dayNumber
    rw [hj.1, hj.2, Cal.daysBeforeMonth_one, Cal.daysBeforeMonth_one]
    omega
  obtain ⟨l, h1, h2, h3⟩ := C130_count c hc m e hm he _ hd (by rw [hee]) d it hit fuel hf
  refine ⟨l, h1, ?_, h3⟩
  have hcnt := weekdayCount_eq (w := m.weekday) hd7 (Cal.yearLen m.year).toNat
  unfold Cal.yearLen at hcnt h2
  by_cases hl : Cal.isLeap m.year = true
  · simp only [hl, if_true, true_and] at hcnt h2 ⊢
    split <;> omega
  · simp only [hl, if_false, false_and, or_false, Bool.false_eq_true] at hcnt h2 ⊢
    split <;> omega

/-- 2016 began on a Friday and was a leap year: 53 Fridays and 53 Saturdays. -/
example (fuel : Nat) (hf : 7 ≤ fuel) : ∃ l, Yields (untilNext (std .debug) (filterNext (Iter.next (std .debug)) (Day.matches .saturday) fuel) (at_ 2017 1 1 8 0 0))
    ⟨.moment (at_ 2016 1 1 8 0 0), .days 1, false⟩ l ∧ l.length = 53 := by
  obtain ⟨l, h, h', -⟩ := C130_year (std .debug) (sane_std _) (at_ 2016 1 1 8 0 0) (at_ 2017 1 1 8 0 0) (by decide) (by decide) (by decide) rfl .saturday _ rfl fuel hf
  exact ⟨l, h, by rw [h']; decide +kernel⟩

/-- **C130 (a month).** From a day of a month until the same day of the next month, each weekday occurs four times, but five times if it is the weekday of one of
the first days, as many as the month has more than 28. (In particular from the 1st: the days of that month.) -/
theorem C130_month (c : Cfg) (hc : Sane c) (m e : Moment) (hm : m.Valid c) (he : e.Valid c)
    (hee : e = { m with year := if m.month = 12 then m.year + 1 else m.year, month := if m.month = 12 then 1 else m.month + 1, nano := 0 })
    (d : Day) (it : Iter) (hit : Ext.daily (.moment m) 1 = .ok it) (fuel : Nat) (hf : 7 ≤ fuel) :
    ∃ l, Yields (untilNext c (filterNext (Iter.next c) d.matches fuel) e) it l ∧
      l.length = (if (d.into - m.weekday) % 7 < Cal.monthLen m.year m.month - 28 then 5 else 4) ∧
      ∀ r ∈ l, (TT.moment r).isA d = .ok true := by
  have hd7 : 0 ≤ d.into ∧ d.into < 7 := by cases d <;> decide
  have hw : 0 ≤ m.weekday ∧ m.weekday < 7 := by unfold Moment.weekday Cal.weekday; omega
  obtain ⟨-, -, ⟨g1, g2, -, -⟩, -⟩ := id hm
  have hlen := Cal.monthLen_bounds (y := m.year) g1 g2
  have hd : DaysLater m e ((Cal.monthLen m.year m.month).toNat : Nat) := by
    subst hee
    refine ⟨?_, rfl, rfl, rfl⟩
    show Cal.dayNumber (if m.month = 12 then m.year + 1 else m.year) (if m.month = 12 then 1 else m.month + 1) m.day = _
    unfold Cal.dayNumber
    by_cases h12 : m.month = 12
    · have hs := Cal.daysBeforeYear_succ m.year
      have ht := Cal.daysBeforeMonth_twelve m.year
      simp only [h12, if_true, Cal.daysBeforeMonth_one] at hlen ⊢
      have : Cal.monthLen m.year 12 = 31 := by simp [Cal.monthLen]
      omega
    · have hs := Cal.daysBeforeMonth_succ (y := m.year) g1 (by omega)
      simp only [h12, if_false]
      omega
  obtain ⟨l, h1, h2, h3⟩ := C130_count c hc m e hm he _ hd (by rw [hee]) d it hit fuel hf
  refine ⟨l, h1, ?_, h3⟩
  have hcnt := weekdayCount_eq (w := m.weekday) hd7 (Cal.monthLen m.year m.month).toNat
  split <;> omega

/-- December 2017 began on a Friday: five Sundays, four Mondays. -/
example := C130_month (std .debug) (sane_std _) (at_ 2017 12 1 0 0 0) (at_ 2018 1 1 0 0 0) (by decide) (by decide) rfl .sunday _ rfl 7 (by decide)

example : (Day.into .sunday - (at_ 2017 12 1 0 0 0).weekday) % 7 < Cal.monthLen 2017 12 - 28 ∧
    ¬ (Day.into .monday - (at_ 2017 12 1 0 0 0).weekday) % 7 < Cal.monthLen 2017 12 - 28 := by decide +kernel

end Props
