import Verif.Props.WorkDays
import Verif.Props.HowOften

/-!
# C132: how many working days there are between two dates
-/

namespace Props
open Kairos Spec

/-- Counted at once. -/
private theorem workDayCount_eq {w : Int} (hw : 0 ≤ w ∧ w < 7) : ∀ N, (workDayCount w N : Int) =
    if w ≤ 4 then 5 * ((w + N) / 7) + min ((w + N) % 7) 5 - w
    else if w + N ≤ 7 then 0 else 5 * ((w + N - 7) / 7) + min ((w + N - 7) % 7) 5
  | 0 => by unfold workDayCount; simp only [List.range_zero, List.filter_nil, List.length_nil]; split <;> omega
  | N + 1 => by
    have ih := workDayCount_eq hw N
    have hs : workDayCount w (N + 1) = workDayCount w N + if (w + (N : Int)) % 7 ≤ 4 then 1 else 0 := by
      unfold workDayCount
      rw [List.range_succ, List.filter_append, List.length_append]
      congr 1
      by_cases h : (w + (N : Int)) % 7 ≤ 4 <;> simp [h]
    rw [hs]
    split at ih <;> split <;> omega

/-- Working day number `q` is among the next `N` days if there are more than `q` of them. -/
private theorem workDay_lt {w : Int} (hw : 0 ≤ w ∧ w < 7) (q N : Nat) : workDay w q < N ↔ q < workDayCount w N := by
  have h := workDayCount_eq hw N
  unfold workDay
  split at h <;> split <;> omega

/-- **C132.** From `m` until the same time `N` days later, `daily(1).without(Saturday).without(Sunday)`, the filters in either order, yields one date for each of these
`N` days from Monday to Friday, and nothing else. -/
theorem C132_count (c : Cfg) (hc : Sane c) (m e : Moment) (hm : m.Valid c) (he : e.Valid c) (N : Nat) (hd : DaysLater m e N) (hz : e.nano = 0)
    (a b : Day) (hab : (a = .saturday ∧ b = .sunday) ∨ (a = .sunday ∧ b = .saturday)) (it : Iter) (hit : Ext.daily (.moment m) 1 = .ok it)
    (fuel1 fuel2 : Nat) (hf1 : 2 ≤ fuel1) (hf2 : 2 ≤ fuel2) :
    ∃ l, Yields (untilNext c (withoutNext (withoutNext (Iter.next c) a.matches fuel1) b.matches fuel2) e) it l ∧ l.length = workDayCount m.weekday N ∧
      ∀ r ∈ l, (TT.moment r).isA .saturday = .ok false ∧ (TT.moment r).isA .sunday = .ok false := by
  have hw : 0 ≤ m.weekday ∧ m.weekday < 7 := by unfold Moment.weekday Cal.weekday; omega
  have hri : ∀ (r : Moment) (K : Int), DaysLater m r K → r.instant = m.instant + K * 86400 := by
    intro r K h
    unfold Moment.instant Cal.instant
    rw [h.1, h.2.1, h.2.2.1, h.2.2.2]
    omega
  have hei := hri e _ hd
  have key := fun q => C118_work_days c hc m hm it hit a b hab fuel1 fuel2 hf1 hf2 q _ rfl
  refine yields_of m _ _ (fun q hq => ?_) (fun q t hq h => ?_)
  · have hlt := (workDay_lt hw q N).2 hq
    rcases key q with ⟨r, h1, v, hl, ha⟩ | ⟨hi, -⟩
    · refine ⟨r, ?_, ha⟩
      rw [(C41_until c _ e it q).1 r h1 v he, if_pos]
      have := hri r _ hl
      left
      omega
    · have := moment_lt_end he
      omega
  · have hge : ¬ workDay m.weekday q < N := fun h => by have := (workDay_lt hw q N).1 h; omega
    rcases key q with ⟨r, h1, v, hl, ha⟩ | ⟨-, _, _, _, _, _, _, h1⟩
    · rw [(C41_until c _ e it q).1 r h1 v he, if_neg] at h
      · cases h
      · have := hri r _ hl
        rintro (h' | ⟨h', h''⟩)
        · omega
        · have := v.2.2.2.2
          omega
    · rw [(C41_until c _ e it q).2.1 _ h1] at h; cases h

/-- The working days of June 2017, from the 1st, a Thursday, on: 22; and there is one from Friday 2 June until Monday 5 June. -/
example : DaysLater (at_ 2017 6 1 9 0 0) (at_ 2017 7 1 9 0 0) (30 : Nat) ∧ workDayCount (at_ 2017 6 1 9 0 0).weekday 30 = 22 ∧
    workDayCount (at_ 2017 6 2 9 0 0).weekday 3 = 1 := by
  refine ⟨⟨by decide +kernel, rfl, rfl, rfl⟩, by decide +kernel, by decide +kernel⟩

/-- **C132 (weeks).** Every week has five working days, from any weekday on. -/
theorem C132_weeks (c : Cfg) (hc : Sane c) (m e : Moment) (hm : m.Valid c) (he : e.Valid c) (W : Nat) (hd : DaysLater m e (7 * W : Nat)) (hz : e.nano = 0)
    (a b : Day) (hab : (a = .saturday ∧ b = .sunday) ∨ (a = .sunday ∧ b = .saturday)) (it : Iter) (hit : Ext.daily (.moment m) 1 = .ok it)
    (fuel1 fuel2 : Nat) (hf1 : 2 ≤ fuel1) (hf2 : 2 ≤ fuel2) :
    ∃ l, Yields (untilNext c (withoutNext (withoutNext (Iter.next c) a.matches fuel1) b.matches fuel2) e) it l ∧ l.length = 5 * W := by
  have hw : 0 ≤ m.weekday ∧ m.weekday < 7 := by unfold Moment.weekday Cal.weekday; omega
  obtain ⟨l, h1, h2, -⟩ := C132_count c hc m e hm he _ hd hz a b hab it hit fuel1 fuel2 hf1 hf2
  refine ⟨l, h1, ?_⟩
  have h := workDayCount_eq hw (7 * W)
  split at h <;> omega

example := C132_weeks (std .debug) (sane_std _) (at_ 2017 6 3 9 0 0) (at_ 2017 8 5 9 0 0) (by decide) (by decide) 9 ⟨by decide +kernel, rfl, rfl, rfl⟩ rfl
  .sunday .saturday (by decide) _ rfl 2 2 (by decide) (by decide)

/-- **C132 (a year).** A year has 260 working days, and one more for each of 1 January and, in a leap year, 2 January that is not on a weekend. -/
theorem C132_year (c : Cfg) (hc : Sane c) (m e : Moment) (hm : m.Valid c) (he : e.Valid c) (hj : m.month = 1 ∧ m.day = 1)
    (hee : e = { m with year := m.year + 1, nano := 0 })
    (a b : Day) (hab : (a = .saturday ∧ b = .sunday) ∨ (a = .sunday ∧ b = .saturday)) (it : Iter) (hit : Ext.daily (.moment m) 1 = .ok it)
    (fuel1 fuel2 : Nat) (hf1 : 2 ≤ fuel1) (hf2 : 2 ≤ fuel2) :
    ∃ l, Yields (untilNext c (withoutNext (withoutNext (Iter.next c) a.matches fuel1) b.matches fuel2) e) it l ∧
      l.length = 260 + (if m.weekday ≤ 4 then 1 else 0) + (if Cal.isLeap m.year = true ∧ (m.weekday + 1) % 7 ≤ 4 then 1 else 0) := by
  have hw : 0 ≤ m.weekday ∧ m.weekday < 7 := by unfold Moment.weekday Cal.weekday; omega
  have hs := Cal.daysBeforeYear_succ m.year
  have hlen := Cal.yearLen_bounds m.year
  have hd : DaysLater m e ((Cal.yearLen m.year).toNat : Nat) := by
    subst hee
    refine ⟨?_, rfl, rfl, rfl⟩
    show Cal.dayNumber (m.year + 1) m.month m.day = _
    unfold Cal.dayNumber
    rw [hj.1, hj.2, Cal.daysBeforeMonth_one, Cal.daysBeforeMonth_one]
    omega
  obtain ⟨l, h1, h2, -⟩ := C132_count c hc m e hm he _ hd (by rw [hee]) a b hab it hit fuel1 fuel2 hf1 hf2
  refine ⟨l, h1, ?_⟩
  have h := workDayCount_eq hw (Cal.yearLen m.year).toNat
  unfold Cal.yearLen at h h2
  by_cases hl : Cal.isLeap m.year = true
  · simp only [hl, if_true, true_and] at h h2 ⊢
    split at h <;> split <;> split <;> omega
  · simp only [hl, if_false, false_and, Bool.false_eq_true] at h h2 ⊢
    split at h <;> split <;> omega

/-- 2016 began on a Friday and was a leap year: 261 working days. -/
example : ∃ l, Yields (untilNext (std .debug) (withoutNext (withoutNext (Iter.next (std .debug)) (Day.matches .saturday) 2) (Day.matches .sunday) 2) (at_ 2017 1 1 8 0 0))
    ⟨.moment (at_ 2016 1 1 8 0 0), .days 1, false⟩ l ∧ l.length = 261 := by
  obtain ⟨l, h, h'⟩ := C132_year (std .debug) (sane_std _) (at_ 2016 1 1 8 0 0) (at_ 2017 1 1 8 0 0) (by decide) (by decide) (by decide) rfl .saturday .sunday (by decide) _ rfl
    2 2 (by decide) (by decide)
  exact ⟨l, h, by rw [h']; decide +kernel⟩

end Props
