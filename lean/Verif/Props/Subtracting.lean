import Verif.Lemmas.SubRight
import Verif.Lemmas.SubFar
import Verif.Lemmas.Negative
import Verif.Props.Adding
import Verif.Spec.Part

/-!
# C21–C23, C27, C60: subtracting amounts from a moment
-/

namespace Props
open Kairos Spec

/-! ## C21 -/

/-- **C21, exactly when it holds.** `m'` is the date-time exactly `n` seconds, minutes, hours or days
before `m`. Then `m - n` is `m'` if and only if `SubRight` (`Spec/SubRight.lean`). -/
theorem C21_exact_iff_partial (c : Cfg) (hc : Sane c) (m m' : Moment) (hm : m.Valid c) (hm' : m'.Valid c)
    (hz : m'.nano = 0) (u : TUnit) (hu : u = .second ∨ u = .minute ∨ u = .hour ∨ u = .day)
    (n : Int) (hn : 0 ≤ n) (hi : m'.instant = m.instant - n * u.secs) :
    calculate c (.moment m - amt u n) = .ok (.moment m') ↔ SubRight m m' n u := by
  by_cases hb : 4294967296 ≤ n
  · -- so far back nothing is right
    have hcl := instants_close hc hm hm'
    have hpos : 1 ≤ u.secs := by cases u <;> decide
    have hge : n ≤ n * u.secs := by have := Int.mul_le_mul_of_nonneg_left hpos hn; omega
    obtain ⟨_, _, _, _, _, _, e⟩ := sub_too_far c hc hm u hu n (by omega) (by omega)
    rw [e]
    refine ⟨fun h => (by cases h), fun h => ?_⟩
    obtain ⟨-, -, -, ⟨t1, t2, t3, t4, t5, t6⟩, -⟩ := hm
    rcases hu with rfl | rfl | rfl | rfl <;> simp only [SubRight, TUnit.secs] at h hi hge <;> omega
  have hb : n < 4294967296 := by omega
  rcases hu with hu | hu | hu | hu
  · exact sub_time_exact_iff c hc m m' hm hm' hz u (.inl hu) n hn hb hi
  · exact sub_time_exact_iff c hc m m' hm hm' hz u (.inr (.inl hu)) n hn hb hi
  · exact sub_time_exact_iff c hc m m' hm hm' hz u (.inr (.inr hu)) n hn hb hi
  · subst hu; exact sub_days_exact_iff c hc m m' hm hm' hz n hn hb hi

example : calculate (std .debug) (.moment (at_ 2017 3 1 0 20 0) - amt .minute 21) ≠ .ok (.moment (at_ 2017 2 28 23 59 0)) := fun h =>
  absurd ((C21_exact_iff_partial (std .debug) (sane_std _) _ _ (by decide) (by decide) rfl .minute (by decide) 21 (by decide) (by decide)).1 h).2 (by decide)

/-- **C21 (partial).** Subtracting seconds, minutes or hours gives the exact answer or an
OutOfBounds error, except for exactly (current value + 60, resp. 24 hours) of them; up to eleven million years. -/
theorem C21_exact_or_rejected_partial (c : Cfg) (hc : Sane c) (m : Moment) (hm : m.Valid c) (u : TUnit)
    (n : Int) (hn : 0 ≤ n) (hb : n * u.secs ≤ 371085171523200)
    (hu : (u = .second ∧ n ≠ m.second + 60) ∨ (u = .minute ∧ n ≠ m.minute + 60) ∨ (u = .hour ∧ n ≠ m.hour + 24)) :
    (∃ r, calculate c (.moment m - amt u n) = .ok (.moment r) ∧ r.instant = m.instant - n * u.secs ∧
      r.nano = 0 ∧ r.Valid c) ∨
    (∃ Y M D H MI S, calculate c (.moment m - amt u n) = .err (.outOfBounds Y M D H MI S)) := by
  have hu' : u = .second ∨ u = .minute ∨ u = .hour := by
    rcases hu with h | h | h
    · exact .inl h.1
    · exact .inr (.inl h.1)
    · exact .inr (.inr h.1)
  by_cases hb' : 4294967296 ≤ n
  · have hpos : 1 ≤ u.secs := by cases u <;> decide
    have hge : n ≤ n * u.secs := by have := Int.mul_le_mul_of_nonneg_left hpos hn; omega
    exact .inr (sub_too_far c hc hm u (by rcases hu' with h | h | h <;> simp [h]) n (by omega) hb)
  have hb : n < 4294967296 := by omega
  have hne : n ≠ comp m u + base u := by
    rcases hu with ⟨rfl, h⟩ | ⟨rfl, h⟩ | ⟨rfl, h⟩ <;> exact h
  obtain ⟨k, h, mi, s, y', mo', d', hd', k0, r1, r2, r3, e⟩ := sub_time c hc hm u hu' n hn hb
  rw [e]
  split
  · rename_i hv
    left
    refine ⟨_, rfl, ?_, rfl, hv.1, hv.2.1, hv.2.2.1, hv.2.2.2, by simp, by simp⟩
    have hlt : n < comp m u + base u := by
      rcases Int.lt_trichotomy n (comp m u + base u) with hlt | heq | hgt
      · exact hlt
      · exact absurd heq hne
      · exact absurd hv.2.2.2 (r3 hgt)
    obtain ⟨vt, k1, te⟩ := r1 hlt
    obtain ⟨a1, a2, a3, t, a7⟩ := hm
    have a3' := a3
    obtain ⟨v1, v2, v3, v4⟩ := a3'
    have pv := prevMonth_valid (y := m.year) v1 v2
    have ml := Cal.monthLen_bounds (y := (prevMonth m.year m.month).1) pv.1 pv.2.1
    unfold Moment.instant Cal.instant
    simp only
    rcases dateP_cases a3 k0 with ⟨c1, c2, c3, c4⟩ | ⟨c1, c2, c3, c4, c5⟩ | ⟨c1, -⟩
    · rw [c2] at hd'; cases hd'; omega
    · rw [c3] at hd'; cases hd'
      have := c4.1 hv.2.2.1
      omega
    · omega
  · exact .inr ⟨_, _, _, _, _, _, rfl⟩

example := C21_exact_or_rejected_partial (std .debug) (sane_std _) (at_ 2017 3 1 0 20 0) (by decide) .minute 21 (by decide) (by decide) (by decide)

/-- **C21, seconds, minutes and hours, in full** for `n < 2^32`. `(Y, M)` is the previous month, `b` the number of units in the unit above and
`T` the instant `n` units earlier; for exactly `n = (current value) + b` units the code goes back one unit above too far. If `T` is in the month of `m`
the result is the date-time of `T`. If it is before it, the code counts the previous month as having 31 days: the result is as many days after
`T` as that is short of 31, or an error if that would lead into the month of `m` again. Any more units are an error.
(Partial: what happens instead of the exact answer, see `C21_refuted`.) -/
theorem C21_time_partial (c : Cfg) (hc : Sane c) (m r : Moment) (hm : m.Valid c) (u : TUnit) (b : Int)
    (hu : (u = .second ∧ b = 60) ∨ (u = .minute ∧ b = 60) ∨ (u = .hour ∧ b = 24))
    (n : Int) (hn : 0 ≤ n) (hb : n < 4294967296) (Y M : Int) (hM : 1 ≤ M ∧ M ≤ 12)
    (hprev : Cal.monthIndex Y M = Cal.monthIndex m.year m.month - 1)
    (T start : Int) (hT : T = m.instant - (if n = part m u + b then n + b else n) * u.secs)
    (hstart : start = Cal.instant m.year m.month 1 0 0 0) :
    (calculate c (.moment m - amt u n) = .ok (.moment r) ↔
      n ≤ part m u + b ∧ r.Valid c ∧ r.nano = 0 ∧
        ((start ≤ T ∧ r.instant = T) ∨
         (T < start ∧ r.instant < start ∧ r.instant = T + (31 - Cal.monthLen Y M) * 86400))) ∧
    ((∃ r, calculate c (.moment m - amt u n) = .ok (.moment r)) ∨
     (∃ Y M D H MI S, calculate c (.moment m - amt u n) = .err (.outOfBounds Y M D H MI S))) := by
  have hu' : u = .second ∨ u = .minute ∨ u = .hour := by rcases hu with ⟨h, -⟩ | ⟨h, -⟩ | ⟨h, -⟩ <;> simp [h]
  have hpart : part m u = comp m u ∧ b = base u := by
    rcases hu with ⟨rfl, h⟩ | ⟨rfl, h⟩ | ⟨rfl, h⟩ <;> exact ⟨rfl, h⟩
  rw [hpart.1, hpart.2] at hT
  rw [hpart.1, hpart.2]
  have hbs : 0 < base u := by rcases hu' with rfl | rfl | rfl <;> decide
  obtain ⟨k, h, mi, s, y', mo', d', hd', k0, r1, r2, r3, e⟩ := sub_time c hc hm u hu' n hn hb
  obtain ⟨a1, a2, a3, t, a7⟩ := hm
  have a3' := a3
  obtain ⟨v1, v2, v3, v4⟩ := a3'
  have pv := prevMonth_valid (y := m.year) v1 v2
  have pi := prev_index (y := m.year) (mo := m.month)
  unfold Cal.monthIndex at pi hprev
  have e1 : (prevMonth m.year m.month).1 = Y := by omega
  have e2 : (prevMonth m.year m.month).2 = M := by omega
  have ml := Cal.monthLen_bounds (y := Y) (m := M) hM.1 hM.2
  rw [e]
  refine ⟨?_, by split <;> simp⟩
  by_cases hgt : comp m u + base u < n
  · rw [if_neg (fun h => r3 hgt h.2.2.2)]
    exact ⟨fun h => (by cases h), fun h => (by omega)⟩
  have hTt : Cal.ValidTime h mi s ∧ k ≤ 2 ∧
      h * 3600 + mi * 60 + s - k * 86400 = m.hour * 3600 + m.minute * 60 + m.second - (m.instant - T) := by
    rcases Int.lt_or_eq_of_le (show n ≤ comp m u + base u by omega) with hlt | heq
    · obtain ⟨p1, p2, p3⟩ := r1 hlt
      rw [if_neg (by omega)] at hT
      exact ⟨p1, by omega, by omega⟩
    · obtain ⟨p1, p2, -, -, p3⟩ := r2 heq
      rw [if_pos heq, Int.add_mul] at hT
      exact ⟨p1, p2, by omega⟩
  obtain ⟨vt, k2, te⟩ := hTt
  have vt' := vt
  have t' := t
  unfold Cal.ValidTime at vt' t'
  have hs1 : start = m.instant - (m.day - 1) * 86400 - (m.hour * 3600 + m.minute * 60 + m.second) := by
    rw [hstart]; unfold Moment.instant Cal.instant Cal.dayNumber; omega
  have hmi : m.instant = Cal.dayNumber m.year m.month m.day * 86400 + (m.hour * 3600 + m.minute * 60 + m.second) := by
    unfold Moment.instant Cal.instant; omega
  have key : ∀ q : Moment, q.Valid c → r.Valid c → q.nano = 0 → r.nano = 0 → q.instant = r.instant → q = r := by
    intro q hq hr z1 z2 i
    obtain ⟨-, -, q3, q4, -⟩ := hq
    obtain ⟨-, -, b3, b4, -⟩ := hr
    unfold Moment.instant at i
    obtain ⟨e1, e2, e3, e4, e5, e6⟩ := Cal.instant_inj q3 b3 q4 b4 i
    cases q; cases r; simp only at *; subst_vars; rfl
  have hri : ∀ q : Moment, q.instant = Cal.dayNumber q.year q.month q.day * 86400 + (q.hour * 3600 + q.minute * 60 + q.second) := by
    intro q; unfold Moment.instant Cal.instant; omega
  have hi := hri ⟨y', mo', d', h, mi, s, 0⟩
  simp only at hi
  rcases dateP_cases a3 k0 with ⟨c1, c2, c3, c4⟩ | ⟨c1, c2, c3, c4, c5⟩ | ⟨c1, -⟩
  · rw [c2] at hd'; cases hd'
    rw [if_pos ⟨a1, a2, c3, vt⟩]
    have hv : (⟨m.year, m.month, m.day - k, h, mi, s, 0⟩ : Moment).Valid c := ⟨a1, a2, c3, vt, by simp, by simp⟩
    constructor
    · intro h
      have := ok_moment_inj h
      subst this
      exact ⟨by omega, hv, rfl, .inl ⟨by omega, by omega⟩⟩
    · rintro ⟨-, hr, hz, h | h⟩
      · rw [key _ hv hr rfl hz (by omega)]
      · omega
  · rw [c3] at hd'; cases hd'
    rw [e1, e2] at *
    have cond : (⟨Y, M, 31 + m.day - k, h, mi, s, 0⟩ : Moment).instant < start ↔ 31 + m.day - k ≤ Cal.monthLen Y M := by omega
    constructor
    · intro h
      split at h
      · rename_i hv
        have := ok_moment_inj h
        subst this
        exact ⟨by omega, ⟨hv.1, hv.2.1, hv.2.2.1, hv.2.2.2, by simp, by simp⟩, rfl, .inr ⟨by omega, cond.2 (c4.1 hv.2.2.1), by omega⟩⟩
      · cases h
    · rintro ⟨-, hr, hz, hh | hh⟩
      · omega
      · have hd : Cal.ValidDate Y M (31 + m.day - k) := c4.2 (cond.1 (by omega))
        obtain ⟨q1, q2, q3, q4, -⟩ := id hr
        have i := Cal.instant_inj hd q3 vt q4 (by
          have := hri r
          unfold Cal.instant; omega)
        have hv : (⟨Y, M, 31 + m.day - k, h, mi, s, 0⟩ : Moment).Valid c := ⟨show c.minYear ≤ Y by omega, show Y ≤ c.maxYear by omega, hd, vt, by simp, by simp⟩
        rw [if_pos ⟨hv.1, hv.2.1, hd, vt⟩, key _ hv hr rfl hz (by omega)]
  · omega

/-- 70 minutes before 1 May 2017 00:10: the 60th borrow leads to 22:00 instead of 23:00, on what the code takes for the 31st of April: an error.
From 1 April 00:10 it is 31 March, 22:00; the exact answer is 23:00. -/
example : (at_ 2017 4 1 0 10 0).Valid (std .debug) ∧ (at_ 2017 3 31 22 0 0).Valid (std .debug) ∧
    Cal.monthIndex 2017 3 = Cal.monthIndex 2017 4 - 1 ∧
    calculate (std .debug) (.moment (at_ 2017 4 1 0 10 0) - amt .minute 70) = .ok (.moment (at_ 2017 3 31 22 0 0)) ∧
    (at_ 2017 3 31 22 0 0).instant = (at_ 2017 4 1 0 10 0).instant - (70 + 60) * TUnit.secs .minute ∧
    calculate (std .debug) (.moment (at_ 2017 5 1 0 10 0) - amt .minute 70) = .err (.outOfBounds 2017 4 22 22 0 0) := by
  decide +kernel

/-- **C21, days, in full** for `n < 2^32`: earlier in the same month the answer is right; going back
into the previous month the code counts it as having 31 days; further back is an error. -/
theorem C21_days_partial (c : Cfg) (hc : Sane c) (m : Moment) (hm : m.Valid c)
    (n : Int) (hn : 0 ≤ n) (hb : n < 4294967296) (Y M : Int) (hM : 1 ≤ M ∧ M ≤ 12)
    (hprev : Cal.monthIndex Y M = Cal.monthIndex m.year m.month - 1) :
    (n < m.day ∧ calculate c (.moment m - .days n) = .ok (.moment { m with day := m.day - n, nano := 0 })) ∨
    (m.day ≤ n ∧ n ≤ m.day + 30 ∧ 31 + m.day - n ≤ Cal.monthLen Y M ∧ c.minYear ≤ Y ∧
      calculate c (.moment m - .days n) =
        .ok (.moment { m with year := Y, month := M, day := 31 + m.day - n, nano := 0 })) ∨
    (m.day ≤ n ∧ (m.day + 30 < n ∨ Cal.monthLen Y M < 31 + m.day - n ∨ Y < c.minYear) ∧
      ∃ Y M D H MI S, calculate c (.moment m - .days n) = .err (.outOfBounds Y M D H MI S)) := by
  obtain ⟨y', mo', d', hd', e⟩ := sub_days c hc hm n hn hb
  obtain ⟨a1, a2, a3, t, a7⟩ := hm
  have a3' := a3
  obtain ⟨v1, v2, v3, v4⟩ := a3'
  have pv := prevMonth_valid (y := m.year) v1 v2
  have pi := prev_index (y := m.year) (mo := m.month)
  unfold Cal.monthIndex at pi hprev
  have e1 : (prevMonth m.year m.month).1 = Y := by omega
  have e2 : (prevMonth m.year m.month).2 = M := by omega
  simp only [amt] at e
  rw [e]
  rcases dateP_cases a3 hn with ⟨c1, c2, c3, c4⟩ | ⟨c1, c2, c3, c4, c5⟩ | ⟨c1, c2⟩
  · rw [c2] at hd'; cases hd'
    left; rw [if_pos ⟨a1, a2, c3⟩]; exact ⟨c1, rfl⟩
  · rw [c3] at hd'; cases hd'
    rw [e1, e2] at *
    right
    by_cases hv : c.minYear ≤ Y ∧ Y ≤ c.maxYear ∧ Cal.ValidDate Y M (31 + m.day - n)
    · left; rw [if_pos hv]; exact ⟨c1, c2, c4.1 hv.2.2, hv.1, rfl⟩
    · right
      rw [if_neg hv]
      refine ⟨c1, ?_, _, _, _, _, _, _, rfl⟩
      rw [c4] at hv; omega
  · right; right
    rw [if_neg (by intro h; rw [show d' = (dateP m.year m.month (m.day - n)).2.2 by rw [← hd']] at h; exact c2 _ _ h.2.2)]
    exact ⟨by omega, .inl c1, _, _, _, _, _, _, rfl⟩

example := C21_days_partial (std .debug) (sane_std _) (at_ 2017 3 5 0 0 0) (by decide) 8 (by decide) (by decide) 2017 2 (by decide) (by decide)

/-- **C21 refuted.** 70 minutes before 12:10 is 11:00, the code says 10:00; 5 days before 1 May is
26 April, the code says 27 April; 1 second before 1 March 00:00 is an error. -/
theorem C21_refuted :
    calculate (std .debug) (.moment (at_ 2017 1 1 12 10 0) - .minutes 70) = .ok (.moment (at_ 2017 1 1 10 0 0)) ∧
    (at_ 2017 1 1 11 0 0).instant = (at_ 2017 1 1 12 10 0).instant - 70 * TUnit.secs .minute ∧
    calculate (std .debug) (.moment (at_ 2017 5 1 0 0 0) - .days 5) = .ok (.moment (at_ 2017 4 27 0 0 0)) ∧
    (at_ 2017 4 26 0 0 0).instant = (at_ 2017 5 1 0 0 0).instant - 5 * TUnit.secs .day ∧
    calculate (std .debug) (.moment (at_ 2017 3 1 0 0 0) - .seconds 1) = .err (.outOfBounds 2017 2 23 23 59 59) := by
  decide +kernel

/-- **C21.** Subtracting 63 days or more, up to eleven million years, in seconds, minutes, hours or days is always an
OutOfBounds error.
(Partial: a rejection instead of the exact date, see `C21_refuted`.) -/
theorem C21_two_months_rejected_partial (c : Cfg) (hc : Sane c) (m : Moment) (hm : m.Valid c) (u : TUnit)
    (hu : u = .second ∨ u = .minute ∨ u = .hour ∨ u = .day) (n : Int)
    (h1 : 63 * 86400 ≤ n * u.secs) (h2 : n * u.secs ≤ 371085171523200) :
    ∃ Y M D H MI S, calculate c (.moment m - amt u n) = .err (.outOfBounds Y M D H MI S) :=
  sub_too_far c hc hm u hu n h1 h2

/-- 63 days before 2 September 2017 is 1 July, an error; 61 days before 31 August is 1 July too, and works. -/
example : calculate (std .debug) (.moment (at_ 2017 9 2 0 0 0) - .days 63) = .err (.outOfBounds 2017 7 0 0 0 0) ∧
    calculate (std .debug) (.moment (at_ 2017 8 31 0 0 0) - .days 61) = .ok (.moment (at_ 2017 7 1 0 0 0)) := by
  decide +kernel

/-- The hypotheses of `C21_exact_iff_partial` hold with both answers. -/
example : SubRight (at_ 2017 2 1 0 30 0) (at_ 2017 1 31 23 45 0) 45 .minute ∧
    (at_ 2017 1 31 23 45 0).instant = (at_ 2017 2 1 0 30 0).instant - 45 * TUnit.secs .minute ∧
    (at_ 2017 2 1 0 30 0).Valid (std .debug) ∧ (at_ 2017 1 31 23 45 0).Valid (std .debug) ∧
    calculate (std .debug) (.moment (at_ 2017 2 1 0 30 0) - amt .minute 45) = .ok (.moment (at_ 2017 1 31 23 45 0)) := by
  refine ⟨⟨by decide, by decide⟩, ?_⟩; decide +kernel

/-! ## C22 -/

/-- **C22 (partial).** `(Y, M)` is the month `n` calendar months before that of `m`, `n < 2^32`.
`m - months(n)` is the same day and time in that month if fewer than 12 + (month of `m`) months are
subtracted, the day exists there and the year is in chrono's range; in every other case it is an
OutOfBounds error. Missing: `n ≥ 2^32`, see `C22_refuted`. -/
theorem C22_subtracting_months_partial (c : Cfg) (hc : Sane c) (m : Moment) (hm : m.Valid c)
    (n : Int) (hn : 0 ≤ n) (hb : n < 4294967296) (Y M : Int) (hM : 1 ≤ M ∧ M ≤ 12)
    (hi : Cal.monthIndex Y M = Cal.monthIndex m.year m.month - n) :
    (n < m.month + 12 ∧ m.day ≤ Cal.monthLen Y M ∧ c.minYear ≤ Y ∧
      calculate c (.moment m - .months n) = .ok (.moment { m with year := Y, month := M, nano := 0 })) ∨
    ((m.month + 12 ≤ n ∨ Cal.monthLen Y M < m.day ∨ Y < c.minYear) ∧
      ∃ Y M D H MI S, calculate c (.moment m - .months n) = .err (.outOfBounds Y M D H MI S)) := by
  rcases sub_months c hc hm n hn hb Y M hM hi with ⟨h, e⟩ | ⟨h, Y', M', e⟩
  · rw [e]
    by_cases hv : c.minYear ≤ Y ∧ m.day ≤ Cal.monthLen Y M
    · rw [if_pos hv]; exact .inl ⟨h, hv.2, hv.1, rfl⟩
    · rw [if_neg hv]; exact .inr ⟨by omega, _, _, _, _, _, _, rfl⟩
  · exact .inr ⟨.inl h, _, _, _, _, _, _, e⟩

example := C22_subtracting_months_partial (std .debug) (sane_std _) (at_ 2017 3 5 0 0 0) (by decide) 14 (by decide) (by decide) 2016 1 (by decide) (by decide)

/-- **C22 refuted** for huge amounts, in both profiles: subtracting 13·2^32 + 6 months from June 2017
is silently December 2016. -/
theorem C22_refuted (p : Profile) :
    calculate (std p) (.moment (at_ 2017 6 15 12 0 0) - .months (13 * 4294967296 + 6)) =
      .ok (.moment (at_ 2016 12 15 12 0 0)) := by cases p <;> decide +kernel

example : calculate (std .debug) (.moment (at_ 2017 3 31 12 0 0) - .months 14) =
      .ok (.moment (at_ 2016 1 31 12 0 0)) ∧
    calculate (std .debug) (.moment (at_ 2017 3 31 12 0 0) - .months 13) =
      .err (.outOfBounds 2016 2 12 12 0 0) ∧
    Cal.monthIndex 2016 1 = Cal.monthIndex 2017 3 - 14 := by decide +kernel

/-! ## C23 -/

/-- **C23 (partial).** `m - years(n)`, `n` of either sign, if the resulting year is an `i32`: the same
month, day and time in year `y - n`, or an OutOfBounds error exactly if that date does not exist or
is out of chrono's range. Missing: years beyond `i32`, see `C27_refuted`. -/
theorem C23_subtracting_years_partial (c : Cfg) (m : Moment) (hm : m.Valid c) (n : Int)
    (hn1 : -2147483648 ≤ m.year - n) (hn2 : m.year - n ≤ 2147483647) :
    calculate c (.moment m - .years n) =
      if c.minYear ≤ m.year - n ∧ m.year - n ≤ c.maxYear ∧ Cal.ValidDate (m.year - n) m.month m.day
      then .ok (.moment { m with year := m.year - n, nano := 0 })
      else .err (.outOfBounds (m.year - n) m.month m.hour m.hour m.minute m.second) := by
  rw [sub_years c hm n hn1 hn2]
  obtain ⟨a1, a2, ⟨a3, a4, a5, a6⟩, -⟩ := hm
  simp only [Cal.ValidDate, a3, a4, a5, true_and]

example : calculate (std .debug) (.moment (at_ 2016 2 29 1 2 3) - .years 4) =
      .ok (.moment (at_ 2012 2 29 1 2 3)) ∧
    calculate (std .debug) (.moment (at_ 2016 2 29 1 2 3) - .years 1) =
      .err (.outOfBounds 2015 2 1 1 2 3) := by decide +kernel

/-! ## C27 -/

/-- **C27 (partial).** As long as the resulting year fits in 32 bits, adding or subtracting years
that leads out of chrono's range is an OutOfBounds error that names the year. -/
theorem C27_years_partial (c : Cfg) (m : Moment) (hm : m.Valid c) (n Y : Int)
    (hY1 : -2147483648 ≤ Y) (hY2 : Y ≤ 2147483647) (hout : Y < c.minYear ∨ c.maxYear < Y) :
    (Y = m.year + n → ∃ M D H MI S, calculate c (.moment m + .years n) = .err (.outOfBounds Y M D H MI S)) ∧
    (Y = m.year - n → ∃ M D H MI S, calculate c (.moment m - .years n) = .err (.outOfBounds Y M D H MI S)) := by
  refine ⟨?_, ?_⟩
  · rintro rfl
    rw [C18_adding_years_partial c m hm n hY1 hY2, if_pos hout]
    exact ⟨_, _, _, _, _, rfl⟩
  · rintro rfl
    rw [C23_subtracting_years_partial c m hm n hY1 hY2, if_neg (by omega)]
    exact ⟨_, _, _, _, _, rfl⟩

example := (C27_years_partial (std .debug) (at_ 2017 3 5 0 0 0) (by decide) 300000 302017 (by decide) (by decide) (by decide)).1 (by decide)

/-! ## C60 -/

/-- **C60 (partial), adding.** A negative number of seconds, minutes, hours or days (down to about
-2^32 days) gives exactly the right date-time or an OutOfBounds error. -/
theorem C60_adding_negative_partial (c : Cfg) (hc : Sane c) (m : Moment) (hm : m.Valid c)
    (u : TUnit) (hu : u = .second ∨ u = .minute ∨ u = .hour ∨ u = .day)
    (n : Int) (hn : n < 0) (hb : -371085171523200 ≤ n * u.secs) :
    (∃ r, calculate c (.moment m + amt u n) = .ok (.moment r) ∧ r.Valid c ∧ r.nano = 0 ∧
      r.instant = m.instant + n * u.secs) ∨
    (∃ Y M D H MI S, calculate c (.moment m + amt u n) = .err (.outOfBounds Y M D H MI S)) := by
  obtain ⟨d', h', mi', s', e, i⟩ := add_neg c hc hm u (by rcases hu with rfl | rfl | rfl | rfl <;> decide) n (by omega) hb
  rw [e]
  split
  · rename_i hv
    exact .inl ⟨_, rfl, ⟨hm.1, hm.2.1, hv.1, hv.2, by simp, by simp⟩, rfl, i⟩
  · exact .inr ⟨_, _, _, _, _, _, rfl⟩

example := C60_adding_negative_partial (std .debug) (sane_std _) (at_ 2017 3 5 0 0 0) (by decide) .day (by decide) (-3) (by decide) (by decide)

/-- **C60 (partial), subtracting.** The same for subtracting a negative number, down to about -2^32. -/
theorem C60_subtracting_negative_partial (c : Cfg) (hc : Sane c) (m : Moment) (hm : m.Valid c)
    (u : TUnit) (hu : u = .second ∨ u = .minute ∨ u = .hour ∨ u = .day)
    (n : Int) (hn : n < 0) (hb : -4294967200 ≤ n) :
    (∃ r, calculate c (.moment m - amt u n) = .ok (.moment r) ∧ r.Valid c ∧ r.nano = 0 ∧
      r.instant = m.instant - n * u.secs) ∨
    (∃ Y M D H MI S, calculate c (.moment m - amt u n) = .err (.outOfBounds Y M D H MI S)) := by
  have e := sub_neg c hc hm u (by rcases hu with rfl | rfl | rfl | rfl <;> decide) n (by omega) hb _ rfl
  rw [e]
  split
  · rename_i hv
    refine .inl ⟨_, rfl, ⟨?_, ?_, hv.1, hv.2, by simp, by simp⟩, rfl, ?_⟩
    · rcases hu with rfl | rfl | rfl | rfl <;> exact hm.1
    · rcases hu with rfl | rfl | rfl | rfl <;> exact hm.2.1
    · unfold Moment.instant Cal.instant Cal.dayNumber
      rcases hu with rfl | rfl | rfl | rfl <;> simp only [subComp, TUnit.secs] <;> omega
  · exact .inr ⟨_, _, _, _, _, _, rfl⟩

example := C60_subtracting_negative_partial (std .debug) (sane_std _) (at_ 2017 3 5 0 0 0) (by decide) .day (by decide) (-3) (by decide) (by decide)

/-- **C60 refuted**: adding -2^32 days, or subtracting -2^32 seconds, leaves the moment where it is. -/
theorem C60_refuted (p : Profile) :
    calculate (std p) (.moment (at_ 2017 6 15 12 0 0) + .days (-4294967296)) =
      .ok (.moment (at_ 2017 6 15 12 0 0)) ∧
    calculate (std p) (.moment (at_ 2017 6 15 12 0 0) - .seconds (-4294967296)) =
      .ok (.moment (at_ 2017 6 15 12 0 0)) := by cases p <;> decide +kernel

example : calculate (std .debug) (.moment (at_ 2017 6 15 12 0 0) + .days (-14)) =
      .ok (.moment (at_ 2017 6 1 12 0 0)) ∧
    calculate (std .debug) (.moment (at_ 2017 6 15 12 0 0) + .days (-15)) =
      .err (.outOfBounds 2017 6 12 12 0 0) ∧
    calculate (std .debug) (.moment (at_ 2017 6 15 12 0 0) - .minutes (-59)) =
      .ok (.moment (at_ 2017 6 15 12 59 0)) := by decide +kernel

end Props
