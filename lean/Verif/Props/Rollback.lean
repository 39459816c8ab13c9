import Verif.Props.IterOps
import Verif.Props.Kinds
import Verif.Props.Values
import Verif.Props.RoundTrip

/-!
# C39: exactly when `rollback` followed by `next` returns the same item
-/

namespace Props
open Kairos Spec

theorem moment_eq {c : Cfg} {p q : Moment} (hp : p.Valid c) (hq : q.Valid c) (h : p.instant = q.instant)
    (hn : p.nano = q.nano) : p = q := by
  obtain ⟨e1, e2, e3, e4, e5, e6⟩ := Cal.instant_inj hp.2.2.1 hq.2.2.1 hp.2.2.2.1 hq.2.2.2.1 h
  cases p; cases q; simp only at *; simp [*]

/-- What it takes for `rollback` and `next` to return the item again. -/
theorem rollback_iff {c : Cfg} {r : Moment} {u : TUnit} {n : Int} :
    (((live r (amt u n)).rollback c).2 = .ok () ∧ (((live r (amt u n)).rollback c).1.next c).2 = some (.ok (.moment r))) ↔
    ∃ q : Moment, calculate c (.moment r - amt u n) = .ok (.moment q) ∧ calculate c (.moment q + amt u n) = .ok (.moment r) := by
  constructor
  · rintro ⟨h1, h2⟩
    have hk : kind (.moment r - amt u n) = some .moment := by cases u <;> rfl
    rcases C76_moments c _ hk with ⟨q, e⟩ | ⟨y, mo, d, hh, mi, s, e⟩ | ⟨e, -⟩
    · refine ⟨q, e, ?_⟩
      have e' : (live r (amt u n)).rollback c = (live q (amt u n), .ok ()) := by
        simp only [live, Iter.rollback, Iter.recalculate, e]
      rw [e'] at h2
      simp only [live, Iter.next, Iter.skip, Iter.recalculate] at h2
      revert h2
      cases hq : calculate c (.moment q + amt u n) <;> simp
    · simp only [live, Iter.rollback, Iter.recalculate, e] at h1; cases h1
    · simp only [live, Iter.rollback, Iter.recalculate, e] at h1; cases h1
  · rintro ⟨q, h1, h2⟩
    exact rollback_next h1 h2

/-- **C39, exactly when it holds (partial)** for steps up to 30 days of seconds, minutes, hours or days. `m'` is the
moment one step before the item `r`: `rollback` and `next` return `r` again if and only if subtracting goes right
(`Spec/SubRight.lean`). For longer steps see `C39_any_step_iff_partial`. -/
theorem C39_rollback_iff_partial (c : Cfg) (hc : Sane c) (it it' : Iter) (r m' : Moment) (hr : r.Valid c) (hz : r.nano = 0)
    (hm' : m'.Valid c) (hz' : m'.nano = 0)
    (u : TUnit) (hu : u = .second ∨ u = .minute ∨ u = .hour ∨ u = .day) (n : Int) (hn : 0 ≤ n)
    (hmax : n * u.secs ≤ 30 * 86400) (hinc : it.increment = amt u n) (hi : m'.instant = r.instant - n * u.secs)
    (h : it.next c = (it', some (.ok (.moment r)))) :
    ((it'.rollback c).2 = .ok () ∧ ((it'.rollback c).1.next c).2 = some (.ok (.moment r))) ↔ SubRight r m' n u := by
  have hs := state_after_item h
  rw [hinc] at hs
  subst hs
  have hpos : 1 ≤ u.secs := by cases u <;> decide
  have hnn : n ≤ n * u.secs := by
    have := Int.mul_le_mul_of_nonneg_left hpos hn; omega
  rw [rollback_iff, ← C21_exact_iff_partial c hc r m' hr hm' hz' u hu n hn hi]
  constructor
  · rintro ⟨q, h1, h2⟩
    have hq : q.Valid c := C15_results_are_dates c _ q (by
      simp only [TT.hsub_def, AllMoments]; exact ⟨hr, by cases u <;> trivial⟩) h1
    have hqn : q.nano = 0 := C15_whole_seconds c _ q (by
      simp only [TT.hsub_def, AllMoments]; exact ⟨⟨hr, hz⟩, by cases u <;> trivial⟩) h1
    have hqi : q.instant + n * u.secs = r.instant := by
      by_cases hlt : q.instant + n * u.secs < Cal.instant (c.maxYear + 1) 1 1 0 0 0
      · obtain ⟨p, p1, p2, p3⟩ := moment_exists hq (q.instant + n * u.secs) (by omega) hlt
        rw [C16_up_to_30_days_partial c hc q p hq p1 p2 u hu n hn hmax p3] at h2
        rw [← ok_moment_inj h2, p3]
      · obtain ⟨Y, M, D, H, MI, S, e⟩ := C16_past_the_end_partial c hc q hq u hu n hn (by omega) (by omega)
        rw [e] at h2; cases h2
    rw [← moment_eq hq hm' (by omega) (by omega)]
    exact h1
  · intro h1
    exact ⟨m', h1, C16_up_to_30_days_partial c hc m' r hm' hr hz u hu n hn hmax (by omega)⟩

/-- 30 minutes at 12:10 are taken back, 70 minutes are not. -/
example : SubRight (at_ 2017 1 1 12 10 0) (at_ 2017 1 1 11 40 0) 30 .minute ∧
    ¬ SubRight (at_ 2017 1 1 12 10 0) (at_ 2017 1 1 11 0 0) 70 .minute ∧
    (at_ 2017 1 1 11 0 0).instant = (at_ 2017 1 1 12 10 0).instant - 70 * TUnit.secs .minute := by
  refine ⟨⟨by decide, by decide⟩, fun h => ?_, by decide +kernel⟩
  exact absurd h.1 (by decide)

/-- **C39, exactly when it holds (partial)**, for every step in seconds, minutes, hours or days: if and only if subtracting goes right, and the item is not
on 31 January with the one before it in the year before. (Steps over 118 seconds, 118 minutes, 47 hours and 61 days are never taken back.) -/
theorem C39_any_step_iff_partial (c : Cfg) (hc : Sane c) (it it' : Iter) (r m' : Moment) (hr : r.Valid c) (hz : r.nano = 0)
    (hm' : m'.Valid c) (hz' : m'.nano = 0)
    (u : TUnit) (hu : u = .second ∨ u = .minute ∨ u = .hour ∨ u = .day) (n : Int) (hn : 0 ≤ n)
    (hinc : it.increment = amt u n) (hi : m'.instant = r.instant - n * u.secs)
    (h : it.next c = (it', some (.ok (.moment r)))) :
    ((it'.rollback c).2 = .ok () ∧ ((it'.rollback c).1.next c).2 = some (.ok (.moment r))) ↔
      SubRight r m' n u ∧ (m'.year = r.year ∨ ¬ (r.month = 1 ∧ r.day = 31)) := by
  have hs := state_after_item h
  rw [hinc] at hs
  subst hs
  rw [rollback_iff]
  constructor
  · rintro ⟨q, h1, h2⟩
    have hq : q.Valid c := C15_results_are_dates c _ q (by
      simp only [TT.hsub_def, AllMoments]; exact ⟨hr, by cases u <;> trivial⟩) h1
    have hqn : q.nano = 0 := C15_whole_seconds c _ q (by
      simp only [TT.hsub_def, AllMoments]; exact ⟨⟨hr, hz⟩, by cases u <;> trivial⟩) h1
    have hqi := there_and_back hc hq hr u hu n hn (by have := instants_close hc hr hm'; omega) h2 h1
    have hqm : q = m' := moment_eq hq hm' (by omega) (by omega)
    subst hqm
    refine ⟨(C21_exact_iff_partial c hc r q hr hm' hz' u hu n hn hi).1 h1, ?_⟩
    have := (C16_exact_iff_partial c hc q r hm' hr hz u hu n hn hqi).1 h2
    omega
  · rintro ⟨h1, h2⟩
    exact ⟨m', (C21_exact_iff_partial c hc r m' hr hm' hz' u hu n hn hi).2 h1,
      add_right_of_sub hc hm' hr hz u hu n hn (by omega) h1 (by omega)⟩

/-- 61 days before 31 August is 1 July; 62 days before 1 September is 1 July as well, but not taken back. -/
example : SubRight (at_ 2017 8 31 0 0 0) (at_ 2017 7 1 0 0 0) 61 .day ∧ ¬ SubRight (at_ 2017 9 1 0 0 0) (at_ 2017 7 1 0 0 0) 62 .day ∧
    (at_ 2017 7 1 0 0 0).instant = (at_ 2017 8 31 0 0 0).instant - 61 * TUnit.secs .day ∧
    Iter.rollback (std .debug) (live (at_ 2017 8 31 0 0 0) (.days 61)) = (live (at_ 2017 7 1 0 0 0) (.days 61), .ok ()) := by
  refine ⟨.inr (by decide +kernel), ?_, by decide +kernel, by decide +kernel⟩
  rintro (h | h)
  · exact absurd h.2 (by decide)
  · exact absurd h.1 (by decide +kernel)

/-- **C39, months, exactly when it holds (partial)**: fewer than 12 months plus the number of the month, the month `(Y, M)`
so many months before has the day of the item, and for the 31st it is in the same year. -/
theorem C39_months_iff_partial (c : Cfg) (hc : Sane c) (it it' : Iter) (r : Moment) (hr : r.Valid c) (hz : r.nano = 0)
    (n : Int) (hn : 0 ≤ n) (hmax : n ≤ 4000000000) (hinc : it.increment = .months n) (Y M : Int) (hM : 1 ≤ M ∧ M ≤ 12)
    (hi : Cal.monthIndex Y M = Cal.monthIndex r.year r.month - n) (h : it.next c = (it', some (.ok (.moment r)))) :
    ((it'.rollback c).2 = .ok () ∧ ((it'.rollback c).1.next c).2 = some (.ok (.moment r))) ↔
      n < r.month + 12 ∧ r.day ≤ Cal.monthLen Y M ∧ c.minYear ≤ Y ∧ (r.day ≤ 30 ∨ Y = r.year) := by
  have hs := state_after_item h
  rw [hinc] at hs
  subst hs
  rw [show TT.months n = amt .month n from rfl, rollback_iff]
  have hr' := hr
  obtain ⟨a1, a2, ⟨a3, a4, a5, a6⟩, t, a7⟩ := hr'
  have hi' := hi
  unfold Cal.monthIndex at hi'
  have fwd (h2 : r.day ≤ Cal.monthLen Y M) (h3 : c.minYear ≤ Y) :
      calculate c (.moment { r with year := Y, month := M, nano := 0 } + .months n) = .ok (.moment r) ↔ (r.day ≤ 30 ∨ Y = r.year) := by
    have hv : ({ r with year := Y, month := M, nano := 0 } : Moment).Valid c :=
      ⟨h3, by simp only; omega, ⟨hM.1, hM.2, a5, h2⟩, t, by simp, by simp⟩
    have := C17_exact_iff_partial c hc { r with year := Y, month := M, nano := 0 } r hv hr n hn (by simp only; omega)
      (by cases r; simp only at hz; subst hz; rfl)
    simp only at this
    rw [this]
    exact or_congr_right ⟨fun h => h.symm, fun h => h.symm⟩
  rcases C22_subtracting_months_partial c hc r hr n hn (by omega) Y M hM hi with ⟨h1, h2, h3, e⟩ | ⟨h1, Y', M', D, H, MI, S, e⟩
  · constructor
    · rintro ⟨q, e1, e2⟩
      have e1' : calculate c (.moment r - .months n) = .ok (.moment q) := e1
      rw [e] at e1'
      rw [← ok_moment_inj e1'] at e2
      exact ⟨h1, h2, h3, (fwd h2 h3).1 e2⟩
    · rintro ⟨-, -, -, h4⟩
      exact ⟨_, e, (fwd h2 h3).2 h4⟩
  · constructor
    · rintro ⟨q, e1, -⟩
      have e1' : calculate c (.moment r - .months n) = .ok (.moment q) := e1
      rw [e] at e1'; cases e1'
    · rintro ⟨g1, g2, g3, -⟩; omega

/-- The 31st: back within the year, but not over New Year (1 January the year after: December has a 31st, but the
addition then goes wrong). -/
example : (31 : Int) ≤ Cal.monthLen 2017 5 ∧ Cal.monthIndex 2017 5 = Cal.monthIndex 2017 7 - 2 ∧
    (31 : Int) ≤ Cal.monthLen 2016 12 ∧ Cal.monthIndex 2016 12 = Cal.monthIndex 2017 1 - 1 ∧
    Iter.next (std .debug) (Iter.rollback (std .debug) (live (at_ 2017 7 31 0 0 0) (.months 2))).1 =
      (live (at_ 2017 7 31 0 0 0) (.months 2), some (.ok (.moment (at_ 2017 7 31 0 0 0)))) ∧
    Iter.next (std .debug) (Iter.rollback (std .debug) (live (at_ 2017 1 31 0 0 0) (.months 1))).1 =
      (live (at_ 2017 2 1 0 0 0) (.months 1), some (.ok (.moment (at_ 2017 2 1 0 0 0)))) := by decide +kernel

/-- **C39, years, exactly when it holds (partial)**: the year `n` years before is in chrono's range and, for 29 February,
a leap year. Years up to 2·10^9 of either sign. -/
theorem C39_years_iff_partial (c : Cfg) (hc : Sane c) (it it' : Iter) (r : Moment) (hr : r.Valid c) (hz : r.nano = 0)
    (n : Int) (hn : -2000000000 ≤ n) (hmax : n ≤ 2000000000) (hinc : it.increment = .years n)
    (h : it.next c = (it', some (.ok (.moment r)))) :
    ((it'.rollback c).2 = .ok () ∧ ((it'.rollback c).1.next c).2 = some (.ok (.moment r))) ↔
      c.minYear ≤ r.year - n ∧ r.year - n ≤ c.maxYear ∧ Cal.ValidDate (r.year - n) r.month r.day := by
  have hs := state_after_item h
  rw [hinc] at hs
  subst hs
  rw [show TT.years n = amt .year n from rfl, rollback_iff]
  have hc' := hc
  unfold Sane at hc'
  have hr' := hr
  obtain ⟨a1, a2, ⟨a3, a4, a5, a6⟩, t, a7⟩ := hr'
  have e := C23_subtracting_years_partial c r hr n (by omega) (by omega)
  by_cases hv : c.minYear ≤ r.year - n ∧ r.year - n ≤ c.maxYear ∧ Cal.ValidDate (r.year - n) r.month r.day
  · rw [if_pos hv] at e
    refine ⟨fun _ => hv, fun _ => ⟨_, e, ?_⟩⟩
    have hq : ({ r with year := r.year - n, nano := 0 } : Moment).Valid c := ⟨hv.1, hv.2.1, hv.2.2, t, by simp, by simp⟩
    have f := C18_adding_years_partial c _ hq n (by simp only; omega) (by simp only; omega)
    have ey : r.year - n + n = r.year := by omega
    simp only [ey] at f
    rw [if_neg (by omega), if_neg ?_] at f
    · rw [show amt .year n = TT.years n from rfl, f]
      congr 2; cases r; simp only at hz; subst hz; rfl
    · rintro ⟨g1, g2, g3⟩
      rw [g1, g2] at a6
      simp [Cal.monthLen, g3] at a6
  · rw [if_neg hv] at e
    refine ⟨?_, fun h => absurd h hv⟩
    rintro ⟨q, e1, -⟩
    have e1' : calculate c (.moment r - .years n) = .ok (.moment q) := e1
    rw [e] at e1'; cases e1'

example : Cal.ValidDate (2016 - 4) 2 29 ∧ ¬ Cal.ValidDate (2016 - 1) 2 29 ∧
    (Iter.rollback (std .debug) (live (at_ 2016 2 29 0 0 0) (.years 1))).2 = .err (.outOfBounds 2015 2 0 0 0 0) := by decide +kernel

end Props
