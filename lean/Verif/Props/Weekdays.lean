import Verif.Props.Adaptors
import Verif.Lemmas.Periodic

/-!
# C66–C68: weekdays and months along an iterator
-/

namespace Props
open Kairos Spec

/-- Same second of the day, `N` days later. -/
def DaysLater (m r : Moment) (N : Int) : Prop :=
  Cal.dayNumber r.year r.month r.day = Cal.dayNumber m.year m.month m.day + N ∧
  r.hour = m.hour ∧ r.minute = m.minute ∧ r.second = m.second

theorem daysLater_of_instant {c : Cfg} {m r : Moment} {N : Int} (hm : m.Valid c) (hr : r.Valid c)
    (h : r.instant = m.instant + N * 86400) : DaysLater m r N := by
  obtain ⟨-, -, -, ⟨h1, h2, h3, h4, h5, h6⟩, -⟩ := hm
  obtain ⟨-, -, -, ⟨g1, g2, g3, g4, g5, g6⟩, -⟩ := hr
  unfold Moment.instant Cal.instant at h
  unfold DaysLater
  generalize Cal.dayNumber r.year r.month r.day = x at *
  generalize Cal.dayNumber m.year m.month m.day = y at *
  omega

theorem weekday_of_daysLater {m r : Moment} {N : Int} (h : DaysLater m r N) : r.weekday = (m.weekday + N) % 7 := by
  unfold Moment.weekday Cal.weekday
  rw [h.1]
  omega

/-! ## C66 -/

/-- **C66.** An iterator in steps of up to 30 days keeps the time of day; its item at position `k` is `k * n` days after the
base, and on the weekday that many days on. -/
theorem C66_daily_weekday (c : Cfg) (hc : Sane c) (m : Moment) (hm : m.Valid c) (n : Int) (hn : 0 ≤ n ∧ n ≤ 30) (it : Iter)
    (hit : Ext.daily (.moment m) n = .ok it) (k : Nat) (r : Moment) (h : nth (Iter.next c) k it = some (.ok (.moment r))) :
    r.weekday = (m.weekday + k * n) % 7 ∧ DaysLater m r (k * n) := by
  have hb : Iter.build m (amt .day n) = .ok it := by
    rw [(C33_named c (.moment m) n).2.2.1, (C33_every _ _).1 m rfl] at hit; exact hit
  rcases C34_kth_item c hc m hm .day (by simp) n hn.1 (by simp only [TUnit.secs]; omega) it hb k with
    ⟨r', h1, v, i, -⟩ | ⟨-, Y, M, D, H, MI, S, h1⟩
  · rw [h1] at h
    cases h
    have hd : DaysLater m r (k * n) := daysLater_of_instant hm v (by
      rw [i]
      simp only [TUnit.secs]
      rw [← Int.mul_assoc]; omega)
    exact ⟨weekday_of_daysLater hd, hd⟩
  · rw [h1] at h; cases h

example := C66_daily_weekday (std .debug) (sane_std _) (at_ 2017 1 31 0 0 0) (by decide) 3 (by decide) _ rfl 2 (at_ 2017 2 6 0 0 0) (by decide +kernel)

/-- **C66.** A weekly iterator (every one to four weeks) stays on the weekday it starts on. -/
theorem C66_weekly_weekday (c : Cfg) (hc : Sane c) (m : Moment) (hm : m.Valid c) (n : Int) (hn : 0 ≤ n ∧ n ≤ 4) (it : Iter)
    (hit : Ext.weekly c (.moment m) n = .ok it) (k : Nat) (r : Moment)
    (h : nth (Iter.next c) k it = some (.ok (.moment r))) : r.weekday = m.weekday ∧ DaysLater m r (7 * (k * n)) := by
  have hd : Ext.daily (.moment m) (7 * n) = .ok it := by
    rw [(C33_named c (.moment m) (7 * n)).2.2.1, ← (C33_named c (.moment m) n).2.2.2.2.2.1 (by omega)]; exact hit
  have := C66_daily_weekday c hc m hm (7 * n) (by omega) it hd k r h
  have e : (k : Int) * (7 * n) = 7 * (k * n) := by rw [Int.mul_left_comm]
  rw [e] at this
  refine ⟨?_, this.2⟩
  rw [this.1]
  unfold Moment.weekday Cal.weekday
  omega

/-- A Sunday, 300 weeks later, past several leap days. -/
example : nth (Iter.next (std .debug)) 150 ⟨.moment (at_ 2017 1 1 10 30 0), .days 14, false⟩ =
    some (.ok (.moment (at_ 2022 10 2 10 30 0))) ∧ (at_ 2022 10 2 10 30 0).weekday = 6 ∧ (at_ 2017 1 1 10 30 0).weekday = 6 ∧
    Ext.weekly (std .debug) (.moment (at_ 2017 1 1 10 30 0)) 2 =
      .ok ⟨.moment (at_ 2017 1 1 10 30 0), .days 14, false⟩ := by decide +kernel

/-! ## C67 -/

/-- **C67.** `daily(1).every(day)`: the item at position `q` falls on that weekday, `7 q` days after the first such day from the
base on (the base included), at the time of day of the base; or it is an OutOfBounds error, if that is past
chrono's last year. No call looks at more than 7 days. -/
theorem C67_daily_every (c : Cfg) (hc : Sane c) (m : Moment) (hm : m.Valid c) (d : Day) (it : Iter)
    (hit : Ext.daily (.moment m) 1 = .ok it) (fuel : Nat) (hf : 7 ≤ fuel) (q : Nat) :
    (∃ r, nth (filterNext (Iter.next c) d.matches fuel) q it = some (.ok (.moment r)) ∧ r.Valid c ∧
      (TT.moment r).isA d = .ok true ∧ DaysLater m r ((d.into - m.weekday) % 7 + 7 * q)) ∨
    (Cal.instant (c.maxYear + 1) 1 1 0 0 0 ≤ m.instant + ((d.into - m.weekday) % 7 + 7 * q) * 86400 ∧
      ∃ Y M D H MI S, nth (filterNext (Iter.next c) d.matches fuel) q it = some (.err (.outOfBounds Y M D H MI S))) := by
  have hb : Iter.build m (amt .day 1) = .ok it := by
    rw [(C33_named c (.moment m) 1).2.2.1, (C33_every _ _).1 m rfl] at hit; exact hit
  have hb' : it = ⟨.moment m, amt .day 1, false⟩ := by
    rw [(C33_build m (amt .day 1)).1 ⟨_, _, rfl⟩] at hb; cases hb; rfl
  have hkth := C34_kth_item c hc m hm .day (by simp) 1 (by decide) (by decide) it hb
  have hd0 : 0 ≤ d.into ∧ d.into < 7 := by cases d <;> decide
  have hw : 0 ≤ m.weekday ∧ m.weekday < 7 := by unfold Moment.weekday Cal.weekday; omega
  have key := filter_periodic (nx := Iter.next c) (M := d.matches) (s := it) (p := 7) (off := ((d.into - m.weekday) % 7).toNat)
    (by omega) hf (fun k => by
      rcases hkth k with ⟨r, h1, v, i, -⟩ | ⟨-, Y, M, D, H, MI, S, h1⟩
      · left
        refine ⟨_, h1, ?_⟩
        have hw' := weekday_of_daysLater (daysLater_of_instant (N := k) hm v (by rw [i]; simp only [TUnit.secs]; omega))
        simp only [Day.matches, TT.getMoment, Option.map_some, OutE.ofOption]
        congr 1
        rw [Bool.eq_iff_iff]
        simp only [beq_iff_eq]
        omega
      · right
        subst hb'
        exact ⟨_, fun j hj => built_err_forever rfl h1 j hj⟩) q
  rw [key]
  have hcast : ((((d.into - m.weekday) % 7).toNat + 7 * q : Nat) : Int) = (d.into - m.weekday) % 7 + 7 * q := by omega
  rcases hkth (((d.into - m.weekday) % 7).toNat + 7 * q) with ⟨r, h1, v, i, -⟩ | ⟨hi, Y, M, D, H, MI, S, h1⟩
  · left
    rw [hcast] at i
    have hdl := daysLater_of_instant (N := (d.into - m.weekday) % 7 + 7 * q) hm v (by rw [i]; simp only [TUnit.secs]; omega)
    refine ⟨r, h1, v, ?_, hdl⟩
    have := weekday_of_daysLater hdl
    simp only [TT.isA]
    congr 1
    rw [beq_iff_eq]
    omega
  · right
    rw [hcast] at hi
    exact ⟨by simp only [TUnit.secs] at hi; omega, Y, M, D, H, MI, S, h1⟩

/-- From Sunday 1 January 2017: the sixth Monday is 6 February. -/
example : nth (filterNext (Iter.next (std .debug)) Day.monday.matches 7) 5 ⟨.moment (at_ 2017 1 1 10 30 0), .days 1, false⟩ =
    some (.ok (.moment (at_ 2017 2 6 10 30 0))) ∧ (at_ 2017 1 1 10 30 0).Valid (std .debug) ∧
    (Day.monday.into - (at_ 2017 1 1 10 30 0).weekday) % 7 = 1 := by decide +kernel

/-! ## C68 -/

/-- **C68.** `monthly(1).every(month)` from a day up to the 28th: the item at position `q` is in that month, in the year of the
first such month from the base on plus `q`, on the same day and at the same time; or it is an OutOfBounds
error, if that is past chrono's last year. No call looks at more than 12 months. -/
theorem C68_monthly_every (c : Cfg) (hc : Sane c) (m : Moment) (hm : m.Valid c) (hd : m.day ≤ 28) (mo : Month) (it : Iter)
    (hit : Ext.monthly (.moment m) 1 = .ok it) (fuel : Nat) (hf : 12 ≤ fuel) (q : Nat) :
    ∃ Y, Y = (if m.month ≤ mo.into then m.year else m.year + 1) + q ∧
    ((Y ≤ c.maxYear ∧ ∃ r, nth (filterNext (Iter.next c) mo.matches fuel) q it = some (.ok (.moment r)) ∧
        r.year = Y ∧ r.month = mo.into ∧ r.day = m.day ∧ r.hour = m.hour ∧ r.minute = m.minute ∧ r.second = m.second) ∨
     (c.maxYear < Y ∧ ∃ Y' M D H MI S,
        nth (filterNext (Iter.next c) mo.matches fuel) q it = some (.err (.outOfBounds Y' M D H MI S)))) := by
  refine ⟨_, rfl, ?_⟩
  have hb : Iter.build m (.months 1) = .ok it := by
    rw [(C33_named c (.moment m) 1).2.2.2.1, (C33_every _ _).1 m rfl] at hit; exact hit
  have hb' : it = ⟨.moment m, amt .month 1, false⟩ := by
    rw [(C33_build m (.months 1)).1 ⟨.month, _, rfl⟩] at hb; cases hb; rfl
  have hkth := C35_monthly c hc m hm hd 1 (by decide) (by decide) it hb
  have hd0 : 1 ≤ mo.into ∧ mo.into ≤ 12 := by cases mo <;> decide
  have hm0 : 1 ≤ m.month ∧ m.month ≤ 12 := ⟨hm.2.2.1.1, hm.2.2.1.2.1⟩
  have key := filter_periodic (nx := Iter.next c) (M := mo.matches) (s := it) (p := 12)
    (off := ((mo.into - m.month) % 12).toNat)
    (by omega) hf (fun k => by
      obtain ⟨Y, M, h1, h2, h3, h4⟩ := hkth k
      rcases h4 with ⟨-, h4⟩ | ⟨-, Y', M', D, H, MI, S, h4⟩
      · left
        refine ⟨_, h4, ?_⟩
        simp only [Month.matches, TT.getMoment, Option.map_some, OutE.ofOption]
        congr 1
        rw [Bool.eq_iff_iff]
        simp only [beq_iff_eq]
        unfold Cal.monthIndex at h3
        omega
      · right
        subst hb'
        exact ⟨_, fun j hj => built_err_forever rfl h4 j hj⟩) q
  rw [key]
  obtain ⟨Y, M, h1, h2, h3, h4⟩ := hkth (((mo.into - m.month) % 12).toNat + 12 * q)
  have hcast : ((((mo.into - m.month) % 12).toNat + 12 * q : Nat) : Int) = (mo.into - m.month) % 12 + 12 * q := by omega
  rw [hcast] at h3
  have hYM : M = mo.into ∧ Y = (if m.month ≤ mo.into then m.year else m.year + 1) + q := by
    unfold Cal.monthIndex at h3
    split <;> omega
  rw [← hYM.2]
  rcases h4 with ⟨hY, h4⟩ | ⟨hY, Y', M', D, H, MI, S, h4⟩
  · left
    exact ⟨hY, _, h4, rfl, hYM.1, rfl, rfl, rfl, rfl⟩
  · right
    exact ⟨hY, Y', M', D, H, MI, S, h4⟩

/-- From June 2017: the third February is that of 2020. -/
example : nth (filterNext (Iter.next (std .debug)) Month.february.matches 12) 2 ⟨.moment (at_ 2017 6 15 10 30 0), .months 1, false⟩ =
    some (.ok (.moment (at_ 2020 2 15 10 30 0))) ∧ (at_ 2017 6 15 10 30 0).Valid (std .debug) := by decide +kernel

end Props
