import Verif.Props.Adaptors

/-!
# C84: how many items an iterator with an end date has
-/

namespace Props
open Kairos Spec

/-- **C84.** An iterator in steps of `n ≥ 1` seconds, minutes, hours or days (up to 30 days) `until(ending)` has as
many items as steps are needed from the start to reach the end: the distance divided by the step, rounded up (none, if
the end is not after the start). After these it ends (or, if the next step leads past chrono's last year, it reports
that). Start and end on whole seconds. -/
theorem C84_until_count (c : Cfg) (hc : Sane c) (m ending : Moment) (hm : m.Valid c) (he : ending.Valid c)
    (hz : m.nano = 0) (hz' : ending.nano = 0) (u : TUnit)
    (hu : u = .second ∨ u = .minute ∨ u = .hour ∨ u = .day) (n : Int) (hn : 1 ≤ n)
    (hmax : n * u.secs ≤ 30 * 86400) (it : Iter) (hit : Iter.build m (amt u n) = .ok it) (N : Nat)
    (hN : N = ((ending.instant - m.instant + n * u.secs - 1) / (n * u.secs)).toNat) :
    (∀ k : Nat, k < N → ∃ r : Moment, nth (untilNext c (Iter.next c) ending) k it = some (.ok (.moment r)) ∧
      r.instant = m.instant + k * (n * u.secs)) ∧
    (nth (untilNext c (Iter.next c) ending) N it = none ∨
      (Cal.instant (c.maxYear + 1) 1 1 0 0 0 ≤ m.instant + N * (n * u.secs) ∧
        ∃ Y M D H MI S, nth (untilNext c (Iter.next c) ending) N it = some (.err (.outOfBounds Y M D H MI S)))) := by
  have hpos : 0 < n * u.secs := Int.mul_pos (by omega) (by cases u <;> decide)
  have hk := C34_kth_item c hc m hm u hu n (by omega) hmax it hit
  have hlast := moment_lt_end he
  generalize n * u.secs = s at *
  have e1 := Int.ediv_mul_le (ending.instant - m.instant + s - 1) (b := s) (by omega)
  have e2 := Int.lt_ediv_add_one_mul_self (ending.instant - m.instant + s - 1) hpos
  rw [Int.add_mul] at e2
  constructor
  · intro k hlt
    have h1 : (k : Int) + 1 ≤ (ending.instant - m.instant + s - 1) / s := by omega
    have h2 := Int.mul_le_mul_of_nonneg_right h1 (Int.le_of_lt hpos)
    rw [Int.add_mul] at h2
    have hlt' : m.instant + k * s < ending.instant := by omega
    rcases hk k with ⟨r, g1, g2, g3, g4⟩ | ⟨g1, -⟩
    · refine ⟨r, ?_, g3⟩
      rw [(C41_until c _ ending _ k).1 r g1 g2 he, if_pos (by omega)]
    · omega
  · rcases hk N with ⟨r, g1, g2, g3, g4⟩ | ⟨g1, Y, M, D, H, MI, S, g2⟩
    · left
      have hge : ending.instant ≤ m.instant + N * s := by
        by_cases h0 : 0 ≤ (ending.instant - m.instant + s - 1) / s
        · have : (N : Int) = (ending.instant - m.instant + s - 1) / s := by omega
          rw [this]; omega
        · have h1 : (ending.instant - m.instant + s - 1) / s + 1 ≤ 0 := by omega
          have h2 := Int.mul_le_mul_of_nonneg_right h1 (Int.le_of_lt hpos)
          rw [Int.add_mul] at h2
          have : 0 ≤ (N : Int) * s := Int.mul_nonneg (by omega) (by omega)
          omega
      have hr0 : r.nano = 0 := by rw [g4]; split <;> simp [hz]
      rw [(C41_until c _ ending _ N).1 r g1 g2 he, if_neg (by omega)]
    · exact .inr ⟨g1, Y, M, D, H, MI, S, (C41_until c _ ending _ N).2.1 _ g2⟩

/-- 50 minutes in steps of 20 minutes: three items. -/
example : ((at_ 2017 1 1 0 50 0).instant - (at_ 2017 1 1 0 0 0).instant + 20 * TUnit.secs .minute - 1) /
      (20 * TUnit.secs .minute) = 3 ∧
    items (untilNext (std .debug) (Iter.next (std .debug)) (at_ 2017 1 1 0 50 0)) 4 ⟨.moment (at_ 2017 1 1 0 0 0), .minutes 20, false⟩ =
      [some (.ok (.moment (at_ 2017 1 1 0 0 0))), some (.ok (.moment (at_ 2017 1 1 0 20 0))),
       some (.ok (.moment (at_ 2017 1 1 0 40 0))), none] := by decide +kernel

/-- **C84, the days of a year**: a daily iterator from any time on 1 January until that time on the next has 366 items in a
leap year and 365 otherwise. -/
theorem C84_days_of_a_year (c : Cfg) (hc : Sane c) (m : Moment) (hm : m.Valid c) (hz : m.nano = 0)
    (hd : m.month = 1 ∧ m.day = 1) (hy : m.year < c.maxYear) (it : Iter) (hit : Iter.build m (.days 1) = .ok it) (k : Nat) :
    (k < (if Cal.isLeap m.year then 366 else 365) → ∃ r : Moment,
      nth (untilNext c (Iter.next c) { m with year := m.year + 1 }) k it = some (.ok (.moment r)) ∧
      r.instant = m.instant + k * 86400) ∧
    (k = (if Cal.isLeap m.year then 366 else 365) →
      nth (untilNext c (Iter.next c) { m with year := m.year + 1 }) k it = none) := by
  have hm' := hm
  obtain ⟨a1, a2, ⟨a3, a4, a5, a6⟩, t, a7⟩ := hm'
  have he : ({ m with year := m.year + 1 } : Moment).Valid c := by
    refine ⟨by simp only; omega, by simp only; omega, ⟨a3, a4, a5, ?_⟩, t, a7⟩
    simp only [hd.1, hd.2]; simp [Cal.monthLen]
  have hdist : ({ m with year := m.year + 1 } : Moment).instant - m.instant =
      (if Cal.isLeap m.year then 366 else 365) * 86400 := by
    have hs := Cal.daysBeforeYear_succ m.year
    unfold Cal.yearLen at hs
    unfold Moment.instant Cal.instant Cal.dayNumber
    simp only [hd.1, hd.2]
    rw [show Cal.daysBeforeMonth (m.year + 1) 1 = 0 by simp [Cal.daysBeforeMonth],
      show Cal.daysBeforeMonth m.year 1 = 0 by simp [Cal.daysBeforeMonth]]
    omega
  obtain ⟨h1, h2⟩ := C84_until_count c hc m _ hm he hz hz .day (by simp) 1 (by decide) (by decide) it hit
    (if Cal.isLeap m.year then 366 else 365) (by rw [hdist]; split <;> decide)
  refine ⟨fun h => h1 k h, ?_⟩
  rintro rfl
  rcases h2 with h2 | ⟨h2, -⟩
  · exact h2
  · exfalso
    have := moment_lt_end he
    simp only [TUnit.secs] at h2
    split at hdist <;> rename_i hl <;> simp only [hl] at h2 <;> simp at h2 <;> omega

example (k : Nat) := C84_days_of_a_year (std .debug) (sane_std _) (at_ 2020 1 1 8 0 0) (by decide) rfl (by decide) (by decide)
  ⟨.moment (at_ 2020 1 1 8 0 0), .days 1, false⟩ rfl k

/-- Position within the month, in seconds. -/
def inMonth (m : Moment) : Int := m.day * 86400 + m.hour * 3600 + m.minute * 60 + m.second

/-- Dates are ordered by month, and within a month by the position in it. -/
theorem instant_lt_iff {c : Cfg} {m e : Moment} (hm : m.Valid c) (he : e.Valid c) :
    m.instant < e.instant ↔ Cal.monthIndex m.year m.month < Cal.monthIndex e.year e.month ∨
      (Cal.monthIndex m.year m.month = Cal.monthIndex e.year e.month ∧ inMonth m < inMonth e) := by
  have key : ∀ a b : Moment, a.Valid c → b.Valid c →
      Cal.monthIndex a.year a.month < Cal.monthIndex b.year b.month → a.instant < b.instant := by
    intro a b ha hb h
    obtain ⟨-, -, va, ⟨p1, p2, p3, p4, p5, p6⟩, -⟩ := ha
    obtain ⟨-, -, vb, ⟨q1, q2, q3, q4, q5, q6⟩, -⟩ := hb
    have h1 := va.1; have h2 := va.2.1; have h3 := vb.1; have h4 := vb.2.1
    have := Cal.dayNumber_lt va vb (by unfold Cal.monthIndex at h; omega)
    unfold Moment.instant Cal.instant
    omega
  by_cases h : Cal.monthIndex m.year m.month = Cal.monthIndex e.year e.month
  · have hy : m.year = e.year ∧ m.month = e.month := by
      have h1 := hm.2.2.1.1; have h2 := hm.2.2.1.2.1; have h3 := he.2.2.1.1; have h4 := he.2.2.1.2.1
      unfold Cal.monthIndex at h; omega
    unfold inMonth Moment.instant Cal.instant Cal.dayNumber
    rw [hy.1, hy.2]
    omega
  · by_cases hlt : Cal.monthIndex m.year m.month < Cal.monthIndex e.year e.month
    · have := key m e hm he hlt; omega
    · have := key e m he hm (by omega); omega

/-- **C84, months.** From a day up to the 28th, in steps of `n ≥ 1` months, `until(ending)`: the number of items is the
number of months to the end, one more if the end is later in its month than the start in its, divided by the step and
rounded up. Then it ends (or reports that the next one is past chrono's last year). -/
theorem C84_until_months (c : Cfg) (hc : Sane c) (m ending : Moment) (hm : m.Valid c) (he : ending.Valid c)
    (hz : m.nano = 0) (hz' : ending.nano = 0) (hd : m.day ≤ 28) (n : Int) (hn : 1 ≤ n) (hmax : n ≤ 24000000000)
    (it : Iter) (hit : Iter.build m (.months n) = .ok it) (D : Int) (N : Nat)
    (hD : D = Cal.monthIndex ending.year ending.month - Cal.monthIndex m.year m.month +
      if inMonth m < inMonth ending then 1 else 0)
    (hN : N = ((D + n - 1) / n).toNat) :
    (∀ k : Nat, k < N → ∃ r : Moment, nth (untilNext c (Iter.next c) ending) k it = some (.ok (.moment r)) ∧
      Cal.monthIndex r.year r.month = Cal.monthIndex m.year m.month + k * n ∧ inMonth r = inMonth m) ∧
    (nth (untilNext c (Iter.next c) ending) N it = none ∨
      (Cal.monthIndex c.maxYear 12 < Cal.monthIndex m.year m.month + N * n ∧
        ∃ Y M D H MI S, nth (untilNext c (Iter.next c) ending) N it = some (.err (.outOfBounds Y M D H MI S)))) := by
  have hk := C35_monthly c hc m hm hd n (by omega) hmax it hit
  have hpos : 0 < n := by omega
  have e1 := Int.ediv_mul_le (D + n - 1) (b := n) (by omega)
  have e2 := Int.lt_ediv_add_one_mul_self (D + n - 1) hpos
  rw [Int.add_mul] at e2
  have hm' := hm
  obtain ⟨a1, a2, ⟨a3, a4, a5, a6⟩, t, a7⟩ := hm'
  have valid (Y M : Int) (k : Nat) (h1 : 1 ≤ M) (h2 : M ≤ 12) (h3 : Y ≤ c.maxYear)
      (hi : Cal.monthIndex Y M = Cal.monthIndex m.year m.month + k * n) :
      ({ m with year := Y, month := M, nano := if k = 0 then m.nano else 0 } : Moment).Valid c := by
    have := Cal.monthLen_bounds (y := Y) h1 h2
    have hkn : 0 ≤ (k : Int) * n := Int.mul_nonneg (by omega) (by omega)
    unfold Cal.monthIndex at hi
    refine ⟨by simp only; omega, h3, ⟨h1, h2, a5, by simp only; omega⟩, t, ?_⟩
    simp only; split <;> omega
  have lt (Y M : Int) (k : Nat) (h1 : 1 ≤ M) (h2 : M ≤ 12) (h3 : Y ≤ c.maxYear)
      (hi : Cal.monthIndex Y M = Cal.monthIndex m.year m.month + k * n) :
      ({ m with year := Y, month := M, nano := if k = 0 then m.nano else 0 } : Moment).instant < ending.instant ↔ k * n < D := by
    rw [instant_lt_iff (valid Y M k h1 h2 h3 hi) he]
    simp only
    rw [hi, hD, show inMonth { m with year := Y, month := M, nano := if k = 0 then m.nano else 0 } = inMonth m from rfl]
    split <;> omega
  constructor
  · intro k hlt
    have h1 : (k : Int) + 1 ≤ (D + n - 1) / n := by omega
    have h2 := Int.mul_le_mul_of_nonneg_right h1 (Int.le_of_lt hpos)
    rw [Int.add_mul] at h2
    obtain ⟨Y, M, g1, g2, g3, g4⟩ := hk k
    have hY : Y ≤ c.maxYear := by
      have := he.2.1; have := he.2.2.1.2.1; have := he.2.2.1.1
      unfold Cal.monthIndex at g3 hD
      split at hD <;> omega
    rcases g4 with ⟨-, g4⟩ | ⟨g4, -⟩
    · refine ⟨{ m with year := Y, month := M, nano := if k = 0 then m.nano else 0 }, ?_, g3, rfl⟩
      rw [(C41_until c _ ending _ k).1 _ g4 (valid Y M k g1 g2 hY g3) he,
        if_pos (.inl ((lt Y M k g1 g2 hY g3).mpr (by omega)))]
    · omega
  · obtain ⟨Y, M, g1, g2, g3, g4⟩ := hk N
    rcases g4 with ⟨hY, g4⟩ | ⟨hY, Y', M', D', H, MI, S, g4⟩
    · left
      have hge : D ≤ N * n := by
        by_cases h0 : 0 ≤ (D + n - 1) / n
        · have : (N : Int) = (D + n - 1) / n := by omega
          rw [this]; omega
        · have h1 : (D + n - 1) / n + 1 ≤ 0 := by omega
          have h2 := Int.mul_le_mul_of_nonneg_right h1 (Int.le_of_lt hpos)
          rw [Int.add_mul] at h2
          have : 0 ≤ (N : Int) * n := Int.mul_nonneg (by omega) (by omega)
          omega
      have hnot := mt (lt Y M N g1 g2 hY g3).mp (by omega)
      rw [(C41_until c _ ending _ N).1 _ g4 (valid Y M N g1 g2 hY g3) he, if_neg]
      rintro (h | ⟨-, h⟩)
      · exact hnot h
      · simp only at h
        split at h <;> omega
    · refine .inr ⟨by unfold Cal.monthIndex at *; omega, Y', M', D', H, MI, S, (C41_until c _ ending _ N).2.1 _ g4⟩

/-- From 15 January until 1 June in steps of two months: January, March, May. -/
example : items (untilNext (std .debug) (Iter.next (std .debug)) (at_ 2017 6 1 0 0 0)) 4 ⟨.moment (at_ 2017 1 15 0 0 0), .months 2, false⟩ =
      [some (.ok (.moment (at_ 2017 1 15 0 0 0))), some (.ok (.moment (at_ 2017 3 15 0 0 0))),
       some (.ok (.moment (at_ 2017 5 15 0 0 0))), none] ∧
    ¬ inMonth (at_ 2017 1 15 0 0 0) < inMonth (at_ 2017 6 1 0 0 0) ∧
    (Cal.monthIndex 2017 6 - Cal.monthIndex 2017 1 + 0 + 2 - 1) / 2 = 3 := by decide +kernel

/-- The moment is earlier in its year than the other in its own. -/
def EarlierInYear (m e : Moment) : Prop := m.month < e.month ∨ (m.month = e.month ∧ inMonth m < inMonth e)

instance (m e : Moment) : Decidable (EarlierInYear m e) := by unfold EarlierInYear; infer_instance

/-- **C84, years.** From any day but 29 February, in steps of `n ≥ 1` years, `until(ending)`: the number of items is the number of years to the end, one more if the
end is later in its year than the start in its, divided by the step and rounded up. -/
theorem C84_until_years (c : Cfg) (hc : Sane c) (m ending : Moment) (hm : m.Valid c) (he : ending.Valid c)
    (hz : m.nano = 0) (hz' : ending.nano = 0) (hd : ¬ (m.month = 2 ∧ m.day = 29)) (n : Int) (hn : 1 ≤ n) (hmax : n ≤ 2000000000)
    (it : Iter) (hit : Iter.build m (.years n) = .ok it) (D : Int) (N : Nat)
    (hD : D = ending.year - m.year + if EarlierInYear m ending then 1 else 0)
    (hN : N = ((D + n - 1) / n).toNat) :
    (∀ k : Nat, k < N → nth (untilNext c (Iter.next c) ending) k it = some (.ok (.moment { m with year := m.year + k * n }))) ∧
    (nth (untilNext c (Iter.next c) ending) N it = none ∨
      (c.maxYear < m.year + N * n ∧
        ∃ Y M D H MI S, nth (untilNext c (Iter.next c) ending) N it = some (.err (.outOfBounds Y M D H MI S)))) := by
  have hk := C35_yearly c hc m hm hd n (by omega) it hit
  have hnano : ∀ k : Nat, ({ m with year := m.year + k * n, nano := if k = 0 then m.nano else 0 } : Moment) =
      { m with year := m.year + k * n } := by
    intro k; congr 1; split <;> omega
  simp only [hnano] at hk
  have hpos : 0 < n := by omega
  have e1 := Int.ediv_mul_le (D + n - 1) (b := n) (by omega)
  have e2 := Int.lt_ediv_add_one_mul_self (D + n - 1) hpos
  rw [Int.add_mul] at e2
  have hm' := hm
  obtain ⟨a1, a2, ⟨a3, a4, a5, a6⟩, t, a7⟩ := hm'
  have valid (Y : Int) (h3 : c.minYear ≤ Y) (h4 : Y ≤ c.maxYear) : ({ m with year := Y } : Moment).Valid c := by
    refine ⟨h3, h4, ⟨a3, a4, a5, ?_⟩, t, a7⟩
    simp only
    by_cases h2 : m.month = 2
    · rw [h2] at a6 ⊢
      simp only [Cal.monthLen] at a6 ⊢
      simp at a6 ⊢
      split <;> split at a6 <;> omega
    · unfold Cal.monthLen at a6 ⊢
      simp only [h2, if_false] at a6 ⊢
      exact a6
  have b1 := he.2.2.1.1
  have b2 := he.2.2.1.2.1
  have lt (Y : Int) (h3 : c.minYear ≤ Y) (h4 : Y ≤ c.maxYear) :
      ({ m with year := Y } : Moment).instant < ending.instant ↔ Y - m.year < D := by
    rw [instant_lt_iff (valid Y h3 h4) he]
    simp only
    rw [hD, show inMonth { m with year := Y } = inMonth m from rfl]
    by_cases h : EarlierInYear m ending
    · rw [if_pos h]
      unfold EarlierInYear at h
      unfold Cal.monthIndex; omega
    · rw [if_neg h]
      unfold EarlierInYear at h
      unfold Cal.monthIndex; omega
  constructor
  · intro k hlt
    have h1 : (k : Int) + 1 ≤ (D + n - 1) / n := by omega
    have h2 := Int.mul_le_mul_of_nonneg_right h1 (Int.le_of_lt hpos)
    rw [Int.add_mul] at h2
    have hkn : 0 ≤ (k : Int) * n := Int.mul_nonneg (by omega) (by omega)
    have hY : m.year + k * n ≤ c.maxYear := by
      have := he.2.1
      split at hD <;> omega
    rcases hk k with ⟨g1, g2, g3⟩ | ⟨g1, -⟩
    · rw [(C41_until c _ ending _ k).1 _ g3 (valid _ g1 g2) he, if_pos (.inl ((lt _ g1 g2).mpr (by omega)))]
    · omega
  · rcases hk N with ⟨g1, g2, g3⟩ | ⟨g1, Y, M, D', H, MI, S, g3⟩
    · left
      have hge : D ≤ N * n := by
        by_cases h0 : 0 ≤ (D + n - 1) / n
        · have : (N : Int) = (D + n - 1) / n := by omega
          rw [this]; omega
        · have h1 : (D + n - 1) / n + 1 ≤ 0 := by omega
          have h2 := Int.mul_le_mul_of_nonneg_right h1 (Int.le_of_lt hpos)
          rw [Int.add_mul] at h2
          have : 0 ≤ (N : Int) * n := Int.mul_nonneg (by omega) (by omega)
          omega
      have hnot := mt (lt _ g1 g2).mp (by omega)
      rw [(C41_until c _ ending _ N).1 _ g3 (valid _ g1 g2) he, if_neg]
      rintro (h | ⟨-, h⟩)
      · exact hnot h
      · simp only at h; omega
    · refine .inr ⟨?_, Y, M, D', H, MI, S, (C41_until c _ ending _ N).2.1 _ g3⟩
      have : 0 ≤ (N : Int) * n := Int.mul_nonneg (by omega) (by omega)
      omega

/-- From 15 June 2017 until 1 July 2021 in steps of two years: 2017, 2019, 2021. -/
example : items (untilNext (std .debug) (Iter.next (std .debug)) (at_ 2021 7 1 0 0 0)) 4 ⟨.moment (at_ 2017 6 15 0 0 0), .years 2, false⟩ =
      [some (.ok (.moment (at_ 2017 6 15 0 0 0))), some (.ok (.moment (at_ 2019 6 15 0 0 0))),
       some (.ok (.moment (at_ 2021 6 15 0 0 0))), none] ∧
    EarlierInYear (at_ 2017 6 15 0 0 0) (at_ 2021 7 1 0 0 0) ∧ (2021 - 2017 + 1 + 2 - 1) / 2 = 3 := by decide +kernel

end Props
