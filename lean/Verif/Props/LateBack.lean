import Verif.Props.SubGrouping
import Verif.Props.Drift
import Verif.Props.Counts
import Verif.Spec.LateBack

/-!
# By how much differences are off, and what follows for the order of moments and of amounts (C21, C107, C113, C120, C137)
-/

namespace Props
open Kairos Spec

/-- Up to 2^32 units: seconds, minutes and hours. -/
private theorem short_time (c : Cfg) (hc : Sane c) (m r : Moment) (hm : m.Valid c)
    (u : TUnit) (hu : u = .second ∨ u = .minute ∨ u = .hour) (n : Int) (hn : 0 ≤ n) (hb : n < 4294967296)
    (h : calculate c (.moment m - amt u n) = .ok (.moment r)) :
    r.instant = m.instant - n * u.secs + shortBy m r u n ∧
      (r.year = m.year ∧ r.month = m.month ∨ r.year = (prevMonth m.year m.month).1 ∧ r.month = (prevMonth m.year m.month).2) := by
  have hu' : (u = .second ∧ perAbove u = 60) ∨ (u = .minute ∧ perAbove u = 60) ∨ (u = .hour ∧ perAbove u = 24) := by
    rcases hu with rfl | rfl | rfl <;> simp [perAbove]
  have pv := prevMonth_valid (y := m.year) hm.2.2.1.1 hm.2.2.1.2.1
  have pi := prev_index (y := m.year) (mo := m.month)
  obtain ⟨T, hT⟩ : ∃ T, T = m.instant - (if n = part m u + perAbove u then n + perAbove u else n) * u.secs := ⟨_, rfl⟩
  obtain ⟨start, hstart⟩ : ∃ s, s = Cal.instant m.year m.month 1 0 0 0 := ⟨_, rfl⟩
  obtain ⟨plen, hplen⟩ : ∃ p, p = Cal.monthLen (prevMonth m.year m.month).1 (prevMonth m.year m.month).2 := ⟨_, rfl⟩
  obtain ⟨hle, hrv, -, hcase⟩ := (C21_time_partial c hc m r hm u _ hu' n hn hb (prevMonth m.year m.month).1 (prevMonth m.year m.month).2
    ⟨pv.1, pv.2.1⟩ pi T start hT hstart).1.1 h
  have ml := Cal.monthLen_bounds (y := (prevMonth m.year m.month).1) pv.1 pv.2.1
  rw [← hplen] at ml hcase
  have hday : m.instant = start + (m.day - 1) * 86400 + m.hour * 3600 + m.minute * 60 + m.second := by
    rw [hstart]; simp only [Moment.instant, Cal.instant, Cal.dayNumber]; omega
  have hd1 := hm.2.2.1.2.2.1
  obtain ⟨t1, t2, t3, t4, t5, t6⟩ := hm.2.2.2.1
  have hT' : T = m.instant - n * u.secs - (if n = part m u + perAbove u then perAbove u * u.secs else 0) := by
    rw [hT]; split
    · rw [Int.add_mul]; omega
    · omega
  have hlow : start - 2 * 86400 ≤ T ∧ T ≤ m.instant := by
    rw [hT']
    by_cases hx : n = part m u + perAbove u
    · rw [if_pos hx]
      rcases hu with rfl | rfl | rfl <;> simp only [part, perAbove, TUnit.secs] at hle ⊢ <;> omega
    · rw [if_neg hx]
      rcases hu with rfl | rfl | rfl <;> simp only [part, perAbove, TUnit.secs] at hle ⊢ <;> omega
  obtain ⟨A, B, -⟩ := month_of_earlier hm hrv (by omega) start plen hstart hplen
  unfold shortBy
  rcases hcase with ⟨h1, h2⟩ | ⟨h1, h2, h3⟩
  · rw [if_pos (A.1 (by omega))]
    exact ⟨by unfold tooFar; omega, .inl (A.1 (by omega))⟩
  · rw [if_neg (fun x => by have := A.2 x; omega)]
    obtain ⟨q1, q2⟩ := B.1 ⟨by omega, h2⟩
    refine ⟨?_, .inr ⟨q1, q2⟩⟩
    rw [q1, q2, ← hplen]; unfold tooFar; omega

/-- Up to 2^32 days. -/
private theorem short_days (c : Cfg) (hc : Sane c) (m r : Moment) (hm : m.Valid c) (n : Int) (hn : 0 ≤ n) (hb : n < 4294967296)
    (h : calculate c (.moment m - .days n) = .ok (.moment r)) :
    r.instant = m.instant - n * 86400 + shortBy m r .day n ∧
      (r.year = m.year ∧ r.month = m.month ∨ r.year = (prevMonth m.year m.month).1 ∧ r.month = (prevMonth m.year m.month).2) := by
  have pv := prevMonth_valid (y := m.year) hm.2.2.1.1 hm.2.2.1.2.1
  have pi := prev_index (y := m.year) (mo := m.month)
  have dn := dayNumber_prevMonth (y := m.year) hm.2.2.1.1 hm.2.2.1.2.1 1
  unfold shortBy
  rcases C21_days_partial c hc m hm n hn hb _ _ ⟨pv.1, pv.2.1⟩ pi with ⟨-, e⟩ | ⟨-, -, -, -, e⟩ | ⟨-, -, _, _, _, _, _, _, e⟩
  · rw [h] at e
    have := ok_moment_inj e
    subst this
    refine ⟨?_, .inl ⟨rfl, rfl⟩⟩
    simp only [tooFar, perAbove, Int.zero_mul, ite_self, and_self, if_true, Moment.instant, Cal.instant, Cal.dayNumber]
    omega
  · rw [h] at e
    have := ok_moment_inj e
    subst this
    refine ⟨?_, .inr ⟨rfl, rfl⟩⟩
    rw [if_neg (fun x => by simp only at x; rw [x.1, x.2] at pi; omega)]
    simp only [tooFar, perAbove, Int.zero_mul, ite_self, Moment.instant, Cal.instant]
    unfold Cal.dayNumber at dn ⊢
    omega
  · rw [h] at e; cases e

/-- Up to eleven million years. -/
private theorem short_all {c : Cfg} (hc : Sane c) {m r : Moment} (hm : m.Valid c)
    {u : TUnit} (hu : u = .second ∨ u = .minute ∨ u = .hour ∨ u = .day) {n : Int} (hn : 0 ≤ n)
    (hmax : n * u.secs ≤ 371085171523200)
    (h : calculate c (.moment m - amt u n) = .ok (.moment r)) :
    r.instant = m.instant - n * u.secs + shortBy m r u n ∧
      (r.year = m.year ∧ r.month = m.month ∨ r.year = (prevMonth m.year m.month).1 ∧ r.month = (prevMonth m.year m.month).2) := by
  have hb : n < 4294967296 := by
    by_cases hs : 63 * 86400 ≤ n * u.secs
    · obtain ⟨_, _, _, _, _, _, f⟩ := C21_two_months_rejected_partial c hc m hm u hu n hs hmax
      rw [f] at h; cases h
    · rcases hu with rfl | rfl | rfl | rfl <;> simp only [TUnit.secs] at hs <;> omega
  rcases hu with rfl | rfl | rfl | rfl
  · exact short_time c hc m r hm _ (by simp) n hn hb h
  · exact short_time c hc m r hm _ (by simp) n hn hb h
  · exact short_time c hc m r hm _ (by simp) n hn hb h
  · exact short_days c hc m r hm n hn hb h

/-- **C107, subtracting, exactly.** Subtracting `n ≥ 0` seconds, minutes, hours or days leads less far back than it should by exactly `shortBy` seconds. Up to eleven million years. -/
theorem C107_subtracting_exactly (c : Cfg) (hc : Sane c) (m r : Moment) (hm : m.Valid c)
    (u : TUnit) (hu : u = .second ∨ u = .minute ∨ u = .hour ∨ u = .day) (n : Int) (hn : 0 ≤ n)
    (hmax : n * u.secs ≤ 371085171523200)
    (h : calculate c (.moment m - amt u n) = .ok (.moment r)) :
    r.instant = m.instant - n * u.secs + shortBy m r u n :=
  (short_all hc hm hu hn hmax h).1

/-- 4 days before 1 March 2017 the code gives 28 February, three days too late; 70 minutes before 12:10 it gives 10:00, an hour too early. -/
example : shortBy (at_ 2017 3 1 0 0 0) (at_ 2017 2 28 0 0 0) .day 4 = 3 * 86400 ∧ shortBy (at_ 2017 1 1 12 10 0) (at_ 2017 1 1 10 0 0) .minute 70 = -3600 := by decide

example := C107_subtracting_exactly (std .debug) (sane_std _) (at_ 2017 3 1 0 0 0) (at_ 2017 2 28 0 0 0) (by decide) .day (by decide) 4 (by decide) (by decide) (by decide +kernel)

example := C107_subtracting_exactly (std .debug) (sane_std _) (at_ 2017 1 1 12 10 0) (at_ 2017 1 1 10 0 0) (by decide) .minute (by decide) 70 (by decide) (by decide) (by decide +kernel)

/-- Seconds to days. -/
private theorem in31_time {c : Cfg} (hc : Sane c) {m r : Moment} (hm : m.Valid c)
    {u : TUnit} (hu : u = .second ∨ u = .minute ∨ u = .hour ∨ u = .day) {n : Int} (hn : 0 ≤ n)
    (hmax : n * u.secs ≤ 371085171523200)
    (h : calculate c (.moment m - amt u n) = .ok (.moment r)) :
    instant31 r = instant31 m - n * u.secs - tooFar m u n := by
  obtain ⟨h1, h2⟩ := short_all hc hm hu hn hmax h
  have pi := prev_index (y := m.year) (mo := m.month)
  have dn := dayNumber_prevMonth (y := m.year) hm.2.2.1.1 hm.2.2.1.2.1 1
  unfold shortBy at h1
  unfold instant31
  rcases h2 with h2 | ⟨q1, q2⟩
  · rw [if_pos h2] at h1
    unfold Moment.instant Cal.instant Cal.dayNumber at h1
    rw [h2.1, h2.2] at h1 ⊢
    omega
  · rw [if_neg (fun x => by rw [← q1, ← q2, x.1, x.2] at pi; omega)] at h1
    unfold Moment.instant Cal.instant at h1
    rw [q1, q2] at h1 ⊢
    rw [pi]
    unfold Cal.dayNumber at h1 dn
    omega

/-- Months and years. -/
private theorem in31_months {c : Cfg} (hc : Sane c) {m r : Moment} (hm : m.Valid c) {n : Int} (hn : 0 ≤ n) (hmax : n < 4294967296)
    (h : calculate c (.moment m - .months n) = .ok (.moment r)) :
    instant31 r = instant31 m - n * (31 * 86400) := by
  obtain ⟨Y, M, hM, hi⟩ : ∃ Y M : Int, (1 ≤ M ∧ M ≤ 12) ∧ Cal.monthIndex Y M = Cal.monthIndex m.year m.month - n := by
    generalize Cal.monthIndex m.year m.month - n = x
    unfold Cal.monthIndex
    exact ⟨x / 12, x % 12 + 1, by omega, by omega⟩
  rcases C22_subtracting_months_partial c hc m hm n hn hmax Y M hM hi with ⟨-, -, -, p⟩ | ⟨-, _, _, _, _, _, _, p⟩
  · rw [h] at p
    have := ok_moment_inj p
    subst this
    unfold instant31
    simp only
    rw [hi]
    omega
  · rw [h] at p; cases p

private theorem in31_years {c : Cfg} (hc : Sane c) {m r : Moment} (hm : m.Valid c) {n : Int} (hn : 0 ≤ n) (hmax : n ≤ 2000000000)
    (h : calculate c (.moment m - .years n) = .ok (.moment r)) :
    instant31 r = instant31 m - n * (12 * 31 * 86400) := by
  have a1 := hm.1
  have a2 := hm.2.1
  unfold Sane at hc
  rw [C23_subtracting_years_partial c m hm n (by omega) (by omega)] at h
  split at h
  · have := ok_moment_inj h
    subst this
    unfold instant31 Cal.monthIndex
    simp only
    omega
  · cases h

/-- **C21, as though every month had 31 days (partial).** Subtracting `n ≥ 0` of any unit, where it has a result, leads exactly `n` units back in a calendar in which every month has
31 days; one unit above further for seconds, minutes and hours if `n` is exactly one unit above more than the current value. Up to eleven million years. -/
theorem C21_months_of_31_partial (c : Cfg) (hc : Sane c) (m r : Moment) (hm : m.Valid c) (u : TUnit) (n : Int) (hn : 0 ≤ n)
    (hmax : n * secs31 u ≤ 371085171523200)
    (h : calculate c (.moment m - amt u n) = .ok (.moment r)) :
    instant31 r = instant31 m - n * secs31 u - tooFar m u n := by
  cases u
  · exact in31_time (u := .second) hc hm (by simp) hn hmax h
  · exact in31_time (u := .minute) hc hm (by simp) hn hmax h
  · exact in31_time (u := .hour) hc hm (by simp) hn hmax h
  · exact in31_time (u := .day) hc hm (by simp) hn hmax h
  · simp only [secs31, tooFar, perAbove, Int.zero_mul, ite_self] at hmax ⊢
    have := in31_months hc hm hn (by omega) h
    omega
  · simp only [secs31, tooFar, perAbove, Int.zero_mul, ite_self] at hmax ⊢
    have := in31_years hc hm hn (by omega) h
    omega

/-- 4 days before 1 March, and 14 months before 5 March. -/
example := C21_months_of_31_partial (std .debug) (sane_std _) (at_ 2017 3 1 0 0 0) (at_ 2017 2 28 0 0 0) (by decide) .day 4 (by decide) (by decide) (by decide +kernel)
example := C21_months_of_31_partial (std .debug) (sane_std _) (at_ 2017 3 5 0 0 0) (at_ 2016 1 5 0 0 0) (by decide) .month 14 (by decide) (by decide) (by decide +kernel)

/-- The order of date-times is the same in that calendar. -/
private theorem order31 {c : Cfg} {a b : Moment} (ha : a.Valid c) (hb : b.Valid c) : a.instant < b.instant ↔ instant31 a < instant31 b := by
  rw [instant_lt_iff ha hb]
  have l1 := Cal.monthLen_bounds (y := a.year) ha.2.2.1.1 ha.2.2.1.2.1
  have l2 := Cal.monthLen_bounds (y := b.year) hb.2.2.1.1 hb.2.2.1.2.1
  obtain ⟨-, -, ⟨v1, v2, v3, v4⟩, ⟨t1, t2, t3, t4, t5, t6⟩, -⟩ := ha
  obtain ⟨-, -, ⟨w1, w2, w3, w4⟩, ⟨s1, s2, s3, s4, s5, s6⟩, -⟩ := hb
  unfold instant31 inMonth
  generalize Cal.monthIndex a.year a.month = i at *
  generalize Cal.monthIndex b.year b.month = j at *
  omega

/-- **C113, exactly when (partial).** The same amount, of any unit, subtracted from two moments keeps their order if and only if this is so in the calendar with months of 31 days:
if going too far back does not make up for the distance of the two moments there. Up to eleven million years, where both differences have results. -/
theorem C113_months_of_31_iff_partial (c : Cfg) (hc : Sane c) (m₁ m₂ r₁ r₂ : Moment) (h1 : m₁.Valid c) (h2 : m₂.Valid c)
    (u : TUnit) (n : Int) (hn : 0 ≤ n) (hmax : n * secs31 u ≤ 371085171523200)
    (e₁ : calculate c (.moment m₁ - amt u n) = .ok (.moment r₁)) (e₂ : calculate c (.moment m₂ - amt u n) = .ok (.moment r₂)) :
    r₁.instant < r₂.instant ↔ tooFar m₂ u n - tooFar m₁ u n < instant31 m₂ - instant31 m₁ := by
  have x := C21_months_of_31_partial c hc m₁ r₁ h1 u n hn hmax e₁
  have y := C21_months_of_31_partial c hc m₂ r₂ h2 u n hn hmax e₂
  rw [order31 (C15_computed c _ r₁ (fun _ => by intro h; cases h) e₁).1 (C15_computed c _ r₂ (fun _ => by intro h; cases h) e₂).1]
  omega

/-- 70 minutes before 11:50 and before 12:10. -/
example : ¬ (at_ 2017 1 1 10 40 0).instant < (at_ 2017 1 1 10 0 0).instant := fun h =>
  absurd ((C113_months_of_31_iff_partial (std .debug) (sane_std _) (at_ 2017 1 1 11 50 0) (at_ 2017 1 1 12 10 0) _ _ (by decide) (by decide) .minute 70
    (by decide) (by decide) (by decide +kernel) (by decide +kernel)).mp h) (by decide +kernel)

/-- The two whole-second moments are the same if they are so in that calendar. -/
private theorem same31 {c : Cfg} {r r' : Moment} (hr : r.Valid c) (hr' : r'.Valid c) (hz : r.nano = 0) (hz' : r'.nano = 0)
    (h : instant31 r = instant31 r') : r = r' := by
  have a := order31 hr hr'
  have b := order31 hr' hr
  obtain ⟨e1, e2, e3, e4, e5, e6⟩ := Cal.instant_inj hr.2.2.1 hr'.2.2.1 hr.2.2.2.1 hr'.2.2.2.1 (show r.instant = r'.instant by omega)
  cases r; cases r'; simp only at *; simp [*]

/-- Two steps. -/
private theorem two_differences {c : Cfg} (hc : Sane c) {m m₁ r : Moment} (hm : m.Valid c) {u v : TUnit}
    {n k : Int} (hn : 0 ≤ n) (hk : 0 ≤ k) (hmax : n * secs31 u + k * secs31 v ≤ 371085171523200)
    (h₁ : calculate c (.moment m - amt u n) = .ok (.moment m₁)) (hr : calculate c (.moment m - amt u n - amt v k) = .ok (.moment r)) :
    instant31 r = instant31 m - n * secs31 u - k * secs31 v - (tooFar m u n + tooFar m₁ v k) ∧ r.Valid c ∧ r.nano = 0 := by
  have pu : 0 < secs31 u := by cases u <;> decide
  have pv : 0 < secs31 v := by cases v <;> decide
  have nu : 0 ≤ n * secs31 u := Int.mul_nonneg hn (by omega)
  have kv : 0 ≤ k * secs31 v := Int.mul_nonneg hk (by omega)
  have hval := C15_computed c _ r (fun _ => by intro h; cases h) hr
  rw [(C07_chain_partial c (.moment m) (amt u n) v k).2.2, h₁, OutE.ok_bind] at hr
  have hv₁ := (C15_computed c _ m₁ (fun _ => by intro h; cases h) h₁).1
  have x := C21_months_of_31_partial c hc m m₁ hm u n hn (by omega) h₁
  have y := C21_months_of_31_partial c hc m₁ r hv₁ v k hk (by omega) hr
  exact ⟨by omega, hval⟩

/-- **C120, exactly when (partial).** Amounts of any units. `f` is the finer of the two units and `w` the number of these that both amounts make (counting a month as 30 and a year as 360 days). `m - a - b` and `m - (a + b)`
are the same moment if and only if the two steps together lead as far back as the one in the calendar with months of 31 days. Up to eleven million years, where all three differences have results. -/
theorem C120_months_of_31_iff_partial (c : Cfg) (hc : Sane c) (m m₁ r r' : Moment) (hm : m.Valid c) (u v f : TUnit)
    (hf : f = if u.secs ≤ v.secs then u else v)
    (n k w : Int) (hn : 0 ≤ n) (hk : 0 ≤ k) (hw : w * f.secs = n * u.secs + k * v.secs) (hmax : n * secs31 u + k * secs31 v ≤ 180000000000000)
    (h₁ : calculate c (.moment m - amt u n) = .ok (.moment m₁))
    (hr : calculate c (.moment m - amt u n - amt v k) = .ok (.moment r)) (hr' : calculate c (.moment m - (amt u n + amt v k)) = .ok (.moment r')) :
    r = r' ↔ n * secs31 u + tooFar m u n + (k * secs31 v + tooFar m₁ v k) = w * secs31 f + tooFar m f w := by
  obtain ⟨i, hv₁, z⟩ := two_differences hc hm hn hk (by omega) h₁ hr
  have pu : 0 < u.secs := by cases u <;> decide
  have pv : 0 < v.secs := by cases v <;> decide
  have nu : 0 ≤ n * u.secs := Int.mul_nonneg hn (by omega)
  have kv : 0 ≤ k * v.secs := Int.mul_nonneg hk (by omega)
  have nu' : n * u.secs ≤ n * secs31 u := Int.mul_le_mul_of_nonneg_left (by cases u <;> decide) hn
  have kv' : k * v.secs ≤ k * secs31 v := Int.mul_le_mul_of_nonneg_left (by cases v <;> decide) hk
  have hval := C15_computed c _ r' (fun _ => by intro h; cases h) hr'
  have e := (C08_amounts_combined_first c m (.plus (.amt u n) (.amt v k))).2
  simp only [AmtTree.toTT] at e
  obtain ⟨w', hw', hs, -⟩ := C05_amounts_succeed c (.plus (.amt u n) (.amt v k)) (by
    simp only [AmtTree.mag]; rw [if_neg (by omega), if_neg (by omega)]; omega)
  simp only [AmtTree.toTT, AmtTree.secs] at hw' hs
  rw [e, hw', OutE.ok_bind] at hr'
  have hf' : AmtTree.finest (.plus (.amt u n) (.amt v k)) = f := hf.symm
  rw [hf'] at hs hr'
  have pf : 0 < f.secs := by cases f <;> decide
  have hww : w' = w := Int.eq_of_mul_eq_mul_right (by omega) (hs.trans hw.symm)
  subst hww
  have hw0 : 0 ≤ w' := by
    refine Int.not_lt.1 fun hneg => ?_
    have := Int.mul_neg_of_neg_of_pos hneg pf
    omega
  have hwm : w' * secs31 f ≤ 2 * (w' * f.secs) := by
    have : secs31 f ≤ f.secs * 2 := by cases f <;> decide
    have := Int.mul_le_mul_of_nonneg_left this hw0
    rw [← Int.mul_assoc] at this
    omega
  have i' := C21_months_of_31_partial c hc m r' hm f w' hw0 (by omega) hr'
  constructor
  · intro h
    rw [← h] at i'
    omega
  · intro h
    exact same31 hv₁ hval.1 z hval.2 (by omega)

/-- 20 and 50 minutes before 12:10: in two steps 11:00, at once 10:00. 1 month and 2 days before 25 March: in two steps 23 February, at once (32 days) 24 February. -/
example : ¬ at_ 2017 1 1 11 0 0 = at_ 2017 1 1 10 0 0 := fun h =>
  absurd ((C120_months_of_31_iff_partial (std .debug) (sane_std _) (at_ 2017 1 1 12 10 0) (at_ 2017 1 1 11 50 0) _ _ (by decide) .minute .minute .minute
    (by decide) 20 50 70 (by decide) (by decide) (by decide) (by decide) (by decide +kernel) (by decide +kernel) (by decide +kernel)).mp h) (by decide +kernel)

example : ¬ at_ 2017 2 23 0 0 0 = at_ 2017 2 24 0 0 0 := fun h =>
  absurd ((C120_months_of_31_iff_partial (std .debug) (sane_std _) (at_ 2017 3 25 0 0 0) (at_ 2017 2 25 0 0 0) _ _ (by decide) .month .day .day
    (by decide) 1 2 32 (by decide) (by decide) (by decide) (by decide) (by decide +kernel) (by decide +kernel) (by decide +kernel)).mp h) (by decide +kernel)

/-- **C137, exactly when (partial).** Amounts of any units: `m - a - b` and `m - b - a` are the same moment if and only if the two steps of the one go together as much too far back as those of the other.
Up to eleven million years, where all four differences have results. -/
theorem C137_iff_partial (c : Cfg) (hc : Sane c) (m m₁ m₂ r r' : Moment) (hm : m.Valid c) (u v : TUnit)
    (n k : Int) (hn : 0 ≤ n) (hk : 0 ≤ k) (hmax : n * secs31 u + k * secs31 v ≤ 371085171523200)
    (h₁ : calculate c (.moment m - amt u n) = .ok (.moment m₁)) (h₂ : calculate c (.moment m - amt v k) = .ok (.moment m₂))
    (hr : calculate c (.moment m - amt u n - amt v k) = .ok (.moment r)) (hr' : calculate c (.moment m - amt v k - amt u n) = .ok (.moment r')) :
    r = r' ↔ tooFar m u n + tooFar m₁ v k = tooFar m v k + tooFar m₂ u n := by
  obtain ⟨i, hv₁, z⟩ := two_differences hc hm hn hk hmax h₁ hr
  obtain ⟨i', hv₂, z'⟩ := two_differences hc hm hk hn (by omega) h₂ hr'
  constructor
  · intro h
    rw [← h] at i'
    omega
  · intro h
    exact same31 hv₁ hv₂ z z' (by omega)

/-- 70 and 20 minutes before 12:10. -/
example : ¬ at_ 2017 1 1 9 40 0 = at_ 2017 1 1 10 40 0 := fun h =>
  absurd ((C137_iff_partial (std .debug) (sane_std _) (at_ 2017 1 1 12 10 0) (at_ 2017 1 1 10 0 0) (at_ 2017 1 1 11 50 0) _ _ (by decide) .minute .minute
    70 20 (by decide) (by decide) (by decide) (by decide +kernel) (by decide +kernel) (by decide +kernel) (by decide +kernel)).mp h) (by decide +kernel)

/-- A difference is a moment or an error. -/
private theorem difference_ends {c : Cfg} (hc : Sane c) {m : Moment} (hm : m.Valid c) {u : TUnit} {n : Int} (hn : 0 ≤ n) (hmax : n * secs31 u ≤ 371085171523200) :
    (∃ r, calculate c (.moment m - amt u n) = .ok (.moment r)) ∨ ∃ e, calculate c (.moment m - amt u n) = .err e := by
  have hb : n ≤ 371085171523200 := by
    have := Int.mul_le_mul_of_nonneg_left (show 1 ≤ secs31 u by cases u <;> decide) hn
    omega
  have hp : -2000000 ≤ part m u ∧ part m u ≤ 2000000 := by
    obtain ⟨a1, a2, ⟨a3, a4, a5, a6⟩, ⟨t1, t2, t3, t4, t5, t6⟩, -⟩ := hm
    have := Cal.monthLen_bounds (y := m.year) a3 a4
    unfold Sane at hc
    cases u <;> simp only [part] <;> omega
  rw [sub_closed_full c hc hm u n ⟨by omega, by omega⟩ ⟨by omega, by omega⟩]
  unfold Eval.buildMoment
  split
  · exact .inl ⟨_, rfl⟩
  · exact .inr ⟨_, rfl⟩

private theorem first_step {c : Cfg} (hc : Sane c) {m r : Moment} (hm : m.Valid c) {u v : TUnit} {n k : Int} (hn : 0 ≤ n) (hmax : n * secs31 u ≤ 371085171523200)
    (hr : calculate c (.moment m - amt u n - amt v k) = .ok (.moment r)) : ∃ m₁, calculate c (.moment m - amt u n) = .ok (.moment m₁) := by
  rcases difference_ends hc hm hn hmax with h | ⟨e, h⟩
  · exact h
  · rw [(C07_chain_partial c (.moment m) (amt u n) v k).2.2, h] at hr
    cases hr

/-- **C137, days, months and years (partial).** Where both orders have results, days, months and years can be subtracted in either order. Up to eleven million years. (Missing: seconds, minutes and hours, see
`C137_refuted` and `C137_iff_partial`.) -/
theorem C137_days_months_years_partial (c : Cfg) (hc : Sane c) (m r r' : Moment) (hm : m.Valid c) (u v : TUnit)
    (hu : u = .day ∨ u = .month ∨ u = .year) (hv : v = .day ∨ v = .month ∨ v = .year) (n k : Int) (hn : 0 ≤ n) (hk : 0 ≤ k)
    (hmax : n * secs31 u + k * secs31 v ≤ 371085171523200)
    (hr : calculate c (.moment m - amt u n - amt v k) = .ok (.moment r)) (hr' : calculate c (.moment m - amt v k - amt u n) = .ok (.moment r')) :
    r = r' := by
  have pu : 0 < secs31 u := by cases u <;> decide
  have pv : 0 < secs31 v := by cases v <;> decide
  have nu : 0 ≤ n * secs31 u := Int.mul_nonneg hn (by omega)
  have kv : 0 ≤ k * secs31 v := Int.mul_nonneg hk (by omega)
  obtain ⟨m₁, h₁⟩ := first_step hc hm hn (by omega) hr
  obtain ⟨m₂, h₂⟩ := first_step hc hm hk (by omega) hr'
  have zero : ∀ (m : Moment) (u : TUnit) (n : Int), u = .day ∨ u = .month ∨ u = .year → tooFar m u n = 0 := by
    rintro m _ n (rfl | rfl | rfl) <;> simp [tooFar, perAbove]
  rw [C137_iff_partial c hc m m₁ m₂ r r' hm u v n k hn hk hmax h₁ h₂ hr hr']
  simp only [zero _ _ _ hu, zero _ _ _ hv]

/-- A month and 20 days before 25 March. -/
example := C137_days_months_years_partial (std .debug) (sane_std _) (at_ 2017 3 25 0 0 0) (at_ 2017 2 5 0 0 0) (at_ 2017 2 5 0 0 0) (by decide) .month .day (by decide) (by decide) 1 20 (by decide) (by decide) (by decide)
  (by decide +kernel) (by decide +kernel)

private theorem no_excess {m : Moment} {u : TUnit} (hu : u = .day ∨ u = .month ∨ u = .year) {n : Int} : tooFar m u n = 0 := by
  rcases hu with rfl | rfl | rfl <;> simp [tooFar, perAbove]

private theorem stepwise_moment {c : Cfg} (hc : Sane c) : ∀ (steps : List (TUnit × Int)) {m r : Moment}, m.Valid c → m.nano = 0 →
    (∀ s ∈ steps, (s.1 = .day ∨ s.1 = .month ∨ s.1 = .year) ∧ 0 ≤ s.2 ∧ s.2 * secs31 s.1 ≤ 371085171523200) →
    stepwise c (.moment m) (steps.map fun s => (.minus, amt s.1 s.2)) = .ok (.moment r) →
    instant31 r = instant31 m - sum31 steps ∧ r.Valid c ∧ r.nano = 0
  | [], m, r, hm, hz, _, h => by
    have h := ok_moment_inj h
    subst h
    exact ⟨by simp [sum31], hm, hz⟩
  | s :: l, m, r, hm, hz, hs, h => by
    obtain ⟨h0, h1, h2⟩ := hs s (by simp)
    unfold stepwise at h
    rw [List.map_cons, List.foldl_cons, OutE.ok_bind] at h
    rcases difference_ends hc hm (u := s.1) h1 h2 with ⟨m', e⟩ | ⟨x, e⟩
    · have e' : calculate c (Op.minus.app (.moment m) (amt s.1 s.2)) = .ok (.moment m') := e
      rw [e'] at h
      have v := C15_computed c _ m' (fun _ => by intro h; cases h) e
      obtain ⟨g1, g2⟩ := stepwise_moment hc l v.1 v.2 (fun t ht => hs t (by simp [ht])) h
      have y := C21_months_of_31_partial c hc m m' hm s.1 s.2 h1 h2 e
      rw [no_excess h0] at y
      have ht : sum31 (s :: l) = s.2 * secs31 s.1 + sum31 l := by simp [sum31]
      exact ⟨by omega, g2⟩
    · have e' : calculate c (Op.minus.app (.moment m) (amt s.1 s.2)) = .err x := e
      rw [e'] at h
      exact absurd h (stepwise_err c _ (by simp) _ _)

/-- **C137, any number of amounts (partial).** `m - a₁ - a₂ - …` with non-negative days, months and years, each up to eleven million years: in whatever order they are subtracted, where both orders have a result, it is the same.
(Missing: seconds, minutes and hours, see `C137_refuted`.) -/
theorem C137_chains_partial (c : Cfg) (hc : Sane c) (m r r' : Moment) (hm : m.Valid c) (hz : m.nano = 0) (steps steps' : List (TUnit × Int)) (hp : steps.Perm steps')
    (hs : ∀ s ∈ steps, (s.1 = .day ∨ s.1 = .month ∨ s.1 = .year) ∧ 0 ≤ s.2 ∧ s.2 * secs31 s.1 ≤ 371085171523200)
    (hr : calculate c (chain (.moment m) (steps.map fun s => (.minus, amt s.1 s.2))) = .ok (.moment r))
    (hr' : calculate c (chain (.moment m) (steps'.map fun s => (.minus, amt s.1 s.2))) = .ok (.moment r')) :
    r = r' := by
  have e := C07_long_chain_partial c m [] steps
  have e' := C07_long_chain_partial c m [] steps'
  rw [List.map_nil, List.nil_append] at e e'
  rw [e] at hr
  rw [e'] at hr'
  obtain ⟨i, v, z⟩ := stepwise_moment hc steps hm hz hs hr
  obtain ⟨i', v', z'⟩ := stepwise_moment hc steps' hm hz (fun s h => hs s (hp.mem_iff.2 h)) hr'
  have : sum31 steps = sum31 steps' := by
    unfold sum31
    clear e e' hr hr' i i' hs
    induction hp with
    | nil => rfl
    | cons x _ ih => simp [ih]
    | swap x y l => simp; omega
    | trans _ _ ih ih' => exact ih.trans ih'
  exact same31 v v' z z' (by omega)

/-- 20 days, a month and a year before 25 March in two orders. -/
example := C137_chains_partial (std .debug) (sane_std _) (at_ 2017 3 25 0 0 0) (at_ 2016 2 5 0 0 0) (at_ 2016 2 5 0 0 0) (by decide) rfl [(.day, 20), (.month, 1), (.year, 1)]
  [(.year, 1), (.month, 1), (.day, 20)] (by decide) (by decide) (by decide +kernel) (by decide +kernel)

/-- **C137 refuted.** 70 and 20 minutes before 12:10; 5 days and a month before 31 March, where the other order is an error. -/
theorem C137_refuted :
    (calculate (std .debug) (.moment (at_ 2017 1 1 12 10 0) - .minutes 70 - .minutes 20) = .ok (.moment (at_ 2017 1 1 9 40 0)) ∧
     calculate (std .debug) (.moment (at_ 2017 1 1 12 10 0) - .minutes 20 - .minutes 70) = .ok (.moment (at_ 2017 1 1 10 40 0))) ∧
    (calculate (std .debug) (.moment (at_ 2017 3 31 0 0 0) - .days 5 - .months 1) = .ok (.moment (at_ 2017 2 26 0 0 0)) ∧
     calculate (std .debug) (.moment (at_ 2017 3 31 0 0 0) - .months 1 - .days 5) = .err (.outOfBounds 2017 2 0 0 0 0)) := by
  decide +kernel

end Props
