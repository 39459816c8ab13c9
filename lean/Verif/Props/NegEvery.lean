import Verif.Props.Backwards
import Verif.Props.AllYears
import Verif.Lemmas.NegativeFull

/-!
# C60, C95: adding any negative amount
-/

namespace Props
open Kairos Spec

private theorem carry60 {b q r Q x : Int} (h : Carry b 60 q r) (e : b = Q * 60 + x) (h1 : 0 ≤ x) (h2 : x < 60)
    (h3 : 0 ≤ b ∨ x = 0) : q = Q ∧ r = x := by
  unfold Carry at h; omega

private theorem carry24 {b q r Q x : Int} (h : Carry b 24 q r) (e : b = Q * 24 + x) (h1 : 0 ≤ x) (h2 : x < 24)
    (h3 : 0 ≤ b ∨ x = 0) : q = Q ∧ r = x := by
  unfold Carry at h; omega

/-- **C60, adding: every negative amount (partial).** Let the exact result be the time `H:MI:S` on day `D` of the month of `m`,
`D` being zero or negative if the month has not begun yet. If the components borrowed for are all zero (`NegRight`) and `D`
modulo 2^32 is a day of the month, the result is that day of that month, and otherwise it is an error. -/
theorem C60_adding_negative_every_partial (c : Cfg) (hc : Sane c) (m : Moment) (hm : m.Valid c)
    (u : TUnit) (hu : u = .second ∨ u = .minute ∨ u = .hour ∨ u = .day)
    (n : Int) (hn : n ≤ 0) (hb : -9223372036854775808 ≤ n) (D H MI S : Int) (ht : Cal.ValidTime H MI S)
    (hi : Cal.instant m.year m.month D H MI S = m.instant + n * u.secs) :
    (NegRight m ⟨m.year, m.month, D, H, MI, S, 0⟩ u ∧ D % 2 ^ 32 ≠ 0 ∧ D % 2 ^ 32 ≤ Cal.monthLen m.year m.month →
      calculate c (.moment m + amt u n) = .ok (.moment ⟨m.year, m.month, D % 2 ^ 32, H, MI, S, 0⟩)) ∧
    (¬ (NegRight m ⟨m.year, m.month, D, H, MI, S, 0⟩ u ∧ D % 2 ^ 32 ≠ 0 ∧ D % 2 ^ 32 ≤ Cal.monthLen m.year m.month) →
      ∃ Y M D' H' MI' S', calculate c (.moment m + amt u n) = .err (.outOfBounds Y M D' H' MI' S')) := by
  obtain ⟨q1, q2, q3, h', mi', s', e, k1, k2, k3⟩ :=
    add_carries_full c hc hm u (by rcases hu with rfl | rfl | rfl | rfl <;> decide) n hn hb _ rfl
  rw [e]
  obtain ⟨a1, a2, ⟨a3, a4, a5, a6⟩, ⟨t1, t2, t3, t4, t5, t6⟩, -⟩ := hm
  obtain ⟨s1, s2, s3, s4, s5, s6⟩ := id ht
  have lin : D * 86400 + H * 3600 + MI * 60 + S =
      m.day * 86400 + m.hour * 3600 + m.minute * 60 + m.second + n * u.secs := by
    unfold Moment.instant Cal.instant Cal.dayNumber at hi
    omega
  rw [show (2 : Int) ^ 32 = 4294967296 by decide]
  -- the borrowed components are zero exactly if the code's time of day is a time of day; then it is the right one
  have key : NegRight m ⟨m.year, m.month, D, H, MI, S, 0⟩ u →
      (addComp m u n).d + q3 = D ∧ h' = H ∧ mi' = MI ∧ s' = S := by
    rintro ⟨-, hr⟩
    clear e hi
    have hv : 0 ≤ (addComp m u n).s ∨ S = 0 := by
      rcases hu with rfl | rfl | rfl | rfl <;> simp only [addComp, TUnit.secs] at * <;> omega
    obtain ⟨Q1, hQ1⟩ : ∃ Q1, (addComp m u n).s = Q1 * 60 + S := by
      rcases hu with rfl | rfl | rfl | rfl <;> simp only [addComp, TUnit.secs] at *
      · exact ⟨D * 1440 + H * 60 + MI - (m.day * 1440 + m.hour * 60 + m.minute), by omega⟩
      all_goals exact ⟨0, by omega⟩
    obtain ⟨f1, f2⟩ := carry60 k1 hQ1 s5 s6 hv
    subst f1 f2
    obtain ⟨Q2, hQ2⟩ : ∃ Q2, (addComp m u n).mi + q1 = Q2 * 60 + MI := by
      rcases hu with rfl | rfl | rfl | rfl <;> simp only [addComp, TUnit.secs] at *
      · exact ⟨D * 24 + H - (m.day * 24 + m.hour), by omega⟩
      · exact ⟨D * 24 + H - (m.day * 24 + m.hour), by omega⟩
      all_goals exact ⟨0, by omega⟩
    have hv2 : 0 ≤ (addComp m u n).mi + q1 ∨ MI = 0 := by
      rcases hu with rfl | rfl | rfl | rfl <;> simp only [addComp, TUnit.secs] at * <;> omega
    obtain ⟨f1, f2⟩ := carry60 k2 hQ2 s3 s4 hv2
    subst f1 f2
    obtain ⟨Q3, hQ3⟩ : ∃ Q3, (addComp m u n).h + q2 = Q3 * 24 + H := by
      rcases hu with rfl | rfl | rfl | rfl <;> simp only [addComp, TUnit.secs] at *
      · exact ⟨D - m.day, by omega⟩
      · exact ⟨D - m.day, by omega⟩
      · exact ⟨D - m.day, by omega⟩
      · exact ⟨0, by omega⟩
    have hv3 : 0 ≤ (addComp m u n).h + q2 ∨ H = 0 := by
      rcases hu with rfl | rfl | rfl | rfl <;> simp only [addComp, TUnit.secs] at * <;> omega
    obtain ⟨f1, f2⟩ := carry24 k3 hQ3 s1 s2 hv3
    subst f1 f2
    refine ⟨?_, rfl, rfl, rfl⟩
    rcases hu with rfl | rfl | rfl | rfl <;> simp only [addComp, TUnit.secs] at * <;> omega
  constructor
  · rintro ⟨hr, d1, d2⟩
    obtain ⟨r1, rfl, rfl, rfl⟩ := key hr
    rw [r1, if_pos ⟨⟨a3, a4, by omega, d2⟩, ht⟩]
  · intro hno
    rw [if_neg]
    · exact ⟨_, _, _, _, _, _, rfl⟩
    · rintro ⟨⟨-, -, w1, w2⟩, v1, v2, v3, v4, v5, v6⟩
      apply hno
      have eq : (addComp m u n).d + q3 = D ∧ h' = H ∧ mi' = MI ∧ s' = S := by
        unfold Carry at k1 k2 k3
        clear e hi hno w1 w2
        rcases hu with rfl | rfl | rfl | rfl <;> simp only [addComp, TUnit.secs] at * <;> omega
      obtain ⟨r1, rfl, rfl, rfl⟩ := eq
      rw [r1] at w1 w2
      refine ⟨⟨⟨rfl, rfl⟩, ?_⟩, by omega, w2⟩
      unfold Carry at k1 k2 k3
      clear e hi hno w1 w2
      rcases hu with rfl | rfl | rfl | rfl <;> simp only [addComp, TUnit.secs] at * <;> omega

/-- 2^32 days before 15 June 2017, and 2^32 days and 12 hours before its noon, are in "June 2017" again. -/
example : NegRight (at_ 2017 6 15 12 0 0) ⟨2017, 6, 15 - 4294967296, 0, 0, 0, 0⟩ .hour ∧
    (15 - 4294967296) % 2 ^ 32 ≠ (0 : Int) ∧
    Cal.instant 2017 6 (15 - 4294967296) 0 0 0 = (at_ 2017 6 15 12 0 0).instant + (-12 - 24 * 4294967296) * TUnit.secs .hour ∧
    calculate (std .debug) (.moment (at_ 2017 6 15 12 0 0) + .hours (-12 - 24 * 4294967296)) = .ok (.moment (at_ 2017 6 15 0 0 0)) := by
  refine ⟨⟨by decide, .inr rfl⟩, ?_⟩; decide +kernel

/-! ## C95 -/

/-- **C95, every negative number of months (partial).** `M` is the number of the month `n` months from that of `m`, counted from
January of the year of `m`. If it is in that year, the result is that month, or a day early in the month after if that month is
too short. If it is before that year, only its number modulo 2^32 counts, so that the result is an error unless `n` is near a
multiple of 2^32; but from a 31st the code goes on to the first of the month after, in particular from "month 0" to 1 January. -/
theorem C95_negative_months_partial (c : Cfg) (hc : Sane c) (m : Moment) (hm : m.Valid c) (n M : Int) (hn : n ≤ 0)
    (hb : -9223372036854775808 ≤ n) (hM : M = m.month + n) :
    (1 ≤ M → calculate c (.moment m + .months n) =
      if m.day ≤ Cal.monthLen m.year M then .ok (.moment { m with month := M, nano := 0 })
      else .ok (.moment { m with month := M + 1, day := m.day - Cal.monthLen m.year M, nano := 0 })) ∧
    (M ≤ 0 → m.day ≤ 30 → calculate c (.moment m + .months n) =
      if Cal.ValidDate m.year (M % 2 ^ 32) m.day then .ok (.moment { m with month := M % 2 ^ 32, nano := 0 })
      else .err (.outOfBounds m.year (M % 2 ^ 32) m.hour m.hour m.minute m.second)) ∧
    (M ≤ 0 → m.day = 31 → calculate c (.moment m + .months n) =
      if Cal.ValidDate m.year ((M + 1) % 2 ^ 32) 1 then .ok (.moment { m with month := (M + 1) % 2 ^ 32, day := 1, nano := 0 })
      else .err (.outOfBounds m.year ((M + 1) % 2 ^ 32) m.hour m.hour m.minute m.second)) := by
  subst hM
  rw [show (2 : Int) ^ 32 = 4294967296 by decide]
  refine ⟨fun h1 => ?_, fun h1 hd => ?_, fun h1 hd => ?_⟩
  all_goals
    obtain ⟨a1, a2, ⟨a3, a4, a5, a6⟩, t, -⟩ := id hm
    have ml := Cal.monthLen_bounds (y := m.year) a3 a4
    have hc' := hc
    unfold Sane at hc'
  · have ml' := Cal.monthLen_bounds (y := m.year) (m := m.month + n) h1 (by omega)
    rw [addMonths_closed c hc hm n h1 (by omega)]
    unfold monthDate
    rw [if_pos (by omega)]
    by_cases h : m.day ≤ Cal.monthLen m.year (m.month + n)
    · rw [if_pos h, if_pos h]
      simp only
      rw [build_cases c (by simp only; omega) (by simp only; omega) (by simp only; omega) (by simp only; omega) t,
        if_pos ⟨a1, a2, h1, by simp only; omega, a5, h⟩]
    · rw [if_neg h, if_neg h]
      have h12 : m.month + n ≠ 12 := by intro h12; rw [h12] at h; simp [Cal.monthLen] at h; omega
      have ml2 := Cal.monthLen_bounds (y := m.year) (m := m.month + n + 1) (by omega) (by omega)
      simp only
      rw [build_cases c (by simp only; omega) (by simp only; omega) (by simp only; omega) (by simp only; omega) t,
        if_pos ⟨a1, a2, by simp only; omega, by simp only; omega, by simp only; omega, by simp only; omega⟩]
  · rw [calc_add_moment, exec_addToMoment]
    simp only [Eval.addToMoment, Cfg.add]
    rw [chk_in c (by omega) (by omega), OutE.ok_bind, adjustAdd_time c t ⟨by omega, by omega⟩,
      dayLoop_stop c _ _ _ _ (by rw [show getNumOfDaysInMonth m.year (m.month + n) = 30 by
        unfold getNumOfDaysInMonth; rw [if_neg (by omega), if_neg (by omega)]]; omega)]
    simp only [OutE.ok_bind]
    rw [monthLoop_stop c _ _ _ (by omega)]
    simp only [OutE.ok_bind]
    have e : Eval.buildMoment c ⟨m.year, m.month + n, m.day, m.hour, m.minute, m.second⟩ =
        Eval.buildMoment c ⟨m.year, (m.month + n) % 4294967296, m.day, m.hour, m.minute, m.second⟩ := by
      unfold Eval.buildMoment
      simp only [show asU32 ((m.month + n) % 4294967296) = asU32 (m.month + n) by unfold asU32; omega]
    rw [e, build_cases c (by simp only; omega) (by simp only; omega) (by simp only; omega) (by simp only; omega) t]
    simp only [a1, a2, true_and]
  · rw [calc_add_moment, exec_addToMoment]
    simp only [Eval.addToMoment, Cfg.add]
    have h30 : getNumOfDaysInMonth m.year (m.month + n) = 30 := by
      unfold getNumOfDaysInMonth; rw [if_neg (by omega), if_neg (by omega)]
    rw [chk_in c (by omega) (by omega), OutE.ok_bind, adjustAdd_time c t ⟨by omega, by omega⟩, hd]
    have hl : (dayLoop c m.year (31 : Int).toNat (m.month + n) 31 : Out (Int × Int)) = .ok (m.month + n + 1, 31 - 30) := by
      rw [show (31 : Int).toNat = 30 + 1 from rfl]
      unfold dayLoop
      rw [h30, if_pos (by omega)]
      simp only [Cfg.sub, Cfg.add]
      rw [chk_in c (by omega) (by omega), OutE.ok_bind, chk_in c (by omega) (by omega), OutE.ok_bind]
      exact dayLoop_stop c _ _ _ _ (by have := (numDays_range m.year (m.month + n + 1)).1; omega)
    rw [hl]
    simp only [OutE.ok_bind]
    rw [monthLoop_stop c _ _ _ (by omega)]
    simp only [OutE.ok_bind]
    have e : Eval.buildMoment c ⟨m.year, m.month + n + 1, 31 - 30, m.hour, m.minute, m.second⟩ =
        Eval.buildMoment c ⟨m.year, (m.month + n + 1) % 4294967296, 1, m.hour, m.minute, m.second⟩ := by
      unfold Eval.buildMoment
      simp only [show asU32 ((m.month + n + 1) % 4294967296) = asU32 (m.month + n + 1) by unfold asU32; omega]
      rfl
    rw [e, build_cases c (by simp only; omega) (by simp only; omega) (by simp only; omega) (by simp only; omega) t]
    simp only [a1, a2, true_and]

example : calculate (std .debug) (.moment (at_ 2017 3 31 0 0 0) + .months (-1)) = .ok (.moment (at_ 2017 3 3 0 0 0)) :=
  (C95_negative_months_partial (std .debug) (sane_std _) (at_ 2017 3 31 0 0 0) (by decide) (-1) 2 (by decide) (by decide) (by decide)).1 (by decide)

/-- **C95, when it is right (partial).** Up to 2^32 - 13 months back from one of the first 28 days of a month: the same day and
time that many months earlier if that is in the same year, and an error if not. -/
theorem C95_months_exact_or_error_partial (c : Cfg) (hc : Sane c) (m : Moment) (hm : m.Valid c) (hd : m.day ≤ 28) (n Y M : Int)
    (hn : n ≤ 0) (hb : -4294967283 ≤ n) (hM : 1 ≤ M ∧ M ≤ 12)
    (hi : Cal.monthIndex Y M = Cal.monthIndex m.year m.month + n) :
    calculate c (.moment m + .months n) =
      if Y = m.year then .ok (.moment { m with year := Y, month := M, nano := 0 })
      else .err (.outOfBounds m.year (m.month + n + 2 ^ 32 * (if m.month + n < 0 then 1 else 0)) m.hour m.hour m.minute m.second) := by
  obtain ⟨e1, e2, -⟩ := C95_negative_months_partial c hc m hm n _ hn (by omega) rfl
  obtain ⟨a1, a2, ⟨a3, a4, a5, a6⟩, t, -⟩ := id hm
  unfold Cal.monthIndex at hi
  rw [show (2 : Int) ^ 32 = 4294967296 by decide] at *
  by_cases h : Y = m.year
  · subst h
    have := Cal.monthLen_bounds (y := m.year) (m := M) hM.1 hM.2
    rw [e1 (by omega), if_pos rfl, show m.month + n = M by omega, if_pos (by omega)]
  · rw [e2 (by omega) (by omega), if_neg h]
    have hz : (m.month + n) % 4294967296 = m.month + n + 4294967296 * (if m.month + n < 0 then 1 else 0) := by
      split <;> omega
    rw [hz, if_neg]
    rintro ⟨v1, v2, -⟩
    revert v1 v2
    split <;> omega

example := C95_months_exact_or_error_partial (std .debug) (sane_std _) (at_ 2017 3 28 0 0 0) (by decide) (by decide) (-4) 2016 11 (by decide) (by decide)
  (by decide) (by decide)

/-- **C95, years (partial).** Up to two billion years back: the same day and time in that year, 1 March for 29 February if that
year is no leap year, and an error if the year is out of chrono's range. -/
theorem C95_years_partial (c : Cfg) (hc : Sane c) (m : Moment) (hm : m.Valid c) (n : Int) (hn : n ≤ 0) (hb : -2000000000 ≤ n) :
    (m.year + n < c.minYear → ∃ M D H MI S, calculate c (.moment m + .years n) = .err (.outOfBounds (m.year + n) M D H MI S)) ∧
    (c.minYear ≤ m.year + n → ¬ (m.month = 2 ∧ m.day = 29 ∧ Cal.isLeap (m.year + n) = false) →
      calculate c (.moment m + .years n) = .ok (.moment { m with year := m.year + n, nano := 0 })) ∧
    (c.minYear ≤ m.year + n → m.month = 2 → m.day = 29 → Cal.isLeap (m.year + n) = false →
      calculate c (.moment m + .years n) = .ok (.moment { m with year := m.year + n, month := 3, day := 1, nano := 0 })) := by
  have hy := hm.1
  have hy2 := hm.2.1
  unfold Sane at hc
  rw [C18_every_amount_partial c m hm n (m.year + n) 0 (by omega) (by omega) (by omega), if_neg (by omega)]
  refine ⟨fun h => ?_, fun h h2 => ?_, fun h h2 h3 h4 => ?_⟩
  · rw [if_pos (.inl h)]; exact ⟨_, _, _, _, _, rfl⟩
  · rw [if_neg (by omega), if_neg h2]
  · rw [if_neg (by omega), if_pos ⟨h2, h3, h4⟩]

example : Cal.monthIndex 2017 1 = Cal.monthIndex (at_ 2017 3 15 12 0 0).year (at_ 2017 3 15 12 0 0).month + -2 ∧
    calculate (std .debug) (.moment (at_ 2017 3 15 12 0 0) + .months (-2)) = .ok (.moment (at_ 2017 1 15 12 0 0)) ∧
    Cal.monthIndex 2016 11 = Cal.monthIndex (at_ 2017 3 15 12 0 0).year (at_ 2017 3 15 12 0 0).month + -4 ∧
    calculate (std .debug) (.moment (at_ 2017 3 15 12 0 0) + .months (-4)) = .err (.outOfBounds 2017 4294967295 12 12 0 0) ∧
    calculate (std .debug) (.moment (at_ 2016 2 29 12 0 0) + .years (-4)) = .ok (.moment (at_ 2012 2 29 12 0 0)) ∧
    calculate (std .debug) (.moment (at_ 2016 2 29 12 0 0) + .years (-5)) = .ok (.moment (at_ 2011 3 1 12 0 0)) := by
  decide +kernel

/-- "Three months before" 31 March is 1 January of the same year; before 30 March it is an error; "one month before" 31 March is
3 March; "2^32 months before" is the same day. -/
theorem C95_refuted (p : Profile) :
    calculate (std p) (.moment (at_ 2017 3 31 12 0 0) + .months (-3)) = .ok (.moment (at_ 2017 1 1 12 0 0)) ∧
    calculate (std p) (.moment (at_ 2017 3 30 12 0 0) + .months (-3)) = .err (.outOfBounds 2017 0 12 12 0 0) ∧
    calculate (std p) (.moment (at_ 2017 3 31 12 0 0) + .months (-1)) = .ok (.moment (at_ 2017 3 3 12 0 0)) ∧
    calculate (std p) (.moment (at_ 2017 3 15 12 0 0) + .months (-4294967296)) = .ok (.moment (at_ 2017 3 15 12 0 0)) ∧
    calculate (std p) (.moment (at_ 2017 3 15 12 0 0) + .years (-4294967296)) = .ok (.moment (at_ 2017 3 15 12 0 0)) := by
  cases p <;> decide +kernel

end Props
