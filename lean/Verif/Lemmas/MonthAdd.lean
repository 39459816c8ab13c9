import Verif.Lemmas.CodeDate

/-! Closed forms of `moment + months(n)` and `moment + years(n)`, and of adding negative amounts. -/

namespace Kairos
open Spec
variable (c : Cfg)

/-- `adjust_times_add` with a proper time of day only runs the two loops. -/
theorem adjustAdd_time {ε : Type} {y mo d h mi s : Int} (ht : Cal.ValidTime h mi s) (hd : InI64 d) :
    (adjustTimesAdd c ⟨y, mo, d, h, mi, s⟩ : OutE ε Parts) = (do
      let (mo, d) ← dayLoop c y d.toNat mo d
      let (y, mo) ← monthLoop c mo.toNat y mo
      .ok ⟨y, mo, d, h, mi, s⟩) := by
  obtain ⟨t1, t2, t3, t4, t5, t6⟩ := ht
  unfold InI64 at hd
  unfold adjustTimesAdd
  simp only
  rw [fix_nonneg c (by decide) t5 (by omega) (by omega) (by omega)]
  simp only [OutE.ok_bind]
  rw [fix_nonneg c (by decide) (by omega) (by omega) (by omega) (by omega)]
  simp only [OutE.ok_bind]
  rw [fix_nonneg c (by decide) (by omega) (by omega) (by omega) (by omega)]
  simp only [OutE.ok_bind]
  rw [show s / 60 = 0 by omega, show (mi + 0) / 60 = 0 by omega, show (h + 0) / 24 = 0 by omega,
    show (h + 0) % 24 = h by omega, show (mi + 0) % 60 = mi by omega, show s % 60 = s by omega]
  simp only [Int.add_zero]

/-- The date `adjust_times_add` makes of day `d` (at most 31) in month `t` (1 .. ) counted from
January of year `y`. -/
def monthDate (y t d : Int) : Int × Int × Int :=
  if t ≤ 12 then
    if d ≤ Cal.monthLen y t then (y, t, d) else (y, t + 1, d - Cal.monthLen y t)
  else if d ≤ 30 then (y + (t - 1) / 12, (t - 1) % 12 + 1, d)
  else (y + t / 12, t % 12 + 1, d - 30)

theorem loops_month {ε : Type} {y t d : Int} (hy1 : -2147483648 ≤ y) (hy2 : y ≤ 2147483647)
    (ht : 1 ≤ t) (ht2 : t ≤ 9223372036854775807) (ht3 : t = 9223372036854775807 → d ≤ 30) (hd1 : 1 ≤ d) (hd2 : d ≤ 31) {h mi s : Int} :
    (do let (mo, d) ← dayLoop c y d.toNat t d
        let (y, mo) ← monthLoop c mo.toNat y mo
        .ok ⟨y, mo, d, h, mi, s⟩ : OutE ε Parts) =
      .ok ⟨(monthDate y t d).1, (monthDate y t d).2.1, (monthDate y t d).2.2, h, mi, s⟩ := by
  obtain ⟨k, hk⟩ : ∃ k, d.toNat = k + 1 := ⟨d.toNat - 1, by omega⟩
  rw [hk]
  unfold monthDate
  by_cases h12 : t ≤ 12
  · have he := numDays_eq hy1 hy2 ht h12
    have hb := Cal.monthLen_bounds (y := y) ht h12
    rw [if_pos h12]
    by_cases hl : d ≤ Cal.monthLen y t
    · rw [if_pos hl, dayLoop_stop c y t d _ (by rw [he]; exact hl)]
      simp only [OutE.ok_bind]
      rw [monthLoop_stop c _ _ _ h12]; rfl
    · rw [if_neg hl, dayLoop_step c y t d k (by rw [he]; omega) (by omega) (by omega) (by omega), he]
      have ht11 : t < 12 := by
        by_cases h : t = 12
        · subst h; simp [Cal.monthLen] at hl; omega
        · omega
      rw [dayLoop_stop c y _ _ _ (by have := (numDays_range y (t + 1)).1; omega)]
      simp only [OutE.ok_bind]
      rw [monthLoop_stop c _ _ _ (by omega)]; rfl
  · have h13 : getNumOfDaysInMonth y t = 30 := numDays_13 (by omega)
    rw [if_neg h12]
    by_cases hl : d ≤ 30
    · rw [if_pos hl, dayLoop_stop c y t d _ (by omega)]
      simp only [OutE.ok_bind]
      rw [monthLoop_eq c _ y t (Nat.le_refl _) (by omega) (by omega) (by omega) (by omega)]; rfl
    · rw [if_neg hl, dayLoop_step c y t d k (by omega) (by omega) (by omega) (by omega), h13]
      rw [dayLoop_stop c y _ _ _ (by have := (numDays_range y (t + 1)).1; omega)]
      simp only [OutE.ok_bind]
      rw [monthLoop_eq c _ y (t + 1) (Nat.le_refl _) (by omega) (by omega) (by omega) (by omega)]
      simp only [OutE.ok_bind]
      rw [show t + 1 - 1 = t by omega]

/-- Closed form of adding months, for a resulting month number ≥ 1. -/
theorem addMonths_closed_full {m : Moment} (hc : Sane c) (hm : m.Valid c) (n : Int) (hn : 1 ≤ m.month + n)
    (hb : m.month + n ≤ 9223372036854775807) (hb' : m.month + n = 9223372036854775807 → m.day ≤ 30) :
    calculate c (.moment m + .months n) = Eval.buildMoment c
      ⟨(monthDate m.year (m.month + n) m.day).1, (monthDate m.year (m.month + n) m.day).2.1,
       (monthDate m.year (m.month + n) m.day).2.2, m.hour, m.minute, m.second⟩ := by
  obtain ⟨h1, h2, ⟨h3, h4, h5, h6⟩, t, -⟩ := hm
  have hb31 := Cal.monthLen_bounds (y := m.year) h3 h4
  unfold Sane at hc
  rw [calc_add_moment, exec_addToMoment]
  simp only [Eval.addToMoment, Cfg.add]
  rw [chk_in c (by omega) (by omega), OutE.ok_bind, adjustAdd_time c t ⟨by omega, by omega⟩,
    loops_month c (by omega) (by omega) hn (by omega) (by omega) h5 (by omega), OutE.ok_bind]

theorem addMonths_closed {m : Moment} (hc : Sane c) (hm : m.Valid c) (n : Int) (hn : 1 ≤ m.month + n)
    (hb : n ≤ 9223372036854775700) :
    calculate c (.moment m + .months n) = Eval.buildMoment c
      ⟨(monthDate m.year (m.month + n) m.day).1, (monthDate m.year (m.month + n) m.day).2.1,
       (monthDate m.year (m.month + n) m.day).2.2, m.hour, m.minute, m.second⟩ :=
  addMonths_closed_full c hc hm n hn (by have := hm.2.2.1.2.1; omega) (by have := hm.2.2.1.2.1; omega)

/-- Closed form of adding years, when the resulting year is an `i32`. -/
theorem addYears_closed {m : Moment} (hm : m.Valid c) (n : Int)
    (hn1 : -2147483648 ≤ m.year + n) (hn2 : m.year + n ≤ 2147483647) :
    calculate c (.moment m + .years n) = Eval.buildMoment c
      ⟨(monthDate (m.year + n) m.month m.day).1, (monthDate (m.year + n) m.month m.day).2.1,
       (monthDate (m.year + n) m.month m.day).2.2, m.hour, m.minute, m.second⟩ := by
  obtain ⟨h1, h2, ⟨h3, h4, h5, h6⟩, t, -⟩ := hm
  have hb31 := Cal.monthLen_bounds (y := m.year) h3 h4
  rw [calc_add_moment, exec_addToMoment]
  simp only [Eval.addToMoment, Cfg.add]
  rw [chk_in c (by omega) (by omega), OutE.ok_bind, adjustAdd_time c t ⟨by omega, by omega⟩,
    loops_month c (by omega) (by omega) h3 (by omega) (by omega) h5 (by omega), OutE.ok_bind]

theorem instant_of {y mo d i : Int} (h : Cal.dayNumber y mo d = i / 86400) :
    Cal.instant y mo d (todH i) (todM i) (todS i) = i := by
  unfold Cal.instant todH todM todS; omega

theorem todS_add {i : Int} : todS i = i % 60 := rfl

/-- The outcome of `buildMoment` is the moment or an `OutOfBounds` error. -/
theorem build_cases {p : Parts} (hy1 : -2147483648 ≤ p.y) (hy2 : p.y ≤ 2147483647)
    (hmo : 0 ≤ p.mo ∧ p.mo ≤ 4294967295) (hd : 0 ≤ p.d ∧ p.d ≤ 4294967295) (ht : Cal.ValidTime p.h p.mi p.s) :
    Eval.buildMoment c p =
      if c.minYear ≤ p.y ∧ p.y ≤ c.maxYear ∧ Cal.ValidDate p.y p.mo p.d
      then .ok (.moment ⟨p.y, p.mo, p.d, p.h, p.mi, p.s, 0⟩)
      else .err (.outOfBounds p.y p.mo p.h p.h p.mi p.s) := by
  obtain ⟨y, mo, d, h, mi, s⟩ := p
  have ht' := ht
  obtain ⟨t1, t2, t3, t4, t5, t6⟩ := ht'
  simp only at *
  rw [build_in c hy1 hy2 hmo hd (by omega) (by omega) (by omega)]
  simp only [ht, and_true]

/-- The code's date after adding a bounded amount is small. -/
theorem codeDate_small {y N y' mo' d' : Int} (h : CodeDate y N y' mo' d') (hy1 : -1000000 ≤ y) (hy2 : y ≤ 1000000)
    (hN : N ≤ 770000000000) : -2147483648 ≤ y' ∧ y' ≤ 2147483647 ∧ (1 ≤ mo' ∧ mo' ≤ 12) ∧ (1 ≤ d' ∧ d' ≤ 31) := by
  obtain ⟨c1, c2⟩ := h
  have := Cal.yearLen_bounds y
  by_cases hgt : N ≤ Cal.yearLen y
  · obtain ⟨rfl, ⟨v1, v2, v3, v4⟩, -⟩ := c1 hgt
    have := Cal.monthLen_bounds (y := y') v1 v2
    omega
  · obtain ⟨e1, e2, e3⟩ := c2 (by omega)
    omega

/-- `build_cases` with years up to nearly 2^32: the cast to 32 bits then makes them negative and far out of chrono's range. -/
theorem build_far (hc : Sane c) {p : Parts} (hy1 : -2147483648 ≤ p.y) (hy2 : p.y ≤ 4293900000)
    (hmo : 0 ≤ p.mo ∧ p.mo ≤ 4294967295) (hd : 0 ≤ p.d ∧ p.d ≤ 4294967295) (ht : Cal.ValidTime p.h p.mi p.s) :
    Eval.buildMoment c p =
      if c.minYear ≤ p.y ∧ p.y ≤ c.maxYear ∧ Cal.ValidDate p.y p.mo p.d
      then .ok (.moment ⟨p.y, p.mo, p.d, p.h, p.mi, p.s, 0⟩)
      else .err (.outOfBounds (asI32 p.y) p.mo p.h p.h p.mi p.s) := by
  unfold Sane at hc
  by_cases h : p.y ≤ 2147483647
  · rw [build_cases c hy1 h hmo hd ht, asI32_id hy1 h]
  · have e : asI32 p.y = p.y - 4294967296 := by unfold asI32; rw [Int.bmod_def]; split <;> omega
    have e2 : asI32 (p.y - 4294967296) = p.y - 4294967296 := asI32_id (by omega) (by omega)
    have hb : Eval.buildMoment c p = Eval.buildMoment c ⟨p.y - 4294967296, p.mo, p.d, p.h, p.mi, p.s⟩ := by
      unfold Eval.buildMoment; simp only [e, e2]
    rw [hb, build_cases c (p := ⟨p.y - 4294967296, p.mo, p.d, p.h, p.mi, p.s⟩) (by simp only; omega) (by simp only; omega) hmo hd ht,
      if_neg (by simp only; omega), if_neg (by omega), e]

theorem codeDate_far {y N y' mo' d' : Int} (h : CodeDate y N y' mo' d') (hy1 : -1000000 ≤ y) (hy2 : y ≤ 1000000)
    (hN : N ≤ 1545200000000) : -2147483648 ≤ y' ∧ y' ≤ 4293900000 ∧ (1 ≤ mo' ∧ mo' ≤ 12) ∧ (1 ≤ d' ∧ d' ≤ 31) := by
  obtain ⟨c1, c2⟩ := h
  have := Cal.yearLen_bounds y
  by_cases hgt : N ≤ Cal.yearLen y
  · obtain ⟨rfl, ⟨v1, v2, v3, v4⟩, -⟩ := c1 hgt
    have := Cal.monthLen_bounds (y := y') v1 v2
    omega
  · obtain ⟨e1, e2, e3⟩ := c2 (by omega)
    omega

theorem monthDate_far {y t d : Int} (hy1 : -1000000 ≤ y) (hy2 : y ≤ 1000000) (ht : 1 ≤ t)
    (ht2 : t ≤ 51510000000) (hd1 : 1 ≤ d) (hd2 : d ≤ 31) :
    -2147483648 ≤ (monthDate y t d).1 ∧ (monthDate y t d).1 ≤ 4293900000 ∧
    (1 ≤ (monthDate y t d).2.1 ∧ (monthDate y t d).2.1 ≤ 13) ∧ (1 ≤ (monthDate y t d).2.2 ∧ (monthDate y t d).2.2 ≤ 31) := by
  unfold monthDate
  split
  · have := Cal.monthLen_bounds (y := y) ht ‹_›
    split <;> simp only <;> omega
  · split <;> simp only <;> omega

theorem monthDate_small {y t d : Int} (hy1 : -1000000 ≤ y) (hy2 : y ≤ 1000000) (ht : 1 ≤ t)
    (ht2 : t ≤ 25000000000) (hd1 : 1 ≤ d) (hd2 : d ≤ 31) :
    -2147483648 ≤ (monthDate y t d).1 ∧ (monthDate y t d).1 ≤ 2147483647 ∧
    (1 ≤ (monthDate y t d).2.1 ∧ (monthDate y t d).2.1 ≤ 13) ∧ (1 ≤ (monthDate y t d).2.2 ∧ (monthDate y t d).2.2 ≤ 31) := by
  unfold monthDate
  split
  · have := Cal.monthLen_bounds (y := y) ht ‹_›
    split <;> simp only <;> omega
  · split <;> simp only <;> omega

end Kairos
