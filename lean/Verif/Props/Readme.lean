import Verif.Props.Subtracting
import Verif.Props.EndOf
import Verif.Props.Evaluation

/-!
# C97: the example of the README
-/

namespace Props
open Kairos Spec

/-- **C97 refuted.** `(today - weeks(1) + days(2)).end_of_month()`, the first line of code in the README, is an error on every day:
an error about adding a moment to two days if the day a week ago is found, and OutOfBounds if not. -/
theorem C97_refuted (c : Cfg) (hc : Sane c) (m : Moment) (hm : m.Valid c) :
    TT.weeks c 1 = .ok (.days 7) ∧
    ((∃ r, calculate c (.moment m - .days 7) = .ok (.moment r) ∧
      calculate c (.endOfMonth (.moment m - .days 7 + .days 2)) = .err (.cannotAdd (.days 2) (.moment r))) ∨
    (∃ Y M D H MI S, calculate c (.endOfMonth (.moment m - .days 7 + .days 2)) = .err (.outOfBounds Y M D H MI S))) := by
  refine ⟨by cases c with | mk p a b => cases p <;> rfl, ?_⟩
  have e : calculate c (.endOfMonth (.moment m - .days 7 + .days 2)) =
      (do let r ← calculate c (.moment m - .days 7); let v ← calculate c (.days 2 + r); endVal c .month v) := by
    rw [calc_month]
    have := calc_minus_plus c (.moment m) (.days 7) .day 2
    simp only [amt] at this
    rw [this, OutE.bind_assoc']
  obtain ⟨y, mo, d, -, h⟩ := sub_days c hc hm 7 (by decide) (by decide)
  simp only [amt] at h
  by_cases hv : c.minYear ≤ y ∧ y ≤ c.maxYear ∧ Cal.ValidDate y mo d
  · rw [if_pos hv] at h
    refine .inl ⟨_, h, ?_⟩
    rw [e, h]
    rfl
  · rw [if_neg hv] at h
    refine .inr ⟨y, asU32 mo, m.hour, m.hour, m.minute, m.second, ?_⟩
    rw [e, h]
    rfl

/-- On 15 June 2017, and on 6 March 2017. -/
example : calculate (std .debug) (.endOfMonth (.moment (at_ 2017 6 15 12 0 0) - .days 7 + .days 2)) =
      .err (.cannotAdd (.days 2) (.moment (at_ 2017 6 8 12 0 0))) ∧
    calculate (std .debug) (.endOfMonth (.moment (at_ 2017 3 6 12 0 0) - .days 7 + .days 2)) = .err (.outOfBounds 2017 2 12 12 0 0) := by
  decide +kernel

/-- **C97 (partial).** `(today - days(n)).end_of_month()`, the second line with any number of days that does not lead further than into the month before:
`Y`, `M`, `D` is the date `n` days ago. The result is midnight of the last day of its month, or an OutOfBounds error; and it is that error exactly if the
month before is too short for the day the code takes (the one `n - day` days before a 31st), or is before the first year. -/
theorem C97_days_ago_partial (c : Cfg) (hc : Sane c) (m : Moment) (hm : m.Valid c) (n : Int) (hn : 0 ≤ n) (hb : n ≤ m.day + 27)
    (Y M D : Int) (hd : Cal.ValidDate Y M D) (hi : Cal.dayNumber Y M D = Cal.dayNumber m.year m.month m.day - n) :
    if (n < m.day ∨ 31 - (n - m.day) ≤ Cal.monthLen Y M) ∧ c.minYear ≤ Y
    then calculate c (.endOfMonth (.moment m - .days n)) = .ok (.moment (at_ Y M (Cal.monthLen Y M) 0 0 0))
    else ∃ Y' M' D' H MI S, calculate c (.endOfMonth (.moment m - .days n)) = .err (.outOfBounds Y' M' D' H MI S) := by
  have hm' := hm
  obtain ⟨a1, a2, ⟨a3, a4, a5, a6⟩, t, -⟩ := hm'
  have ml := Cal.monthLen_bounds (y := m.year) a3 a4
  obtain ⟨y, mo, d, hp, h⟩ := sub_days c hc hm n hn (by omega)
  simp only [amt] at h
  -- what the code takes for the date
  have key : (Y = y ∧ M = mo) ∧ (Cal.ValidDate y mo d ↔ n < m.day ∨ 31 - (n - m.day) ≤ Cal.monthLen Y M) ∧ y ≤ c.maxYear := by
    by_cases hlt : n < m.day
    · rw [dateP_same a3 (by omega)] at hp
      cases hp
      have hv : Cal.ValidDate m.year m.month (m.day - n) := ⟨a3, a4, by omega, by omega⟩
      have := Cal.dayNumber_inj hd hv (by unfold Cal.dayNumber at hi ⊢; omega)
      exact ⟨⟨this.1, this.2.1⟩, ⟨fun _ => .inl hlt, fun _ => hv⟩, a2⟩
    · rw [dateP_prev a3 (by omega) (by omega)] at hp
      cases hp
      have pv := prevMonth_valid (y := m.year) a3 a4
      have pl := Cal.monthLen_bounds (y := (prevMonth m.year m.month).1) pv.1 pv.2.1
      have hv : Cal.ValidDate (prevMonth m.year m.month).1 (prevMonth m.year m.month).2
          (Cal.monthLen (prevMonth m.year m.month).1 (prevMonth m.year m.month).2 - (n - m.day)) := ⟨pv.1, pv.2.1, by omega, by omega⟩
      have hdn := dayNumber_prevMonth (y := m.year) a3 a4
        (Cal.monthLen (prevMonth m.year m.month).1 (prevMonth m.year m.month).2 - (n - m.day))
      have := Cal.dayNumber_inj hd hv (by rw [hdn, hi]; unfold Cal.dayNumber; omega)
      refine ⟨⟨this.1, this.2.1⟩, ?_, by omega⟩
      rw [this.1, this.2.1]
      unfold Cal.ValidDate
      omega
  obtain ⟨⟨rfl, rfl⟩, hk, hy⟩ := key
  by_cases hv : (n < m.day ∨ 31 - (n - m.day) ≤ Cal.monthLen Y M) ∧ c.minYear ≤ Y
  · rw [if_pos hv]
    rw [if_pos ⟨hv.2, hy, hk.2 hv.1⟩] at h
    obtain ⟨last, e, h1, h2⟩ := C11_end_of_month c _ _ ⟨hc, h, hv.2, hy, hk.2 hv.1, t, by simp only; decide, by simp only; decide⟩
    rw [e]
    have hl : last = Cal.monthLen Y M := by
      have := h2 (Cal.monthLen Y M) ⟨hd.1, hd.2.1, by have := hd.2.2; omega, Int.le_refl _⟩
      have := h1.2.2.2
      simp only at *
      omega
    rw [hl]
  · rw [if_neg hv]
    rw [if_neg (fun g => hv ⟨hk.1 g.2.2, g.1⟩)] at h
    rw [calc_month, h]
    exact ⟨_, _, _, _, _, _, rfl⟩

/-- Five days before 4 May is the end of April, although the code takes 30 April for the day five days ago (it is 29 April); on 5 May there is no
result (the code takes 31 April), and so on 4 March. -/
example : Cal.dayNumber 2017 4 29 = Cal.dayNumber 2017 5 4 - 5 ∧
    calculate (std .debug) (.endOfMonth (.moment (at_ 2017 5 4 12 0 0) - .days 5)) = .ok (.moment (at_ 2017 4 30 0 0 0)) ∧
    calculate (std .debug) (.endOfMonth (.moment (at_ 2017 5 5 12 0 0) - .days 5)) = .err (.outOfBounds 2017 4 12 12 0 0) ∧
    calculate (std .debug) (.endOfMonth (.moment (at_ 2017 3 4 12 0 0) - .days 5)) = .err (.outOfBounds 2017 2 12 12 0 0) := by
  decide +kernel

/-- The bound on `n` is needed: 31 days before 3 March 2017 is 31 January, but the result is the end of February. -/
theorem C97_refuted_month_ago : Cal.dayNumber 2017 1 31 = Cal.dayNumber 2017 3 3 - 31 ∧
    calculate (std .debug) (.endOfMonth (.moment (at_ 2017 3 3 12 0 0) - .days 31)) = .ok (.moment (at_ 2017 2 28 0 0 0)) := by
  decide +kernel

end Props
