import Verif.Props.Values
import Verif.Lemmas.Order

/-!
# C94: the order of weekdays and of months
-/

namespace Props
open Kairos Spec

theorem day_rank (d : Day) : (d.rank : Int) = d.into := by cases d <;> rfl
theorem month_rank (m : Month) : (m.rank : Int) + 1 = m.into := by cases m <;> rfl

/-- **C94.** The orders of weekdays and of months are total orders compatible with equality. -/
theorem C94_total_order :
    (∀ a b : Day, a.cmp b = .eq ↔ a = b) ∧ (∀ a b : Day, a.cmp b = .gt ↔ b.cmp a = .lt) ∧
    (∀ a b c : Day, a.cmp b = .lt → b.cmp c = .lt → a.cmp c = .lt) ∧
    (∀ a b : Month, a.cmp b = .eq ↔ a = b) ∧ (∀ a b : Month, a.cmp b = .gt ↔ b.cmp a = .lt) ∧
    (∀ a b c : Month, a.cmp b = .lt → b.cmp c = .lt → a.cmp c = .lt) := by
  refine ⟨?_, ?_, ?_, ?_, ?_, ?_⟩
  · intro a b; cases a <;> cases b <;> decide
  · intro a b; cases a <;> cases b <;> decide
  · intro a b c
    simp only [Day.cmp, Nat.compare_eq_lt]
    omega
  · intro a b; cases a <;> cases b <;> decide
  · intro a b; cases a <;> cases b <;> decide
  · intro a b c
    simp only [Month.cmp, Nat.compare_eq_lt]
    omega

/-- **C94.** Within a week that begins on a Monday the order of the weekdays is the order of the days. -/
theorem C94_days_of_a_week (monday a b : Moment) (d d' : Day) (h0 : (TT.moment monday).isA .monday = .ok true)
    (ha : ∃ i : Int, 0 ≤ i ∧ i < 7 ∧ Cal.dayNumber a.year a.month a.day = Cal.dayNumber monday.year monday.month monday.day + i)
    (hb : ∃ i : Int, 0 ≤ i ∧ i < 7 ∧ Cal.dayNumber b.year b.month b.day = Cal.dayNumber monday.year monday.month monday.day + i)
    (hd : (TT.moment a).isA d = .ok true) (hd' : (TT.moment b).isA d' = .ok true) :
    (d.cmp d' = .lt ↔ Cal.dayNumber a.year a.month a.day < Cal.dayNumber b.year b.month b.day) ∧
    (d.cmp d' = .eq ↔ Cal.dayNumber a.year a.month a.day = Cal.dayNumber b.year b.month b.day) ∧
    (d.cmp d' = .gt ↔ Cal.dayNumber b.year b.month b.day < Cal.dayNumber a.year a.month a.day) := by
  obtain ⟨i, i0, i1, hi⟩ := ha
  obtain ⟨j, j0, j1, hj⟩ := hb
  simp only [TT.isA, OutE.ok.injEq, beq_iff_eq, Moment.weekday, Cal.weekday, Day.into] at h0
  simp only [TT.isA, OutE.ok.injEq, beq_iff_eq, Moment.weekday, Cal.weekday, ← day_rank] at hd hd'
  simp only [Day.cmp, Nat.compare_eq_lt, Nat.compare_eq_eq, Nat.compare_eq_gt]
  omega

example := C94_days_of_a_week (at_ 2017 6 12 0 0 0) (at_ 2017 6 14 0 0 0) (at_ 2017 6 18 0 0 0) .wednesday .sunday (by decide)
  ⟨2, by decide, by decide, by decide⟩ ⟨6, by decide, by decide, by decide⟩ (by decide) (by decide)

/-- **C94.** Within a year the order of the months is chronological: a moment in an earlier month comes before one in a later
month, and moments of the same month have the same month. -/
theorem C94_months_of_a_year (c : Cfg) (a b : Moment) (hva : a.Valid c) (hvb : b.Valid c) (hy : a.year = b.year) (mo mo' : Month)
    (ha : (TT.moment a).isIn mo = .ok true) (hb : (TT.moment b).isIn mo' = .ok true) :
    (mo.cmp mo' = .lt ↔ a.month < b.month) ∧ (mo.cmp mo' = .eq ↔ a.month = b.month) ∧ (mo.cmp mo' = .gt ↔ b.month < a.month) ∧
    (mo.cmp mo' = .lt → (TT.moment a).cmp (.moment b) = .lt ∧ a.instant < b.instant) := by
  simp only [TT.isIn, OutE.ok.injEq, beq_iff_eq, ← month_rank] at ha hb
  simp only [Month.cmp, Nat.compare_eq_lt, Nat.compare_eq_eq, Nat.compare_eq_gt]
  refine ⟨by omega, by omega, by omega, fun h => ?_⟩
  have hl : a.month < b.month := by omega
  have h1 : (TT.moment a).cmp (.moment b) = .lt := by
    simp only [TT.cmp, Moment.cmp, hy]
    simp [Int.compare_eq_lt.2 hl, Ordering.then]
  refine ⟨h1, ?_⟩
  rcases (C58_chronological c a b hva hvb).1 h1 with h | ⟨h, -⟩
  · exact h
  · have := (Cal.instant_inj hva.2.2.1 hvb.2.2.1 hva.2.2.2.1 hvb.2.2.2.1 h).2.1
    omega

/-- The week of the 12th of June 2017: its Wednesday comes before its Sunday. -/
example : (TT.moment (at_ 2017 6 12 0 0 0)).isA .monday = .ok true ∧ (TT.moment (at_ 2017 6 14 0 0 0)).isA .wednesday = .ok true ∧
    (TT.moment (at_ 2017 6 18 0 0 0)).isA .sunday = .ok true ∧ Day.wednesday.cmp .sunday = .lt ∧
    Cal.dayNumber 2017 6 14 = Cal.dayNumber 2017 6 12 + 2 ∧ Cal.dayNumber 2017 6 18 = Cal.dayNumber 2017 6 12 + 6 := by decide
example : (at_ 2017 2 28 23 0 0).Valid (std .debug) ∧ (TT.moment (at_ 2017 2 28 23 0 0)).isIn .february = .ok true ∧
    (TT.moment (at_ 2017 11 1 0 0 0)).isIn .november = .ok true ∧ Month.february.cmp .november = .lt := by decide

end Props
