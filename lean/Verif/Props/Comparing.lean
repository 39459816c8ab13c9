import Verif.Lemmas.Order
import Verif.Props.Laws
import Verif.Lemmas.EndOf
import Verif.Spec.Chain
import Verif.Spec.Valid

/-!
# C105: comparing values that are not evaluated

The derived `<`, `==`, `max`, `sort` … of `TimeType` look at how a value is written, not at what it stands for.
-/

namespace Props
open Kairos Spec

/-- **C105, amounts (partial)**: two amounts of one unit compare as their numbers. -/
theorem C105_one_unit_partial (u : TUnit) (n k : Int) :
    (amt u n).cmp (amt u k) = compare (n * u.secs) (k * u.secs) := by
  have h : ∀ s : Int, 0 < s → compare n k = compare (n * s) (k * s) := by
    intro s hs
    rcases Int.lt_trichotomy n k with h | h | h
    · rw [Int.compare_eq_lt.2 h, Int.compare_eq_lt.2 (Int.mul_lt_mul_of_pos_right h hs)]
    · rw [h, Int.compare_eq_eq.2 rfl, Int.compare_eq_eq.2 rfl]
    · rw [Int.compare_eq_gt.2 h, Int.compare_eq_gt.2 (Int.mul_lt_mul_of_pos_right h hs)]
  cases u <;> exact h _ (by decide)

example : (amt .hour 23).cmp (amt .hour 24) = .lt := by decide

/-- **C105, amounts of two units (partial)**: the one of the shorter unit is always the smaller one, whatever the
numbers, and they are never equal. So the comparison is right exactly if that amount is in fact the shorter one. -/
theorem C105_two_units_partial (u v : TUnit) (h : u.secs < v.secs) (n k : Int) :
    (amt u n).cmp (amt v k) = .lt ∧ (amt v k).cmp (amt u n) = .gt ∧ amt u n ≠ amt v k ∧
    ((amt u n).cmp (amt v k) = compare (n * u.secs) (k * v.secs) ↔ n * u.secs < k * v.secs) := by
  have h1 : (amt u n).cmp (amt v k) = .lt := by
    revert h
    cases u <;> cases v <;> first
      | exact fun h => absurd h (by decide)
      | exact fun _ => rfl
  refine ⟨h1, ?_, ?_, ?_⟩
  · rw [TT.cmp_swap (amt u n), h1]; rfl
  · intro e
    rw [TT.cmp_eq.2 e] at h1
    cases h1
  · rw [h1, eq_comm, Int.compare_eq_lt]

example : TUnit.secs .second < TUnit.secs .minute ∧ TUnit.secs .month < TUnit.secs .year := by decide

/-- **C105 is false of the code**: 3600 seconds are less than one minute, 60 seconds are not one minute, and 13 months
are less than a year taken away. -/
theorem C105_refuted_amounts :
    (TT.seconds 3600).cmp (.minutes 1) = .lt ∧ TT.seconds 60 ≠ .minutes 1 ∧
    (TT.months 13).cmp (.years (-1)) = .lt := by decide

/-- **C105, expressions (partial)**: any amount comes before any moment, and any moment before anything that has still to be
computed (sums, differences, ends of periods), whatever these stand for. -/
theorem C105_by_form_partial (u : TUnit) (n : Int) (m : Moment) (x y : TT) (e : EndKind) :
    (amt u n).cmp (.moment m) = .lt ∧ (TT.moment m).cmp (x + y) = .lt ∧ (TT.moment m).cmp (x - y) = .lt ∧
    (TT.moment m).cmp (e.app x) = .lt := by
  refine ⟨?_, rfl, rfl, ?_⟩
  · cases u <;> rfl
  · cases e <;> rfl

/-- **C105 is false of the code**: for every two moments `a` and `b` there is an expression standing for `a` that compares as
later than `b` — so also when `a` is the earlier one —, and is not equal to the moment `a`. -/
theorem C105_refuted_expressions (c : Cfg) (hc : Sane c) (a b : Moment) (ha : a.Valid c) (hz : a.nano = 0) :
    ∃ x : TT, calculate c x = .ok (.moment a) ∧ x.cmp (.moment b) = .gt ∧ x ≠ .moment a := by
  refine ⟨.moment a + .days 0, ?_, rfl, fun e => nomatch e⟩
  rw [show TT.days 0 = amt .day 0 from rfl, (C19_zero c hc a ha .day).1]
  cases a; cases hz; rfl

/-- 1 January compares as later than 2 January. -/
example : calculate (std .debug) (.moment (at_ 2018 1 1 0 0 0) + .days 0) = .ok (.moment (at_ 2018 1 1 0 0 0)) ∧
    (TT.moment (at_ 2018 1 1 0 0 0) + .days 0).cmp (.moment (at_ 2018 1 2 0 0 0)) = .gt := by decide +kernel

end Props
