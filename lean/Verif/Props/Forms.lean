import Verif.Spec.Forms
import Verif.Model.Display
import Verif.Lemmas.Display
import Verif.Props.Texts

/-!
# C30, C58, C87, C88: the words for the forms of a value, and what they are used for

`name()`, the order of values, the debug texts of values and the texts of errors, each for every form.
-/

namespace Props
open Kairos Spec Kairos.Text

/-- **C30.** `name()` is the word for the form of the value. -/
theorem C30_name_word (t : TT) : t.name = word t := by cases t <;> rfl

/-- **C30.** For an amount it is the unit, as the program prints it. -/
theorem C30_name_unit (u : TUnit) (n : Int) : (amt u n).name = unitLabel u := by cases u <;> rfl

example : (TT.moment (at_ 2017 6 15 7 8 9) + .days 3).name = "Addition" := rfl

/-- **C58.** Two values of different forms compare as their forms are listed, whatever is in them. -/
theorem C58_different_forms (a b : TT) (h : word a ≠ word b) : a.cmp b = compare (forms.idxOf (word a)) (forms.idxOf (word b)) := by
  cases a <;> cases b <;> first
    | exact absurd rfl h
    | rfl
    | decide +kernel

example := C58_different_forms (.endOfMinute (.days 3)) (.days 3 + .hours 2) (by decide)

/-- **C58.** Two expressions of the same form compare as their parts do, the left ones first. -/
theorem C58_same_form (a b : TT) (h : word a = word b) (hp : parts a ≠ []) : a.cmp b = firstDifference TT.cmp (parts a) (parts b) := by
  cases a <;> cases b <;> first
    | (exfalso; revert h; simp only [word]; decide)
    | exact absurd rfl hp
    | simp [TT.cmp, parts, firstDifference]

example : (TT.days 3 - .hours 2).cmp (.days 3 - .hours 1) = .gt ∧ (TT.days 2 - .hours 2).cmp (.days 3 - .hours 1) = .lt := by decide
example := C58_same_form (.days 3 - .hours 2) (.days 3 - .hours 1) rfl (by decide)

/-- **C58.** Two amounts of one unit compare as their numbers. -/
theorem C58_amounts (u : TUnit) (n k : Int) : (amt u n).cmp (amt u k) = compare n k := by cases u <;> rfl

/-- **C87.** The debug text of an expression: the word for its form and in parentheses the debug texts of its parts, left one first. -/
theorem C87_debug_expression (t : TT) (h : parts t ≠ []) :
    debug t = (word t).toList ++ '(' :: commas ((parts t).map debug) ++ [')'] := by
  cases t <;> first
    | exact absurd rfl h
    | simp [debug, word, parts, commas]

example : debug (.endOfYear (.days 3 - .hours (-2))) = "EndOfYear(Subtraction(Days(3), Hours(-2)))".toList := by decide +kernel
example := C87_debug_expression (.endOfYear (.days 3 - .hours (-2))) (by decide)

/-- **C87.** The debug text of an amount: its unit and in parentheses its number in decimal digits, with a `-` before it exactly if it is
negative. -/
theorem C87_debug_amount (u : TUnit) (n : Int) :
    ∃ ds, Numeral ds n.natAbs ∧ debug (amt u n) = (unitLabel u).toList ++ '(' :: (if n < 0 then ['-'] else []) ++ ds ++ [')'] := by
  refine ⟨digits n.natAbs, numeral_digits _, ?_⟩
  have hs : debug (amt u n) = (unitLabel u).toList ++ '(' :: int n ++ [')'] := by
    cases u <;> simp [debug, amt, unitLabel]
  rw [hs]
  unfold int
  split <;> simp

/-- **C87.** The debug text of a moment: the text the program prints for it, in parentheses, with a `T` instead of the blank between date and
time and without the blank at the end. -/
theorem C87_debug_moment (m : Moment) :
    ∃ date time, prettyPrint (.moment m) = date ++ ' ' :: time ++ [' '] ∧ ' ' ∉ date ∧ ' ' ∉ time ∧
      debug (.moment m) = "Moment(".toList ++ date ++ 'T' :: time ++ [')'] := by
  have hd : ∀ n, ' ' ∉ digits n := by
    intro n h
    have := (numeral_digits n).1.2 ' ' h
    revert this
    decide
  have hp : ∀ w n, ' ' ∉ pad w n := by
    intro w n h
    unfold pad at h
    rcases List.mem_append.mp h with h | h
    · exact absurd (List.eq_of_mem_replicate h) (by decide)
    · exact hd _ h
  refine ⟨date m, time m, by simp [prettyPrint, moment], ?_, ?_, by simp [debug, moment]⟩
  · unfold date year
    split <;> (try split) <;> simp [hp]
  · have hf : ∀ n, ' ' ∉ fraction n := by
      intro n
      unfold fraction
      split
      · simp
      · split
        · simp [hp]
        · split <;> simp [hp]
    unfold time
    simp [hp, hf]

example : debug (.moment (at_ 2017 6 15 7 8 9)) = "Moment(2017-06-15T07:08:09)".toList := by decide +kernel

/-- **C88.** The texts of the errors that are not about a sum, a difference or a date out of bounds. -/
theorem C88_other_texts (t : TT) (name : String) :
    error (.argumentErrorNotAnAmount t) = "The passed argument is not an amount: ".toList ++ debug t ∧
    error (.argumentErrorNotAMoment name) = "The passed argument is not a moment, but a ".toList ++ name.toList ∧
    error (.cannotCalculateEndOfYearOn t) = "Argument Error: Cannot calculate end-of-year on a ".toList ++ debug t ∧
    error (.cannotCalculateEndOfMonthOn t) = "Argument Error: Cannot calculate end-of-month on a ".toList ++ debug t ∧
    error (.cannotCompareDayTo name) = "Cannot compare Day to non-Moment TimeType: \"".toList ++ name.toList ++ ['"'] ∧
    error (.cannotCompareMonthTo name) = "Cannot compare Month to non-Moment TimeType: \"".toList ++ name.toList ++ ['"'] ∧
    error .unknownError = "Unknown Error".toList ∧ error .notADateInsideIterator = "Cannot calculate date for iterator".toList ∧
    error .unknownParserError = "Unknown parser error".toList := by
  refine ⟨?_, ?_, ?_, ?_, ?_, ?_, rfl, rfl, rfl⟩ <;> simp [error]

/-- **C88.** The debug text of an error about expressions: the word for the error and in parentheses the debug texts of the expressions, left
one first. -/
theorem C88_debug_operands (e : ErrorKind) (h : operands e ≠ []) :
    errorDebug e = (errorWord e).toList ++ '(' :: commas ((operands e).map debug) ++ [')'] := by
  cases e <;> first
    | exact absurd rfl h
    | simp [errorDebug, errorWord, operands, commas]

example : errorDebug (.cannotSub (.days 3) (.hours 2 + .hours 1)) = "CannotSub(Days(3), Addition(Hours(2), Hours(1)))".toList := by
  decide +kernel
example := C88_debug_operands (.cannotSub (.days 3) (.hours 2)) (by decide)

/-- **C88.** The debug texts of the other errors: a name in quotes, the six numbers in the order year, month, day, hour, minute, second, or the
word alone. -/
theorem C88_debug_others (name : String) (y mo d h mi s : Int) (h0 : 0 ≤ mo ∧ 0 ≤ d ∧ 0 ≤ h ∧ 0 ≤ mi ∧ 0 ≤ s) :
    (∀ e, e = ErrorKind.argumentErrorNotAMoment name ∨ e = .cannotCompareDayTo name ∨ e = .cannotCompareMonthTo name →
      errorDebug e = (errorWord e).toList ++ "(\"".toList ++ name.toList ++ "\")".toList) ∧
    (∃ ys mos ds hs mis ss, Numeral ys y.natAbs ∧ Numeral mos mo ∧ Numeral ds d ∧ Numeral hs h ∧ Numeral mis mi ∧ Numeral ss s ∧
      errorDebug (.outOfBounds y mo d h mi s) =
        "OutOfBounds(".toList ++ commas [(if y < 0 then ['-'] else []) ++ ys, mos, ds, hs, mis, ss] ++ [')']) ∧
    (∀ e, e = ErrorKind.unknownError ∨ e = .notADateInsideIterator ∨ e = .unknownParserError → errorDebug e = (errorWord e).toList) := by
  have key : ∀ x : Int, 0 ≤ x → Numeral (nat x) x := by
    intro x hx
    have := numeral_digits x.toNat
    rwa [Int.toNat_of_nonneg hx] at this
  refine ⟨?_, ⟨digits y.natAbs, nat mo, nat d, nat h, nat mi, nat s, numeral_digits _, key _ h0.1, key _ h0.2.1, key _ h0.2.2.1,
    key _ h0.2.2.2.1, key _ h0.2.2.2.2, ?_⟩, ?_⟩
  · rintro e (rfl | rfl | rfl) <;> simp [errorDebug, errorWord]
  · simp only [errorDebug, int, commas]
    split <;> simp
  · rintro e (rfl | rfl | rfl) <;> rfl

example : errorDebug (.outOfBounds (-4) 2 30 7 8 9) = "OutOfBounds(-4, 2, 30, 7, 8, 9)".toList := by decide +kernel
example := C88_debug_others "Days" (-4) 2 30 7 8 9 (by decide)

end Props
