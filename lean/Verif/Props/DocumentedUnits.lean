import Verif.Props.Values

/-!
# C99: the conversion rules in the documentation of TimeType
-/

namespace Props
open Kairos Spec

/-- **C99 (larger amounts).** The rules for amounts in a larger unit than the one asked for, as documented: 60 seconds in a
minute, 60 minutes in an hour, 24 hours in a day, 12 months in a year. Missing: 4 weeks in a month (see C99_refuted_weeks). -/
theorem C99_larger_partial (c : Cfg) (n : Int) :
    (InI64 (60 * n) → TT.getSeconds c (.minutes n) = .ok (60 * n) ∧ TT.getMinutes c (.hours n) = .ok (60 * n)) ∧
    (InI64 (24 * n) → TT.getHours c (.days n) = .ok (24 * n)) ∧
    (InI64 (12 * n) → TT.getMonths c (.years n) = .ok (12 * n)) := by
  have hin : ∀ k : Int, 0 < k → InI64 (k * n) → InI64 n := by
    intro k hk h
    unfold InI64 at *
    by_cases hn : 0 ≤ n
    · have := Int.mul_le_mul_of_nonneg_right (a := 1) (b := k) (c := n) (by omega) hn; omega
    · have := Int.mul_le_mul_of_nonpos_right (a := k) (b := 1) (c := n) (by omega) (by omega); omega
  refine ⟨fun h => ⟨?_, ?_⟩, fun h => ?_, fun h => ?_⟩
  · have e : (n * TUnit.minute.secs).tdiv TUnit.second.secs = 60 * n := by
      simp only [TUnit.secs]
      rw [show n * 60 = 60 * n * 1 by omega, Int.mul_tdiv_cancel _ (by decide)]
    have := C29_get c .minute .second n (hin 60 (by decide) h) (by rw [e]; exact h)
    rw [e] at this; exact this
  · have e : (n * TUnit.hour.secs).tdiv TUnit.minute.secs = 60 * n := by
      simp only [TUnit.secs]
      rw [show n * (60 * 60) = 60 * n * 60 by omega, Int.mul_tdiv_cancel _ (by decide)]
    have := C29_get c .hour .minute n (hin 60 (by decide) h) (by rw [e]; exact h)
    rw [e] at this; exact this
  · have e : (n * TUnit.day.secs).tdiv TUnit.hour.secs = 24 * n := by
      simp only [TUnit.secs]
      rw [show n * (24 * (60 * 60)) = 24 * n * (60 * 60) by omega, Int.mul_tdiv_cancel _ (by decide)]
    have := C29_get c .day .hour n (hin 24 (by decide) h) (by rw [e]; exact h)
    rw [e] at this; exact this
  · have e : (n * TUnit.year.secs).tdiv TUnit.month.secs = 12 * n := by
      simp only [TUnit.secs]
      rw [show n * (12 * (30 * (24 * (60 * 60)))) = 12 * n * (30 * (24 * (60 * 60))) by omega, Int.mul_tdiv_cancel _ (by decide)]
    have := C29_get c .year .month n (hin 12 (by decide) h) (by rw [e]; exact h)
    rw [e] at this; exact this

example : InI64 (60 * 5) ∧ TT.getSeconds (std .debug) (.minutes 5) = .ok (60 * 5) := by decide

/-- **C99 refuted (smaller amounts).** "If the TimeType is smaller than the queried type, zero is returned": for an amount in a smaller
unit the accessors give 0 exactly if it is less than one of the queried unit. -/
theorem C99_refuted_smaller (c : Cfg) (u v : TUnit) (n : Int) (hn : InI64 n) (hu : u.secs < v.secs) :
    get c v (amt u n) = .ok 0 ↔ -v.secs < n * u.secs ∧ n * u.secs < v.secs := by
  rw [C29_get_coarser c u v n hn (Int.le_of_lt hu)]
  have hv : 0 < v.secs := by cases v <;> decide
  generalize n * u.secs = a
  constructor
  · intro h
    have h0 : a.tdiv v.secs = 0 := by injection h
    have := Int.tmod_add_mul_tdiv a v.secs
    rw [h0] at this
    have h1 := Int.tmod_lt_of_pos a hv
    have h2 := Int.lt_tmod_of_pos a hv
    omega
  · rintro ⟨h1, h2⟩
    congr 1
    by_cases ha : 0 ≤ a
    · exact Int.tdiv_eq_zero_of_lt ha h2
    · have := Int.tdiv_eq_zero_of_lt (a := -a) (b := v.secs) (by omega) (by omega)
      rw [Int.neg_tdiv] at this
      omega

example : InI64 120 ∧ TUnit.second.secs < TUnit.minute.secs ∧ get (std .debug) .minute (amt .second 120) = .ok 2 ∧
    get (std .debug) .minute (amt .second 59) = .ok 0 := by decide

/-- **C99 refuted (weeks).** "4 weeks make a month": `n` weeks are `7n/30` months. That is `n/4` only for
twenty-four numbers of weeks, the largest of them 43, and less than `n/4` for all others. -/
theorem C99_refuted_weeks (c : Cfg) (n : Int) (hn : 0 ≤ n) (h : InI64 (7 * n)) :
    TT.weeks c n = .ok (.days (7 * n)) ∧ TT.getMonths c (.days (7 * n)) = .ok (7 * n / 30) ∧
    (7 * n / 30 = n / 4 ↔ n ∈ [0, 1, 2, 3, 5, 6, 7, 9, 10, 11, 13, 14, 15, 18, 19, 22, 23, 26, 27, 30, 31, 35, 39, 43]) ∧
    7 * n / 30 ≤ n / 4 := by
  refine ⟨?_, ?_, ?_, by omega⟩
  · unfold TT.weeks Cfg.mul
    rw [show n * 7 = 7 * n by omega, chk_ok_of_in c h]
    rfl
  · have e := C29_get_coarser c .day .month (7 * n) h (by decide)
    rw [show (7 * n * TUnit.day.secs).tdiv TUnit.month.secs = 7 * n / 30 by
      simp only [TUnit.secs]
      rw [Int.mul_tdiv_mul_of_pos_left _ _ (by decide), Int.tdiv_eq_ediv_of_nonneg (by omega)]] at e
    exact e
  · simp only [List.mem_cons, List.not_mem_nil, or_false]
    by_cases hlt : n < 60
    · obtain ⟨k, rfl⟩ := Int.eq_ofNat_of_zero_le hn
      have : ∀ k < 60, (7 * (k : Nat) / 30 = k / 4 ↔ k ∈ [0, 1, 2, 3, 5, 6, 7, 9, 10, 11, 13, 14, 15, 18, 19, 22, 23, 26, 27, 30, 31, 35, 39, 43]) := by decide
      have := this k (by omega)
      simp only [List.mem_cons, List.not_mem_nil, or_false] at this
      omega
    · omega

example : InI64 (7 * 4) ∧ TT.getMonths (std .debug) (.days (7 * 4)) = .ok 0 ∧ TT.getMonths (std .debug) (.days (7 * 5)) = .ok 1 := by decide

end Props
