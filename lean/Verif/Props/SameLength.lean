import Verif.Props.AllAmounts
import Verif.Props.Equivalent

/-!
# C83: exactly when twelve months and a year have the same effect
-/

namespace Props
open Kairos Spec

/-- **C83, adding months and years, exactly when (partial).** `m + months(12 k)` and `m + years(k)`, `k ≥ 1` (up to two billion years), have the same outcome, be it a
date or an error, if and only if `m` is not on a 31st and, if it is on a 29 February, the year `k` years later is a leap year. -/
theorem C83_adding_months_iff_partial (c : Cfg) (hc : Sane c) (m : Moment) (hm : m.Valid c) (k : Int) (hk : 1 ≤ k) (hk' : k ≤ 2000000000) :
    calculate c (.moment m + .months (12 * k)) = calculate c (.moment m + .years k) ↔
      m.day ≤ 30 ∧ (m.month = 2 ∧ m.day = 29 → Cal.isLeap (m.year + k) = true) := by
  have hc' := hc
  unfold Sane at hc'
  obtain ⟨y1, y2, v, t, -⟩ := id hm
  obtain ⟨v1, v2, v3, v4⟩ := v
  have vb := @Cal.monthLen_bounds m.year m.month v1 v2
  by_cases hd : m.day = 31
  · refine iff_of_false (fun h => ?_) (by omega)
    rw [C18_adding_years_partial c m hm k (by omega) (by omega)] at h
    simp only [if_neg (show ¬ (m.month = 2 ∧ m.day = 29 ∧ Cal.isLeap (m.year + k) = false) by omega)] at h
    by_cases h12 : m.month = 12
    · rw [C17_from_the_31st_partial c hc m hm hd (12 * k) (m.year + k + 1) 1 (m.year + k + 1) 0 (by omega) (by omega)
        (by unfold Cal.monthIndex; omega) (by omega) (by omega) (by omega)] at h
      split at h <;> split at h <;> simp at h <;> omega
    · rw [C17_from_the_31st_partial c hc m hm hd (12 * k) (m.year + k) (m.month + 1) (m.year + k) 0 (by omega) (by omega)
        (by unfold Cal.monthIndex; omega) (by omega) (by omega) (by omega)] at h
      split at h <;> split at h <;> simp at h <;> omega
  · by_cases hf : m.month = 2 ∧ m.day = 29
    · rw [C18_adding_years_partial c m hm k (by omega) (by omega),
        C17_beyond_the_year_partial c hc m hm (by omega) (12 * k) (m.year + k) m.month (m.year + k) 0 (by omega) ⟨v1, v2⟩
        (by unfold Cal.monthIndex; omega) (by omega) (by omega) (by omega)]
      obtain ⟨f1, f2⟩ := hf
      have hv : Cal.ValidDate (m.year + k) m.month m.day ↔ Cal.isLeap (m.year + k) = true := by
        rw [f1, f2]; cases h : Cal.isLeap (m.year + k) <;> simp [Cal.ValidDate, Cal.monthLen, h]
      cases hl : Cal.isLeap (m.year + k) <;> rw [hl] at hv
      · refine iff_of_false (fun h => ?_) (fun h => by simpa using h.2 ⟨f1, f2⟩)
        rw [if_neg (fun h => by simpa using hv.1 h.2.2)] at h
        split at h <;> simp [f1, f2] at h
      · refine iff_of_true ?_ ⟨by omega, fun _ => rfl⟩
        have hv' := hv.2 rfl
        simp only [if_neg (show ¬ (m.month = 2 ∧ m.day = 29 ∧ true = false) by simp)]
        by_cases hy : c.minYear ≤ m.year + k ∧ m.year + k ≤ c.maxYear
        · rw [if_pos ⟨hy.1, hy.2, hv'⟩, if_neg (by omega)]
        · rw [if_neg (fun h => hy ⟨h.1, h.2.1⟩), if_pos (by omega)]
    · exact iff_of_true (C83_adding_months_partial c hc m hm k (by omega) hk' (by omega) hf) ⟨by omega, fun h => absurd h hf⟩

/-- From 29 February 2016: 96 months are 8 years, 12 months are not a year. -/
example : calculate (std .debug) (.moment (at_ 2016 2 29 0 0 0) + .months (12 * 8)) = calculate (std .debug) (.moment (at_ 2016 2 29 0 0 0) + .years 8) ∧
    calculate (std .debug) (.moment (at_ 2016 2 29 0 0 0) + .months (12 * 1)) ≠ calculate (std .debug) (.moment (at_ 2016 2 29 0 0 0) + .years 1) :=
  ⟨(C83_adding_months_iff_partial (std .debug) (sane_std _) (at_ 2016 2 29 0 0 0) (by decide) 8 (by decide) (by decide)).mpr (by decide),
    fun h => absurd ((C83_adding_months_iff_partial (std .debug) (sane_std _) (at_ 2016 2 29 0 0 0) (by decide) 1 (by decide) (by decide)).mp h) (by decide)⟩

/-- **C83 refuted, in general, for subtracting months.** 24 months, 36 months, ... are always an error when subtracted, although the same number of years may well be
fine. (Below 2^32 months.) -/
theorem C83_refuted_many_months (c : Cfg) (hc : Sane c) (m : Moment) (hm : m.Valid c) (k : Int) (hk : 2 ≤ k) (hb : 12 * k < 4294967296) :
    (∃ e, calculate c (.moment m - .months (12 * k)) = .err e) ∧
    (c.minYear ≤ m.year - k → (m.month = 2 ∧ m.day = 29 → Cal.isLeap (m.year - k) = true) →
      ∃ r, calculate c (.moment m - .years k) = .ok (.moment r) ∧ r.year = m.year - k ∧ r.month = m.month ∧ r.day = m.day) := by
  have hc' := hc
  unfold Sane at hc'
  obtain ⟨y1, y2, v, t, -⟩ := id hm
  obtain ⟨v1, v2, v3, v4⟩ := v
  refine ⟨?_, fun hy hl => ?_⟩
  · rcases C22_subtracting_months_partial c hc m hm (12 * k) (by omega) hb (m.year - k) m.month ⟨v1, v2⟩ (by unfold Cal.monthIndex; omega) with
      ⟨h, -⟩ | ⟨-, Y, M, D, H, MI, S, h⟩
    · omega
    · exact ⟨_, h⟩
  · refine ⟨{ m with year := m.year - k, nano := 0 }, ?_, rfl, rfl, rfl⟩
    rw [C23_subtracting_years_partial c m hm k (by omega) (by omega), if_pos]
    refine ⟨hy, by omega, v1, v2, v3, ?_⟩
    by_cases h2 : m.month = 2
    · rw [h2] at v4 ⊢
      by_cases h29 : m.day = 29
      · simp [Cal.monthLen, hl ⟨h2, h29⟩, h29]
      · have := Cal.monthLen_bounds (y := m.year - k) (m := 2) (by decide) (by decide)
        have : Cal.monthLen m.year 2 ≤ 29 := by unfold Cal.monthLen; simp only [if_true]; split <;> omega
        omega
    · simp only [Cal.monthLen, if_neg h2] at v4 ⊢
      exact v4

/-- Ten years before 29 February 2016 there is no such day, eight years before there is; 96 months before it is an error all the same. -/
example := C83_refuted_many_months (std .debug) (sane_std _) (at_ 2016 2 29 0 0 0) (by decide) 8 (by decide) (by decide)

end Props
