import Verif.Props.SameSteps
import Verif.Props.AllAmounts

/-!
# C109: exactly when 12 months and a year lead to the same date
-/

namespace Props
open Kairos Spec

/-- The second item. -/
private theorem second_item (c : Cfg) (m : Moment) (inc : TT) :
    nth (Iter.next c) 1 ⟨.moment m, inc, false⟩ = some (calculate c (.moment m + inc)) := by
  show some ((Iter.recalculate c ⟨.moment m + inc, inc, true⟩).2 >>= fun _ =>
    OutE.ok (Iter.recalculate c ⟨.moment m + inc, inc, true⟩).1.base) = _
  unfold Iter.recalculate
  cases h : calculate c (.moment m + inc) <;> rfl

/-- **C109, months and years, exactly when (partial).** After one step, `monthly(12 k)` and `yearly(k)`, `k ≥ 1`, are on the same date if and only if the base is
not on a 31st and, if it is on a 29 February, the year arrived at is a leap year. As long as that year is in chrono's range. -/
theorem C109_first_step_iff_partial (c : Cfg) (hc : Sane c) (m : Moment) (hm : m.Valid c) (k : Int) (hk : 1 ≤ k)
    (hY : m.year + k ≤ c.maxYear) (it it' : Iter) (hit : Ext.monthly (.moment m) (12 * k) = .ok it)
    (hit' : Ext.yearly (.moment m) k = .ok it') :
    nth (Iter.next c) 1 it = nth (Iter.next c) 1 it' ↔
      m.day ≤ 30 ∧ (m.month = 2 ∧ m.day = 29 → Cal.isLeap (m.year + k) = true) := by
  have hc' := hc
  unfold Sane at hc'
  obtain ⟨y1, y2, v, t, -⟩ := id hm
  obtain ⟨v1, v2, v3, v4⟩ := v
  have vb := @Cal.monthLen_bounds m.year m.month v1 v2
  cases hit; cases hit'
  rw [second_item, second_item, C18_adding_years_partial c m hm k (by omega) (by omega), if_neg (by omega)]
  by_cases hd : m.day = 31
  · constructor
    · intro h
      exfalso
      rw [if_neg (by omega)] at h
      by_cases h12 : m.month = 12
      · rw [C17_from_the_31st_partial c hc m hm hd (12 * k) (m.year + k + 1) 1 (m.year + k + 1) 0 (by omega) (by omega)
          (by unfold Cal.monthIndex; omega) (by omega) (by omega) (by omega)] at h
        split at h
        · simp at h; omega
        · simp at h
      · rw [C17_from_the_31st_partial c hc m hm hd (12 * k) (m.year + k) (m.month + 1) (m.year + k) 0 (by omega) (by omega)
          (by unfold Cal.monthIndex; omega) (by omega) (by omega) (by omega)] at h
        split at h
        · simp at h; omega
        · simp at h
    · intro h; omega
  · rw [C17_beyond_the_year_partial c hc m hm (by omega) (12 * k) (m.year + k) m.month (m.year + k) 0 (by omega) ⟨v1, v2⟩
      (by unfold Cal.monthIndex; omega) (by omega) (by omega) (by omega)]
    by_cases hf : m.month = 2 ∧ m.day = 29
    · obtain ⟨f1, f2⟩ := hf
      cases hl : Cal.isLeap (m.year + k)
      · have : ¬ Cal.ValidDate (m.year + k) m.month m.day := by
          rw [f1, f2]; simp [Cal.ValidDate, Cal.monthLen, hl]
        rw [if_neg (fun h => this h.2.2), if_pos ⟨f1, f2, rfl⟩]
        simp [f1, f2]
      · have : Cal.ValidDate (m.year + k) m.month m.day := by
          rw [f1, f2]; simp [Cal.ValidDate, Cal.monthLen, hl]
        rw [if_pos ⟨by omega, by omega, this⟩, if_neg (by simp)]
        simp [f2]
    · have : Cal.ValidDate (m.year + k) m.month m.day := by
        refine ⟨v1, v2, v3, ?_⟩
        by_cases h2 : m.month = 2
        · rw [h2] at v4 ⊢
          simp only [Cal.monthLen] at v4 ⊢
          simp at v4 ⊢
          split at v4 <;> split <;> omega
        · have : Cal.monthLen (m.year + k) m.month = Cal.monthLen m.year m.month := by
            unfold Cal.monthLen; rw [if_neg h2, if_neg h2]
          omega
      rw [if_pos ⟨by omega, by omega, this⟩, if_neg (fun h => hf ⟨h.1, h.2.1⟩)]
      simp only [true_iff]
      exact ⟨by omega, fun h => absurd h hf⟩

/-- From 30 January and from a 29 February to one eight years later; not from a 31 January or four years after 29 February 2096. -/
example := (C109_first_step_iff_partial (std .debug) (sane_std _) (at_ 2016 2 29 0 0 0) (by decide) 8 (by decide) (by decide) _ _ rfl rfl).mpr (by decide)

example : nth (Iter.next (std .debug)) 1 ⟨.moment (at_ 2096 2 29 0 0 0), .months (12 * 4), false⟩ ≠
    nth (Iter.next (std .debug)) 1 ⟨.moment (at_ 2096 2 29 0 0 0), .years 4, false⟩ := fun h =>
  absurd ((C109_first_step_iff_partial (std .debug) (sane_std _) (at_ 2096 2 29 0 0 0) (by decide) 4 (by decide) (by decide) _ _ rfl rfl).mp h) (by decide)

end Props
