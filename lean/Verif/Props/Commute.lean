import Verif.Props.Grouping
import Verif.Props.Reach
import Verif.Props.Values

/-!
# C121: the order of added amounts
-/

namespace Props
open Kairos Spec

/-- **C121, seconds to days (partial).** If `m + a` and `m + b` are both still in the year of `m`, then `m + a + b` and `m + b + a` have the same outcome. -/
theorem C121_within_the_year_partial (c : Cfg) (hc : Sane c) (m m₁ m₂ : Moment) (hm : m.Valid c) (hm₁ : m₁.Valid c) (hm₂ : m₂.Valid c)
    (hz₁ : m₁.nano = 0) (hz₂ : m₂.nano = 0) (u v : TUnit)
    (hu : u = .second ∨ u = .minute ∨ u = .hour ∨ u = .day) (hv : v = .second ∨ v = .minute ∨ v = .hour ∨ v = .day)
    (n k : Int) (hn : 0 ≤ n) (hk : 0 ≤ k) (h₁ : m₁.instant = m.instant + n * u.secs) (hy₁ : m₁.year = m.year)
    (h₂ : m₂.instant = m.instant + k * v.secs) (hy₂ : m₂.year = m.year) :
    calculate c (.moment m + amt u n + amt v k) = calculate c (.moment m + amt v k + amt u n) := by
  have pu : 1 ≤ u.secs := by cases u <;> decide
  have pv : 1 ≤ v.secs := by cases v <;> decide
  have nu : 0 ≤ n * u.secs := Int.mul_nonneg hn (by omega)
  have kv : 0 ≤ k * v.secs := Int.mul_nonneg hk (by omega)
  have b1 := instants_close hc hm₁ hm
  have b2 := instants_close hc hm₂ hm
  rw [C25_within_the_year_partial c hc m m₁ hm hm₁ hz₁ u v hu hv n k hn hk (by omega) h₁ hy₁,
    C25_within_the_year_partial c hc m m₂ hm hm₂ hz₂ v u hv hu k n hk hn (by omega) h₂ hy₂]
  -- the two sums are the same amount
  have s : calculate c (amt u n + amt v k) = calculate c (amt v k + amt u n) := by
    obtain ⟨w, hw, hs, -⟩ := C05_amounts_succeed c (.plus (.amt u n) (.amt v k)) (by
      simp only [AmtTree.mag]; rw [if_neg (by omega), if_neg (by omega)]; omega)
    obtain ⟨w', hw', hs', -⟩ := C05_amounts_succeed c (.plus (.amt v k) (.amt u n)) (by
      simp only [AmtTree.mag]; rw [if_neg (by omega), if_neg (by omega)]; omega)
    have hf : AmtTree.finest (.plus (.amt u n) (.amt v k)) = AmtTree.finest (.plus (.amt v k) (.amt u n)) := by
      show (if u.secs ≤ v.secs then u else v) = (if v.secs ≤ u.secs then v else u)
      rcases hu with rfl | rfl | rfl | rfl <;> rcases hv with rfl | rfl | rfl | rfl <;> decide
    simp only [AmtTree.toTT, AmtTree.secs] at hw hs hw' hs'
    rw [hf] at hs hw
    rw [hw, hw']
    have pf : AmtTree.secs (.plus (.amt u n) (.amt v k)) = AmtTree.secs (.plus (.amt v k) (.amt u n)) := by
      simp only [AmtTree.secs]; omega
    have : w = w' := by
      have hpos : (AmtTree.finest (.plus (.amt v k) (.amt u n))).secs ≠ 0 := by
        cases AmtTree.finest (.plus (.amt v k) (.amt u n)) <;> decide
      refine Int.eq_of_mul_eq_mul_right hpos ?_
      omega
    rw [this]
  have e1 := (C08_amounts_combined_first c m (.plus (.amt u n) (.amt v k))).1
  have e2 := (C08_amounts_combined_first c m (.plus (.amt v k) (.amt u n))).1
  simp only [AmtTree.toTT] at e1 e2
  rw [e1, e2, s]

/-- 10 days and 48 hours from 20 December, in both orders; together they lead into the next year. -/
example : (at_ 2017 12 30 0 0 0).instant = (at_ 2017 12 20 0 0 0).instant + 10 * TUnit.secs .day ∧
    (at_ 2017 12 22 0 0 0).instant = (at_ 2017 12 20 0 0 0).instant + 48 * TUnit.secs .hour ∧
    calculate (std .debug) (.moment (at_ 2017 12 20 0 0 0) + amt .day 10 + amt .hour 48) = .ok (.moment (at_ 2018 1 1 0 0 0)) ∧
    calculate (std .debug) (.moment (at_ 2017 12 20 0 0 0) + amt .hour 48 + amt .day 10) = .ok (.moment (at_ 2018 1 1 0 0 0)) := by decide +kernel

/-- **C121, months and years (partial).** Up to the 28th of a month, months and years can be added in either order with the same outcome, if both
first steps have a result. -/
theorem C121_months_and_years_partial (c : Cfg) (hc : Sane c) (m m₁ m₂ : Moment) (hm : m.Valid c) (hd : m.day ≤ 28) (a b : Int)
    (ha : 0 ≤ a) (hmax : a ≤ 24000000000) (hb : -2147483648 ≤ m.year + b ∧ m.year + b ≤ 2147483647)
    (h₁ : calculate c (.moment m + .months a) = .ok (.moment m₁)) (h₂ : calculate c (.moment m + .years b) = .ok (.moment m₂)) :
    calculate c (.moment m + .months a + .years b) = calculate c (.moment m + .years b + .months a) := by
  have r1 := (C07_chain_partial c (.moment m) (.months a) .year b).1
  have r2 := (C07_chain_partial c (.moment m) (.years b) .month a).1
  simp only [amt] at r1 r2
  rw [r1, r2, h₁, h₂, OutE.ok_bind, OutE.ok_bind]
  have hc' := hc
  unfold Sane at hc'
  have v₁ := (C15_computed c _ m₁ (fun _ => by intro h; cases h) h₁).1
  have v₂ := (C15_computed c _ m₂ (fun _ => by intro h; cases h) h₂).1
  have hm' := hm
  obtain ⟨a1, a2, ⟨a3, a4, a5, a6⟩, t, a7⟩ := hm'
  obtain ⟨Y, M, hM, hi⟩ : ∃ Y M : Int, (1 ≤ M ∧ M ≤ 12) ∧ Cal.monthIndex Y M = Cal.monthIndex m.year m.month + a :=
    ⟨(Cal.monthIndex m.year m.month + a) / 12, (Cal.monthIndex m.year m.month + a) % 12 + 1, by omega,
      by unfold Cal.monthIndex; omega⟩
  have f₁ := C17_up_to_28th_partial c hc m hm hd a ha (by omega) Y M hM hi
  rw [h₁] at f₁
  split at f₁
  · have := ok_moment_inj f₁
    subst this
    have f₂ := C18_adding_years_partial c m hm b (by omega) (by omega)
    rw [h₂] at f₂
    split at f₂
    · cases f₂
    split at f₂
    · omega
    have := ok_moment_inj f₂
    subst this
    unfold Cal.monthIndex at hi
    have y1 := v₁.2.1
    have y2 := v₂.1
    have y3 := v₂.2.1
    simp only at y1 y2 y3
    rw [C18_adding_years_partial c _ v₁ b (by simp only; omega) (by simp only; omega),
      C17_up_to_28th_partial c hc _ v₂ hd a ha (by omega) (Y + b) M hM (by unfold Cal.monthIndex; simp only; omega)]
    simp only
    have no : ∀ y, ¬ (M = 2 ∧ m.day = 29 ∧ Cal.isLeap y = false) := by intro y h; omega
    simp only [if_neg (no _)]
    by_cases hle : Y + b ≤ c.maxYear
    · rw [if_neg (by omega), if_pos hle]
    · rw [if_pos (by omega), if_neg hle]
  · cases f₁

example : calculate (std .debug) (.moment (at_ 2017 11 28 0 0 0) + .months 30) = .ok (.moment (at_ 2020 5 28 0 0 0)) ∧
    calculate (std .debug) (.moment (at_ 2017 11 28 0 0 0) + .months 30 + .years (-5)) = .ok (.moment (at_ 2015 5 28 0 0 0)) ∧
    calculate (std .debug) (.moment (at_ 2017 11 28 0 0 0) + .years (-5) + .months 30) = .ok (.moment (at_ 2015 5 28 0 0 0)) := by decide +kernel

/-- **C121, months and smaller units (partial).** If an amount of seconds, minutes, hours or days, of either sign, changes only the component of its unit, and does
not lead beyond the 28th, it can be added before or after any number of months with the same result. -/
theorem C121_months_and_smaller_partial (c : Cfg) (hc : Sane c) (m m₁ r : Moment) (hm : m.Valid c) (u : TUnit)
    (hu : u = .second ∨ u = .minute ∨ u = .hour ∨ u = .day) (n : Int) (hr : r = withPart m u (part m u + n)) (hv : r.Valid c)
    (hd : m.day ≤ 28) (hd' : r.day ≤ 28) (a : Int) (ha : 0 ≤ a) (hmax : a ≤ 24000000000)
    (h₁ : calculate c (.moment m + .months a) = .ok (.moment m₁)) :
    calculate c (.moment m + .months a + amt u n) = .ok (.moment (withPart m₁ u (part m₁ u + n))) ∧
    calculate c (.moment m + amt u n + .months a) = .ok (.moment (withPart m₁ u (part m₁ u + n))) := by
  have r1 := (C07_chain_partial c (.moment m) (.months a) u n).1
  have r2 : calculate c (.moment m + amt u n + .months a) = _ := (C07_chain_partial c (.moment m) (amt u n) .month a).1
  have v₁ := (C15_computed c _ m₁ (fun _ => by intro h; cases h) h₁).1
  rw [r1, r2, h₁, OutE.ok_bind, C119_component c hc m r hm u n hr hv, OutE.ok_bind]
  have hm' := hm
  obtain ⟨a1, a2, ⟨a3, a4, a5, a6⟩, t, a7⟩ := hm'
  have hv' := hv
  obtain ⟨b1, b2, ⟨b3, b4, b5, b6⟩, tb, b7⟩ := hv'
  obtain ⟨Y, M, hM, hi⟩ : ∃ Y M : Int, (1 ≤ M ∧ M ≤ 12) ∧ Cal.monthIndex Y M = Cal.monthIndex m.year m.month + a :=
    ⟨(Cal.monthIndex m.year m.month + a) / 12, (Cal.monthIndex m.year m.month + a) % 12 + 1, by omega,
      by unfold Cal.monthIndex; omega⟩
  have ml := Cal.monthLen_bounds (y := Y) hM.1 hM.2
  have f₁ := C17_up_to_28th_partial c hc m hm hd a ha hmax Y M hM hi
  rw [h₁] at f₁
  split at f₁
  · rename_i hle
    have := ok_moment_inj f₁
    subst this
    have hi' : Cal.monthIndex Y M = Cal.monthIndex r.year r.month + a := by
      rw [hi, hr]; rcases hu with rfl | rfl | rfl | rfl <;> rfl
    have f₂ := C17_up_to_28th_partial c hc r hv hd' a ha hmax Y M hM hi'
    rw [if_pos hle] at f₂
    have same : ({ r with year := Y, month := M, nano := 0 } : Moment) =
        withPart { m with year := Y, month := M, nano := 0 } u (part { m with year := Y, month := M, nano := 0 } u + n) := by
      rw [hr]; rcases hu with rfl | rfl | rfl | rfl <;> rfl
    refine ⟨C119_component c hc _ _ v₁ u n rfl ?_, by show calculate c (.moment r + .months a) = _; rw [f₂, same]⟩
    rw [← same]
    exact ⟨v₁.1, v₁.2.1, ⟨hM.1, hM.2, b5, by simp only; omega⟩, tb, by simp⟩
  · cases f₁

example : (at_ 2017 1 20 0 0 0).Valid (std .debug) ∧ (at_ 2017 1 20 0 0 0).day ≤ 28 ∧
    (withPart (at_ 2017 1 20 0 0 0) .day (20 + 8)).Valid (std .debug) ∧
    calculate (std .debug) (.moment (at_ 2017 1 20 0 0 0) + .months 13 + .days 8) = .ok (.moment (at_ 2018 2 28 0 0 0)) ∧
    calculate (std .debug) (.moment (at_ 2017 1 20 0 0 0) + .days 8 + .months 13) = .ok (.moment (at_ 2018 2 28 0 0 0)) := by decide +kernel

/-- **C121 refuted.** A day and a month from 31 January; a month and a year from 29 February; 5 and 40 days from 20 December. -/
theorem C121_refuted :
    (calculate (std .debug) (.moment (at_ 2017 1 31 0 0 0) + .months 1 + .days 1) = .ok (.moment (at_ 2017 3 4 0 0 0)) ∧
     calculate (std .debug) (.moment (at_ 2017 1 31 0 0 0) + .days 1 + .months 1) = .ok (.moment (at_ 2017 3 1 0 0 0))) ∧
    (calculate (std .debug) (.moment (at_ 2016 2 29 0 0 0) + .months 1 + .years 1) = .ok (.moment (at_ 2017 3 29 0 0 0)) ∧
     calculate (std .debug) (.moment (at_ 2016 2 29 0 0 0) + .years 1 + .months 1) = .ok (.moment (at_ 2017 4 1 0 0 0))) ∧
    (calculate (std .debug) (.moment (at_ 2017 12 20 0 0 0) + .days 5 + .days 40) = .ok (.moment (at_ 2018 2 4 0 0 0)) ∧
     calculate (std .debug) (.moment (at_ 2017 12 20 0 0 0) + .days 40 + .days 5) = .ok (.moment (at_ 2018 2 3 0 0 0))) := by decide +kernel

end Props
