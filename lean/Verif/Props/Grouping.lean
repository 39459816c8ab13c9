import Verif.Props.Equivalent

/-!
# C25: adding two amounts one after the other or at once
-/

namespace Props
open Kairos Spec

/-- **C25, within the year (partial).** If `m + a` is still in the year of `m`, then `(m + a) + b` and `m + (a + b)` have
the same outcome, whatever `b` is (seconds, minutes, hours or days; together up to the largest number of seconds). -/
theorem C25_within_the_year_partial (c : Cfg) (hc : Sane c) (m m₁ : Moment) (hm : m.Valid c) (hm₁ : m₁.Valid c)
    (hz₁ : m₁.nano = 0) (u v : TUnit)
    (hu : u = .second ∨ u = .minute ∨ u = .hour ∨ u = .day) (hv : v = .second ∨ v = .minute ∨ v = .hour ∨ v = .day)
    (n k : Int) (hn : 0 ≤ n) (hk : 0 ≤ k) (hmax : n * u.secs + k * v.secs ≤ 9223372036854775700)
    (h₁ : m₁.instant = m.instant + n * u.secs) (hy : m₁.year = m.year) :
    calculate c (.moment m + amt u n + amt v k) = calculate c (.moment m + (amt u n + amt v k)) := by
  have pu : 1 ≤ u.secs := by cases u <;> decide
  have pv : 1 ≤ v.secs := by cases v <;> decide
  have nu : 0 ≤ n * u.secs := Int.mul_nonneg hn (by omega)
  have kv : 0 ≤ k * v.secs := Int.mul_nonneg hk (by omega)
  have kk : k ≤ k * v.secs := by
    have := Int.mul_le_mul_of_nonneg_left pv hk; omega
  rw [(C07_chain_partial c (.moment m) (amt u n) v k).1]
  have e1 : calculate c (.moment m + amt u n) = .ok (.moment m₁) :=
    (add_exact_iff c hc hm hm₁ hz₁ u (by rcases hu with rfl | rfl | rfl | rfl <;> decide) n hn h₁).mpr (.inl hy)
  rw [e1, OutE.ok_bind]
  have e := (C08_amounts_combined_first c m (.plus (.amt u n) (.amt v k))).1
  simp only [AmtTree.toTT] at e
  obtain ⟨w, hw, hs, -⟩ := C05_amounts_succeed c (.plus (.amt u n) (.amt v k)) (by
    simp only [AmtTree.mag]; rw [if_neg (by omega), if_neg (by omega)]; omega)
  simp only [AmtTree.toTT, AmtTree.secs] at hw hs
  rw [e, hw, OutE.ok_bind]
  have hf : (AmtTree.finest (.plus (.amt u n) (.amt v k))).secs ≤ 86400 := by
    by_cases hle : u.secs ≤ v.secs
    · have : ((AmtTree.amt u n).plus (AmtTree.amt v k)).finest = u := if_pos hle
      rw [this]; rcases hu with rfl | rfl | rfl | rfl <;> decide
    · have : ((AmtTree.amt u n).plus (AmtTree.amt v k)).finest = v := if_neg hle
      rw [this]; rcases hv with rfl | rfl | rfl | rfl <;> decide
  generalize AmtTree.finest (.plus (.amt u n) (.amt v k)) = f at *
  have pf : 1 ≤ f.secs := by cases f <;> decide
  have hw0 : 0 ≤ w := by
    refine Int.not_lt.1 fun hneg => ?_
    have := Int.mul_neg_of_neg_of_pos hneg (b := f.secs) (by omega)
    omega
  have hww : w ≤ w * f.secs := by
    have := Int.mul_le_mul_of_nonneg_left pf hw0; omega
  obtain ⟨y₁, mo₁, d₁, a₁, c₁⟩ := add_closed c hc hm₁ v (by rcases hv with rfl | rfl | rfl | rfl <;> decide) k hk (by omega)
  obtain ⟨y₂, mo₂, d₂, a₂, c₂⟩ := add_closed c hc hm f hf w hw0 (by omega)
  rw [hs] at a₂ c₂
  have hi : m₁.instant + k * v.secs = m.instant + (n * u.secs + k * v.secs) := by omega
  rw [hi] at a₁ c₁
  rw [hy] at c₁
  obtain ⟨rfl, rfl, rfl⟩ := codeDate_unique c₁ c₂
  rw [a₁, a₂]

/-- 20 days and then 1000 days from 1 December 2017 (the first step stays in the year; the result is not the exact one). -/
example : (at_ 2017 12 21 0 0 0).instant = (at_ 2017 12 1 0 0 0).instant + 20 * TUnit.secs .day ∧
    calculate (std .debug) (.moment (at_ 2017 12 1 0 0 0) + .days 20 + .days 1000) = .ok (.moment (at_ 2020 9 30 0 0 0)) ∧
    calculate (std .debug) (.moment (at_ 2017 12 1 0 0 0) + (.days 20 + .days 1000)) = .ok (.moment (at_ 2020 9 30 0 0 0)) := by
  decide +kernel

theorem sum_months (c : Cfg) {a b : Int} (h : InI64 (a + b)) : calculate c (.months a + .months b) = .ok (.months (a + b)) := by
  rw [calculate_add, exec_add]
  simp only [Eval.add, exec_addTo_months, Eval.addToMonths, Cfg.add]
  rw [Int.add_comm b a]; unfold Cfg.chk; rw [if_pos h]; rfl

theorem sum_years (c : Cfg) {a b : Int} (h : InI64 (a + b)) : calculate c (.years a + .years b) = .ok (.years (a + b)) := by
  rw [calculate_add, exec_add]
  simp only [Eval.add, exec_addTo_years, Eval.addToYears, Cfg.add]
  rw [Int.add_comm b a]; unfold Cfg.chk; rw [if_pos h]; rfl

/-- **C25, months (partial).** On days up to the 28th, months can be added in one or two steps with the same outcome,
provided the first step succeeds. -/
theorem C25_months_partial (c : Cfg) (hc : Sane c) (m m₁ : Moment) (hm : m.Valid c) (hd : m.day ≤ 28) (a b : Int)
    (ha : 0 ≤ a) (hb : 0 ≤ b) (hmax : a + b ≤ 24000000000) (h₁ : calculate c (.moment m + .months a) = .ok (.moment m₁)) :
    calculate c (.moment m + .months a + .months b) = calculate c (.moment m + (.months a + .months b)) := by
  have e := (C08_amounts_combined_first c m (.plus (.amt .month a) (.amt .month b))).1
  have r := (C07_chain_partial c (.moment m) (.months a) .month b).1
  simp only [AmtTree.toTT, amt] at e r
  have hs : calculate c (.months a + .months b) = .ok (.months (a + b)) := sum_months c (by unfold InI64; omega)
  rw [r, e, h₁, OutE.ok_bind, hs, OutE.ok_bind]
  have hm' := hm
  obtain ⟨a1, a2, ⟨a3, a4, a5, a6⟩, t, a7⟩ := hm'
  have key (x : Int) : ∃ Y M, (1 ≤ M ∧ M ≤ 12) ∧ Cal.monthIndex Y M = Cal.monthIndex m.year m.month + x :=
    ⟨(Cal.monthIndex m.year m.month + x) / 12, (Cal.monthIndex m.year m.month + x) % 12 + 1, by omega,
      by unfold Cal.monthIndex; omega⟩
  obtain ⟨Y, M, hM, hi⟩ := key a
  obtain ⟨Y', M', hM', hi'⟩ := key (a + b)
  have f₁ := C17_up_to_28th_partial c hc m hm hd a ha (by omega) Y M hM hi
  have f₂ := C17_up_to_28th_partial c hc m hm hd (a + b) (by omega) (by omega) Y' M' hM' hi'
  rw [h₁] at f₁
  split at f₁
  · rename_i hY
    have : m₁ = { m with year := Y, month := M, nano := 0 } := by injection f₁ with h; injection h
    subst this
    have ml := Cal.monthLen_bounds (y := Y) hM.1 hM.2
    have hv : ({ m with year := Y, month := M, nano := 0 } : Moment).Valid c :=
      ⟨by unfold Cal.monthIndex at hi; simp only; omega, hY, ⟨hM.1, hM.2, a5, by simp only; omega⟩, t, by simp only; omega⟩
    rw [f₂, C17_up_to_28th_partial c hc _ hv hd b hb (by omega) Y' M' hM' (by simp only; omega)]
  · cases f₁

example := C25_months_partial (std .debug) (sane_std _) (at_ 2017 10 28 0 0 0) (at_ 2018 2 28 0 0 0) (by decide) (by decide) 4 20 (by decide) (by decide)
  (by decide) (by decide +kernel)

/-- **C25, years (partial).** But from 29 February, years of either sign can be added in one or two steps with the same
outcome; from 29 February that holds exactly if the year after the first step is a leap year or the last is not. -/
theorem C25_years_partial (c : Cfg) (m m₁ : Moment) (hm : m.Valid c) (a b : Int)
    (hr : InI64 (a + b)) (hr' : -2147483648 ≤ m.year + (a + b) ∧ m.year + (a + b) ≤ 2147483647)
    (hra : -2147483648 ≤ m.year + a ∧ m.year + a ≤ 2147483647)
    (h₁ : calculate c (.moment m + .years a) = .ok (.moment m₁)) :
    (¬ (m.month = 2 ∧ m.day = 29) →
      calculate c (.moment m + .years a + .years b) = calculate c (.moment m + (.years a + .years b))) ∧
    (m.month = 2 ∧ m.day = 29 →
      (calculate c (.moment m + .years a + .years b) = calculate c (.moment m + (.years a + .years b)) ↔
        Cal.isLeap (m.year + a) = true ∨ Cal.isLeap (m.year + (a + b)) = false)) := by
  have e := (C08_amounts_combined_first c m (.plus (.amt .year a) (.amt .year b))).1
  have r := (C07_chain_partial c (.moment m) (.years a) .year b).1
  simp only [AmtTree.toTT, amt] at e r
  have hs : calculate c (.years a + .years b) = .ok (.years (a + b)) := sum_years c hr
  rw [r, e, h₁, OutE.ok_bind, hs, OutE.ok_bind]
  have hm' := hm
  obtain ⟨a1, a2, ⟨a3, a4, a5, a6⟩, t, a7⟩ := hm'
  have f₁ := C18_adding_years_partial c m hm a hra.1 hra.2
  have f₂ := C18_adding_years_partial c m hm (a + b) hr'.1 hr'.2
  rw [h₁] at f₁
  split at f₁
  · cases f₁
  rename_i hin
  have ey : m.year + a + b = m.year + (a + b) := by omega
  have ml := Cal.monthLen_bounds (y := m.year + a) a3 a4
  split at f₁
  · rename_i hf
    obtain ⟨g1, g2, g3⟩ := hf
    have : m₁ = { m with year := m.year + a, month := 3, day := 1, nano := 0 } := by injection f₁ with h; injection h
    subst this
    have hv : ({ m with year := m.year + a, month := 3, day := 1, nano := 0 } : Moment).Valid c :=
      ⟨by simp only; omega, by simp only; omega, by simp [Cal.ValidDate, Cal.monthLen], t, by simp only; omega⟩
    have f₃ := C18_adding_years_partial c _ hv b (by simp only; omega) (by simp only; omega)
    simp only [ey] at f₃
    refine ⟨fun h => absurd ⟨g1, g2⟩ h, fun _ => ?_⟩
    rw [f₂, f₃]
    simp only [g1, g2, g3]
    cases hl : Cal.isLeap (m.year + (a + b)) <;> simp <;> split <;> simp
  · rename_i hf
    have : m₁ = { m with year := m.year + a, nano := 0 } := by injection f₁ with h; injection h
    subst this
    have hv : ({ m with year := m.year + a, nano := 0 } : Moment).Valid c := by
      refine ⟨by simp only; omega, by simp only; omega, ⟨a3, a4, a5, ?_⟩, t, by simp only; omega⟩
      simp only
      by_cases h2 : m.month = 2
      · rw [h2] at a6 ⊢
        unfold Cal.monthLen at a6 ⊢
        simp at a6 ⊢
        by_cases h29 : m.day = 29
        · have : Cal.isLeap (m.year + a) = true := by simpa using fun hh => hf ⟨h2, h29, hh⟩
          rw [this]; simp; omega
        · split at a6 <;> split <;> omega
      · have : Cal.monthLen (m.year + a) m.month = Cal.monthLen m.year m.month := by unfold Cal.monthLen; simp [h2]
        omega
    have f₃ := C18_adding_years_partial c _ hv b (by simp only; omega) (by simp only; omega)
    simp only [ey] at f₃
    refine ⟨fun _ => by rw [f₂, f₃], fun h29 => ⟨fun _ => .inl ?_, fun _ => by rw [f₂, f₃]⟩⟩
    simpa using fun hh => hf ⟨h29.1, h29.2, hh⟩

/-- Four and four years from 29 February 1896 (1900 is not a leap year): 1 March, but eight years at once are 29 February. -/
example : calculate (std .debug) (.moment (at_ 1896 2 29 0 0 0) + .years 4 + .years 4) = .ok (.moment (at_ 1904 3 1 0 0 0)) ∧
    calculate (std .debug) (.moment (at_ 1896 2 29 0 0 0) + (.years 4 + .years 4)) = .ok (.moment (at_ 1904 2 29 0 0 0)) ∧
    calculate (std .debug) (.moment (at_ 1896 2 28 0 0 0) + .years 4 + .years (-7)) = .ok (.moment (at_ 1893 2 28 0 0 0)) ∧
    calculate (std .debug) (.moment (at_ 2017 6 28 0 0 0) + .months 8 + .months 30) =
      calculate (std .debug) (.moment (at_ 2017 6 28 0 0 0) + (.months 8 + .months 30)) := by
  decide +kernel

end Props
