import Verif.Props.Laws
import Verif.Props.Grouping
import Verif.Props.Values
import Verif.Spec.AddRight

/-!
# C131: adding a difference, and adding and then subtracting
-/

namespace Props
open Kairos Spec

/-- A difference of two amounts, added or subtracted. -/
private theorem diff_of_two (c : Cfg) (m : Moment) (u v : TUnit) (n k : Int) (hn : 0 ≤ n) (hk : 0 ≤ k) (hle : k * v.secs ≤ n * u.secs)
    (hmax : n * u.secs ≤ 4600000000000000000) :
    ∃ f w, (f = u ∨ f = v) ∧ f.secs ≤ u.secs ∧ f.secs ≤ v.secs ∧ 0 ≤ w ∧ w * f.secs = n * u.secs - k * v.secs ∧
      calculate c (amt u n - amt v k) = .ok (amt f w) ∧
      calculate c (.moment m + (amt u n - amt v k)) = calculate c (.moment m + amt f w) ∧
      calculate c (.moment m - (amt u n - amt v k)) = calculate c (.moment m - amt f w) := by
  have pu : 1 ≤ u.secs := by cases u <;> decide
  have pv : 1 ≤ v.secs := by cases v <;> decide
  have kv : 0 ≤ k * v.secs := Int.mul_nonneg hk (by omega)
  have e := C08_amounts_combined_first c m (.minus (.amt u n) (.amt v k))
  obtain ⟨w, hw, hs, -⟩ := C05_amounts_succeed c (.minus (.amt u n) (.amt v k)) (by
    simp only [AmtTree.mag]; rw [if_neg (by omega), if_neg (by omega)]; omega)
  simp only [AmtTree.toTT, AmtTree.secs] at e hw hs
  rw [hw, OutE.ok_bind, OutE.ok_bind] at e
  refine ⟨_, w, ?_, ?_, ?_, ?_, hs, hw, e.1, e.2⟩
  · by_cases h : u.secs ≤ v.secs
    · exact .inl (if_pos h)
    · exact .inr (if_neg h)
  · by_cases h : u.secs ≤ v.secs
    · exact Int.le_of_eq (congrArg TUnit.secs (if_pos h : (if u.secs ≤ v.secs then u else v) = u))
    · exact Int.le_trans (Int.le_of_eq (congrArg TUnit.secs (if_neg h : (if u.secs ≤ v.secs then u else v) = v))) (by omega)
  · by_cases h : u.secs ≤ v.secs
    · exact Int.le_trans (Int.le_of_eq (congrArg TUnit.secs (if_pos h : (if u.secs ≤ v.secs then u else v) = u))) h
    · exact Int.le_of_eq (congrArg TUnit.secs (if_neg h : (if u.secs ≤ v.secs then u else v) = v))
  · refine Int.not_lt.1 fun hneg => ?_
    generalize AmtTree.finest (.minus (.amt u n) (.amt v k)) = f at *
    have pf : 1 ≤ f.secs := by cases f <;> decide
    have := Int.mul_neg_of_neg_of_pos hneg (b := f.secs) (by omega)
    omega

/-- **C131, seconds to days, exactly when (partial).** `m₁` is the date-time `a` after `m`, and `r` the date-time `a − b` after `m`, where `b` is not more than `a`;
both are dates to which additions lead right (`AddRight`, always so up to 30 days). Then `m + (a − b)` is `r`; and `m + a − b` is `r` as well if and only
if the subtraction from `m₁` goes right (`SubRight`). -/
theorem C131_plus_iff_partial (c : Cfg) (hc : Sane c) (m m₁ r : Moment) (hm : m.Valid c) (hm₁ : m₁.Valid c) (hr : r.Valid c)
    (hz₁ : m₁.nano = 0) (hzr : r.nano = 0) (u v : TUnit)
    (hu : u = .second ∨ u = .minute ∨ u = .hour ∨ u = .day) (hv : v = .second ∨ v = .minute ∨ v = .hour ∨ v = .day)
    (n k : Int) (hn : 0 ≤ n) (hk : 0 ≤ k) (hle : k * v.secs ≤ n * u.secs)
    (h₁ : m₁.instant = m.instant + n * u.secs) (h₂ : r.instant = m.instant + (n * u.secs - k * v.secs)) (r₁ : AddRight m m₁) (r₂ : AddRight m r) :
    calculate c (.moment m + (amt u n - amt v k)) = .ok (.moment r) ∧
    (calculate c (.moment m + amt u n - amt v k) = .ok (.moment r) ↔ SubRight m₁ r k v) := by
  have hcl := instants_close hc hm₁ hm
  obtain ⟨f, w, hf, -, -, hw0, hws, -, e, -⟩ := diff_of_two c m u v n k hn hk hle (by omega)
  refine ⟨?_, ?_⟩
  · rw [e]
    exact (C16_exact_iff_partial c hc m r hm hr hzr f (by rcases hf with rfl | rfl <;> assumption) w hw0 (by omega)).2 r₂
  · rw [(C07_chain_partial c (.moment m) (amt u n) v k).2.1, (C16_exact_iff_partial c hc m m₁ hm hm₁ hz₁ u hu n hn h₁).2 r₁, OutE.ok_bind]
    exact C21_exact_iff_partial c hc m₁ r hm₁ hr hzr v hv k hk (by omega)

/-- From 20 January: 10 days less 6 hours are in either way 29 January, 18:00. -/
example : calculate (std .debug) (.moment (at_ 2017 1 20 0 0 0) + (amt .day 10 - amt .hour 6)) = .ok (.moment (at_ 2017 1 29 18 0 0)) ∧
    calculate (std .debug) (.moment (at_ 2017 1 20 0 0 0) + amt .day 10 - amt .hour 6) = .ok (.moment (at_ 2017 1 29 18 0 0)) := by
  have h := C131_plus_iff_partial (std .debug) (sane_std _) (at_ 2017 1 20 0 0 0) (at_ 2017 1 30 0 0 0) (at_ 2017 1 29 18 0 0) (by decide) (by decide) (by decide)
    rfl rfl .day .hour (by decide) (by decide) 10 6 (by decide) (by decide) (by decide) (by decide) (by decide) (by decide) (by decide)
  exact ⟨h.1, h.2.2 (.inl ⟨by decide, .inl rfl⟩)⟩

/-- **C131, months (partial).** Up to the 28th and with `b` not more than `a` (both up to 4·10^9 months), where `m + a` is in range: `m + (a − b)` is the date `a − b` calendar months later, and
`m + a − b` is the same date if and only if `b` is less than the month number of `m + a` plus 12; otherwise it is an error. -/
theorem C131_months_partial (c : Cfg) (hc : Sane c) (m m₁ : Moment) (hm : m.Valid c) (hd : m.day ≤ 28) (a b : Int) (hb : 0 ≤ b) (hba : b ≤ a) (hmax : a ≤ 4000000000)
    (h₁ : calculate c (.moment m + .months a) = .ok (.moment m₁)) :
    ∃ r, calculate c (.moment m + (.months a - .months b)) = .ok (.moment r) ∧ Cal.monthIndex r.year r.month = Cal.monthIndex m.year m.month + (a - b) ∧ r.day = m.day ∧
      ((b < m₁.month + 12 ∧ calculate c (.moment m + .months a - .months b) = .ok (.moment r)) ∨
       (m₁.month + 12 ≤ b ∧ ∃ Y M D H MI S, calculate c (.moment m + .months a - .months b) = .err (.outOfBounds Y M D H MI S))) := by
  obtain ⟨a1, a2, ⟨a3, a4, a5, a6⟩, t, a7⟩ := id hm
  have ch := (C07_chain_partial c (.moment m) (.months a) .month b).2.1
  have hs := (C08_amounts_combined_first c m (.minus (.amt .month a) (.amt .month b))).1
  obtain ⟨w, hw, hws, -⟩ := C05_amounts_succeed c (.minus (.amt .month a) (.amt .month b)) (by
    simp only [AmtTree.mag, TUnit.secs]; rw [if_neg (by omega), if_neg (by omega)]; omega)
  simp only [AmtTree.toTT, AmtTree.secs, AmtTree.finest, Int.le_refl, if_true, amt, TUnit.secs] at ch hs hw hws
  rw [hw, OutE.ok_bind] at hs
  have : w = a - b := by omega
  subst this
  -- the month after the whole sum and the one after the difference
  have k₁ : ∃ Y M, (1 ≤ M ∧ M ≤ 12) ∧ Cal.monthIndex Y M = Cal.monthIndex m.year m.month + a :=
    ⟨(Cal.monthIndex m.year m.month + a) / 12, (Cal.monthIndex m.year m.month + a) % 12 + 1, by omega, by unfold Cal.monthIndex; omega⟩
  obtain ⟨Y₁, M₁, hM₁, i₁⟩ := k₁
  have k₂ : ∃ Y M, (1 ≤ M ∧ M ≤ 12) ∧ Cal.monthIndex Y M = Cal.monthIndex m.year m.month + (a - b) :=
    ⟨(Cal.monthIndex m.year m.month + (a - b)) / 12, (Cal.monthIndex m.year m.month + (a - b)) % 12 + 1, by omega, by unfold Cal.monthIndex; omega⟩
  obtain ⟨Y₂, M₂, hM₂, i₂⟩ := k₂
  have e₁ := C17_up_to_28th_partial c hc m hm hd a (by omega) (by omega) Y₁ M₁ hM₁ i₁
  rw [h₁] at e₁
  have i₁' := i₁
  have i₂' := i₂
  unfold Cal.monthIndex at i₁' i₂'
  have ml := Cal.monthLen_bounds (y := Y₂) hM₂.1 hM₂.2
  have ml₁ := Cal.monthLen_bounds (y := Y₁) hM₁.1 hM₁.2
  split at e₁
  · rename_i hY
    have hm₁ : m₁ = { m with year := Y₁, month := M₁, nano := 0 } := ok_moment_inj e₁
    have hv : m₁.Valid c := by
      rw [hm₁]; exact ⟨by simp only; omega, hY, ⟨hM₁.1, hM₁.2, a5, by simp only; omega⟩, t, by simp, by simp⟩
    have e₂ := C17_up_to_28th_partial c hc m hm hd (a - b) (by omega) (by omega) Y₂ M₂ hM₂ i₂
    rw [if_pos (by omega)] at e₂
    refine ⟨{ m with year := Y₂, month := M₂, nano := 0 }, by rw [hs, e₂], i₂, rfl, ?_⟩
    rw [ch, h₁, OutE.ok_bind]
    rcases C22_subtracting_months_partial c hc m₁ hv b hb (by omega) Y₂ M₂ hM₂ (by rw [hm₁]; simp only; omega) with ⟨g, -, -, f⟩ | ⟨g, f⟩
    · left; refine ⟨g, ?_⟩; rw [f, hm₁]
    · right
      refine ⟨?_, f⟩
      rw [hm₁] at g
      simp only at g
      rw [hm₁]; simp only
      omega
  · cases e₁

example := C131_months_partial (std .debug) (sane_std _) (at_ 2017 1 20 0 0 0) (at_ 2019 3 20 0 0 0) (by decide) (by decide) 26 15 (by decide) (by decide) (by decide)
  (by decide +kernel)

theorem difference_years (c : Cfg) {a b : Int} (h : InI64 (a - b)) : calculate c (.years a - .years b) = .ok (.years (a - b)) := by
  rw [calculate_sub, exec_sub]
  simp only [Eval.sub, exec_subFrom_years, Eval.subFromYears, Cfg.sub]
  unfold Cfg.chk; rw [if_pos h]; rfl

/-- **C131, years (partial).** Except from 29 February: `m + (a − b)` and `m + a − b` have the same outcome, if `m + a` has a result, for years of either sign that do not leave
the 32-bit range. -/
theorem C131_years_partial (c : Cfg) (m m₁ : Moment) (hm : m.Valid c) (hd : ¬ (m.month = 2 ∧ m.day = 29)) (a b : Int) (hab : InI64 (a - b))
    (hr : -2147483648 ≤ m.year + a ∧ m.year + a ≤ 2147483647) (hr' : -2147483648 ≤ m.year + (a - b) ∧ m.year + (a - b) ≤ 2147483647)
    (h₁ : calculate c (.moment m + .years a) = .ok (.moment m₁)) :
    calculate c (.moment m + .years a - .years b) = calculate c (.moment m + (.years a - .years b)) := by
  have hm' := hm
  have e := (C08_amounts_combined_first c m (.minus (.amt .year a) (.amt .year b))).1
  have q := (C07_chain_partial c (.moment m) (.years a) .year b).2.1
  simp only [AmtTree.toTT, amt] at e q
  have hs : calculate c (.years a - .years b) = .ok (.years (a - b)) := difference_years c hab
  rw [q, e, h₁, OutE.ok_bind, hs, OutE.ok_bind]
  have hv₁ := C15_computed c _ m₁ (fun _ => by intro h; cases h) h₁ |>.1
  have nf : ∀ p : Prop, ¬ (m.month = 2 ∧ m.day = 29 ∧ p) := fun p h => hd ⟨h.1, h.2.1⟩
  have f := C18_adding_years_partial c m hm a hr.1 hr.2
  rw [h₁, if_neg (nf _), if_neg (nf _)] at f
  split at f
  · cases f
  · have := ok_moment_inj f
    subst this
    have ey : m.year + a - b = m.year + (a - b) := by omega
    have g := C23_subtracting_years_partial c _ hv₁ b (by simp only; omega) (by simp only; omega)
    simp only [ey] at g
    obtain ⟨-, -, ⟨a3, a4, a5, a6⟩, -⟩ := hm
    have hvd : Cal.ValidDate (m.year + (a - b)) m.month m.day := by
      refine ⟨a3, a4, a5, ?_⟩
      by_cases h2 : m.month = 2
      · rw [h2] at a6 ⊢
        have := Cal.monthLen_bounds (y := m.year + (a - b)) (m := 2) (by decide) (by decide)
        have : m.day ≠ 29 := fun h => hd ⟨h2, h⟩
        have : Cal.monthLen m.year 2 ≤ 29 := by unfold Cal.monthLen; simp only [if_true]; split <;> omega
        omega
      · simp only [Cal.monthLen, if_neg h2] at a6 ⊢
        exact a6
    rw [g, C18_adding_years_partial c m hm' (a - b) hr'.1 hr'.2, if_neg (nf _), if_neg (nf _)]
    by_cases hin : c.minYear ≤ m.year + (a - b) ∧ m.year + (a - b) ≤ c.maxYear
    · rw [if_pos ⟨hin.1, hin.2, hvd⟩, if_neg (by omega)]
    · rw [if_neg (fun h => hin ⟨h.1, h.2.1⟩), if_pos (by omega)]

example := C131_years_partial (std .debug) (at_ 2016 2 28 12 0 0) (at_ 2021 2 28 12 0 0) (by decide) (by decide) 5 3 (by decide) (by decide) (by decide) (by decide +kernel)

/-- **C131 refuted.** 70 minutes less 70 minutes, from 11:00; 5 years less one, from 29 February; a day less 5 days, from 1 May (in two steps it is 28 April, a day late). And `m − (a − b)` can
have a result while `m − a + b` is an error. -/
theorem C131_refuted :
    (calculate (std .debug) (.moment (at_ 2017 1 1 11 0 0) + (.minutes 70 - .minutes 70)) = .ok (.moment (at_ 2017 1 1 11 0 0)) ∧
     calculate (std .debug) (.moment (at_ 2017 1 1 11 0 0) + .minutes 70 - .minutes 70) = .ok (.moment (at_ 2017 1 1 10 0 0))) ∧
    (calculate (std .debug) (.moment (at_ 2016 2 29 0 0 0) + (.years 5 - .years 1)) = .ok (.moment (at_ 2020 2 29 0 0 0)) ∧
     calculate (std .debug) (.moment (at_ 2016 2 29 0 0 0) + .years 5 - .years 1) = .ok (.moment (at_ 2020 3 1 0 0 0))) ∧
    (calculate (std .debug) (.moment (at_ 2017 5 1 0 0 0) + (.days 1 - .days 5)) = .err (.outOfBounds 2017 5 0 0 0 0) ∧
     calculate (std .debug) (.moment (at_ 2017 5 1 0 0 0) + .days 1 - .days 5) = .ok (.moment (at_ 2017 4 28 0 0 0))) ∧
    (calculate (std .debug) (.moment (at_ 2017 5 20 0 0 0) - (.days 5 - .days 1)) = .ok (.moment (at_ 2017 5 16 0 0 0)) ∧
     calculate (std .debug) (.moment (at_ 2017 5 20 0 0 0) - .days 5 + .days 1) = .err (.cannotAdd (.days 1) (.moment (at_ 2017 5 15 0 0 0)))) := by
  decide +kernel

end Props
