import Verif.Props.LateDays
import Verif.Props.Periods
import Verif.Props.IterOps

/-!
# C124: the ends of the months and years an iterator visits
-/

namespace Props
open Kairos Spec

private theorem month_end {c : Cfg} (hc : Sane c) {r : Moment} (v : r.Valid c) :
    calculate c (.endOfMonth (.moment r)) = .ok (.moment (at_ r.year r.month (Cal.monthLen r.year r.month) 0 0 0)) := by
  obtain ⟨last, e, h1, h2⟩ := C11_end_of_month c (.moment r) r ⟨hc, rfl, v⟩
  have : last = Cal.monthLen r.year r.month := Int.le_antisymm h1.2.2.2 (h2 _ ⟨h1.1, h1.2.1, by have := h1.2.2; omega, Int.le_refl _⟩)
  rw [this] at e
  exact e

/-- **C124 (months).** The ends of the months of the items of a monthly iterator from a base up to the 28th, with `n` months per step: `end_of_month` of the
item at position `k` is the last day of the month `k * n` months after that of the base. For every `k`, until chrono's last year is over. With `n = 1` these
are the ends of all months, with `n = 3` of every third, and so on. Missing: later bases, see `C124_refuted`. -/
theorem C124_months_partial (c : Cfg) (hc : Sane c) (m : Moment) (hm : m.Valid c) (hd : m.day ≤ 28)
    (n : Int) (hn : 0 ≤ n) (hmax : n ≤ 24000000000) (it : Iter) (hit : Ext.monthly (.moment m) n = .ok it) (k : Nat) :
    ∃ Y M : Int, 1 ≤ M ∧ M ≤ 12 ∧ Cal.monthIndex Y M = Cal.monthIndex m.year m.month + k * n ∧
      ((Y ≤ c.maxYear ∧ ∃ item, nth (Iter.next c) k it = some (.ok item) ∧
          calculate c (.endOfMonth item) = .ok (.moment (at_ Y M (Cal.monthLen Y M) 0 0 0))) ∨
       (c.maxYear < Y ∧ ∃ Y' M' D H MI S, nth (Iter.next c) k it = some (.err (.outOfBounds Y' M' D H MI S)))) := by
  obtain ⟨Y, M, h1, h2, h3, h4⟩ := C35_monthly c hc m hm hd n hn hmax it hit k
  refine ⟨Y, M, h1, h2, h3, ?_⟩
  rcases h4 with ⟨h5, h6⟩ | h4
  · left
    refine ⟨h5, _, h6, ?_⟩
    have hk : 0 ≤ (k : Int) * n := Int.mul_nonneg (by omega) hn
    have hy : m.year ≤ Y := by have := hm.2.2.1; unfold Cal.ValidDate at this; unfold Cal.monthIndex at h3; omega
    obtain ⟨a1, a2, ⟨a3, a4, a5, a6⟩, t, a7⟩ := hm
    have ml := Cal.monthLen_bounds (y := Y) h1 h2
    exact month_end hc (r := { m with year := Y, month := M, nano := if k = 0 then m.nano else 0 })
      ⟨by simp only; omega, h5, ⟨h1, h2, a5, by simp only; omega⟩, t, by simp only; split <;> omega⟩
  · exact .inr h4

/-- The ends of the quarters of 2020. -/
example : (at_ 2020 3 15 12 0 0).Valid (std .debug) ∧
    Ext.monthly (.moment (at_ 2020 3 15 12 0 0)) 3 = .ok ⟨.moment (at_ 2020 3 15 12 0 0), .months 3, false⟩ ∧
    nth (Iter.next (std .debug)) 1 ⟨.moment (at_ 2020 3 15 12 0 0), .months 3, false⟩ = some (.ok (.moment (at_ 2020 6 15 12 0 0))) ∧
    calculate (std .debug) (.endOfMonth (.moment (at_ 2020 6 15 12 0 0))) = .ok (.moment (at_ 2020 6 30 0 0 0)) := by
  decide +kernel

/-- **C124 refuted**, in general. From every base on the 29th, 30th or 31st, `monthly(1)` misses the end of some month, at most 23 months on: no item leads to
it. -/
theorem C124_refuted (c : Cfg) (hc : Sane c) (m : Moment) (hm : m.Valid c) (hd : 29 ≤ m.day) (it : Iter) (hit : Ext.monthly (.moment m) 1 = .ok it) :
    ∃ Y M : Int, 1 ≤ M ∧ M ≤ 12 ∧ Cal.monthIndex m.year m.month < Cal.monthIndex Y M ∧ Cal.monthIndex Y M ≤ Cal.monthIndex m.year m.month + 23 ∧
      ∀ (k : Nat) (item : TT), nth (Iter.next c) k it = some (.ok item) →
        calculate c (.endOfMonth item) ≠ .ok (.moment (at_ Y M (Cal.monthLen Y M) 0 0 0)) := by
  obtain ⟨j, D, j1, j2, d1, d2, h⟩ := C79_refuted c hc m hm hd it hit
  obtain ⟨Y, M, hM1, hM2, hYM⟩ : ∃ Y M : Int, 1 ≤ M ∧ M ≤ 12 ∧ Cal.monthIndex Y M = Cal.monthIndex m.year m.month + j :=
    ⟨(Cal.monthIndex m.year m.month + j) / 12, (Cal.monthIndex m.year m.month + j) % 12 + 1, by omega, by omega, by
      generalize Cal.monthIndex m.year m.month + j = x
      unfold Cal.monthIndex; omega⟩
  refine ⟨Y, M, hM1, hM2, by omega, by omega, fun k item hk he => ?_⟩
  obtain ⟨Y', M', h1, h2, h3, h4⟩ := h k
  rcases h4 with ⟨h5, h6⟩ | ⟨-, _, _, _, _, _, _, h6⟩
  · rw [h6] at hk
    cases hk
    have v : ({ m with year := Y', month := M', day := if k < j then m.day else D, nano := if k = 0 then m.nano else 0 } : Moment).Valid c := by
      have hmax : (1 : Int) * TUnit.secs .month ≤ 133500000000000000 := by decide
      have hb : Iter.build m (amt .month 1) = .ok it := hit
      have hit' : it = ⟨.moment m, amt .month 1, false⟩ := by
        rw [(C33_build m (amt .month 1)).1 ⟨_, _, rfl⟩] at hb; cases hb; rfl
      rcases forward_run c hc m hm .month 1 (by decide) hmax k with ⟨r, v, -, -, h7⟩ | ⟨_, _, _, _, _, _, -, h7⟩
      · rw [← hit', h6] at h7; cases h7; exact v
      · rw [← hit', h6] at h7; cases h7
    rw [month_end hc v] at he
    have := ok_moment_inj he
    simp only [at_, Moment.mk.injEq] at this
    obtain ⟨e1, e2, -⟩ := this
    subst e1; subst e2
    rw [hYM] at h3
    split at h3 <;> omega
  · rw [h6] at hk; cases hk

/-- From 31 January 2017 the end of February is missed. -/
example : (at_ 2017 1 31 0 0 0).Valid (std .debug) ∧
    Ext.monthly (.moment (at_ 2017 1 31 0 0 0)) 1 = .ok ⟨.moment (at_ 2017 1 31 0 0 0), .months 1, false⟩ ∧
    items (Iter.next (std .debug)) 3 ⟨.moment (at_ 2017 1 31 0 0 0), .months 1, false⟩ =
      [some (.ok (.moment (at_ 2017 1 31 0 0 0))), some (.ok (.moment (at_ 2017 3 3 0 0 0))), some (.ok (.moment (at_ 2017 4 3 0 0 0)))] := by
  decide +kernel

/-- **C124 (years).** `end_of_year` of the item at position `k` of a yearly iterator, with `n` years per step in either direction, is 31 December of the year
`k * n` years after that of the base: for every base, also from 29 February, and every `k`, as long as the year is in chrono's range. -/
theorem C124_years (c : Cfg) (hc : Sane c) (m : Moment) (hm : m.Valid c) (n : Int) (hn : -2000000000 ≤ n ∧ n ≤ 2000000000) (it : Iter)
    (hit : Ext.yearly (.moment m) n = .ok it) (k : Nat) (Y : Int) (hY : Y = m.year + k * n) :
    (c.minYear ≤ Y ∧ Y ≤ c.maxYear ∧ ∃ item, nth (Iter.next c) k it = some (.ok item) ∧
      calculate c (.endOfYear item) = .ok (.moment (at_ Y 12 31 0 0 0))) ∨
    ((Y < c.minYear ∨ c.maxYear < Y) ∧ ∃ Y' M D H MI S, nth (Iter.next c) k it = some (.err (.outOfBounds Y' M D H MI S))) := by
  have hm' := hm
  obtain ⟨a1, a2, ⟨a3, a4, a5, a6⟩, t, a7⟩ := hm'
  have ty : ∀ r : Moment, r.Valid c → calculate c (.endOfYear (.moment r)) = .ok (.moment (at_ r.year 12 31 0 0 0)) :=
    fun r v => C10_end_of_year c (.moment r) r ⟨hc, rfl, v⟩
  by_cases hd : m.month = 2 ∧ m.day = 29
  · rcases C80_from_29_february_partial c hc m hm hd n hn it hit k with ⟨h1, h2, h3, h4⟩ | h
    · left
      rw [← hY] at h1 h2 h3 h4
      refine ⟨h1, h2, ?_⟩
      by_cases hl : ∀ j : Nat, j ≤ k → Cal.isLeap (m.year + j * n) = true
      · have hlk := hl k (Nat.le_refl _)
        rw [← hY] at hlk
        refine ⟨_, h3 hl, ty _ ⟨h1, h2, ⟨a3, a4, a5, ?_⟩, t, by simp only; split <;> omega⟩⟩
        have : Cal.monthLen Y 2 = if Cal.isLeap Y then 29 else 28 := rfl
        simp only [hd.1, hd.2, this, hlk]
        decide
      · have : ∃ j : Nat, j ≤ k ∧ Cal.isLeap (m.year + j * n) = false := by
          simpa using hl
        refine ⟨_, h4 this, ty _ ⟨h1, h2, ⟨by simp, by simp, by simp, ?_⟩, t, by simp⟩⟩
        show (1 : Int) ≤ 31
        decide
    · rw [hY]; exact .inr h
  · rcases C35_yearly c hc m hm hd n hn it hit k with ⟨h1, h2, h3⟩ | h
    · left
      rw [← hY] at h1 h2 h3
      refine ⟨h1, h2, _, h3, ty _ ⟨h1, h2, ⟨a3, a4, a5, ?_⟩, t, by simp only; split <;> omega⟩⟩
      have := Cal.monthLen_bounds (y := m.year) a3 a4
      simp only
      by_cases h2 : m.month = 2
      · rw [h2] at a6 ⊢
        have e1 : Cal.monthLen m.year 2 = if Cal.isLeap m.year then 29 else 28 := rfl
        have e2 : Cal.monthLen Y 2 = if Cal.isLeap Y then 29 else 28 := rfl
        rw [e1] at a6; rw [e2]
        split at a6 <;> split <;> omega
      · have : Cal.monthLen Y m.month = Cal.monthLen m.year m.month := by
          simp only [Cal.monthLen, if_neg h2]
        rw [this]
        exact a6
    · rw [hY]; exact .inr h

example : (at_ 2016 2 29 0 0 0).Valid (std .debug) ∧
    Ext.yearly (.moment (at_ 2016 2 29 0 0 0)) 1 = .ok ⟨.moment (at_ 2016 2 29 0 0 0), .years 1, false⟩ ∧
    nth (Iter.next (std .debug)) 1 ⟨.moment (at_ 2016 2 29 0 0 0), .years 1, false⟩ = some (.ok (.moment (at_ 2017 3 1 0 0 0))) ∧
    calculate (std .debug) (.endOfYear (.moment (at_ 2017 3 1 0 0 0))) = .ok (.moment (at_ 2017 12 31 0 0 0)) := by
  decide +kernel

end Props
