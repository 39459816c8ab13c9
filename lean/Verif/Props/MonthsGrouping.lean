import Verif.Props.KeepOrder
import Verif.Props.Commute
import Verif.Props.Difference

/-!
# C25, C121, C131: exactly when months can be added together, in either order, or less some other months

The code counts the days of the month it reaches correctly within the year of the moment, and as 30 beyond it. A day of month that is too large for that
becomes a day of the month after.
-/

namespace Props
open Kairos Spec

private theorem same_of {c : Cfg} {p q : Moment} (hp : p.Valid c) (hq : q.Valid c) (zp : p.nano = 0) (zq : q.nano = 0) :
    p = q ↔ Cal.monthIndex p.year p.month = Cal.monthIndex q.year q.month ∧ inMonth p = inMonth q := by
  constructor
  · rintro rfl; exact ⟨rfl, rfl⟩
  · intro ⟨h1, h2⟩
    obtain ⟨-, -, ⟨p1, p2, p3, p4⟩, tp, -⟩ := hp
    obtain ⟨-, -, ⟨q1, q2, q3, q4⟩, tq, -⟩ := hq
    unfold Cal.monthIndex at h1
    unfold inMonth at h2
    unfold Cal.ValidTime at tp tq
    cases p; cases q
    simp only [Moment.mk.injEq] at *
    omega

/-- The day of month, from the position in the month. -/
private theorem day_of {c : Cfg} {p q : Moment} (hp : p.Valid c) (hq : q.Valid c) {x : Int} (h : inMonth p = inMonth q - x * 86400) : p.day = q.day - x := by
  have tp := hp.2.2.2.1
  have tq := hq.2.2.2.1
  unfold Cal.ValidTime at tp tq
  unfold inMonth at h
  omega

private theorem index_inj {y mo y' mo' : Int} (h1 : 1 ≤ mo ∧ mo ≤ 12) (h2 : 1 ≤ mo' ∧ mo' ≤ 12) (h : Cal.monthIndex y mo = Cal.monthIndex y' mo') :
    y = y' ∧ mo = mo' := by
  unfold Cal.monthIndex at h
  omega

/-- Where the second of two steps leads if the first kept the day. -/
private theorem second_step {c : Cfg} (hc : Sane c) {m m₁ r : Moment} (hm : m.Valid c) {a b A : Int} (ha : 0 ≤ a) (hb : 0 ≤ b) (hmax : a + b ≤ 24000000000)
    (hA : A = if m.month + a ≤ 12 then Cal.monthLen m.year (m.month + a) else 30) (hk : m.day ≤ A)
    (h₁ : calculate c (.moment m + .months a) = .ok (.moment m₁)) (h₂ : calculate c (.moment m₁ + .months b) = .ok (.moment r)) (B : Int)
    (hB : B = if m₁.month + b ≤ 12 then Cal.monthLen m₁.year (m₁.month + b) else 30) :
    (28 ≤ B ∧ B ≤ 31) ∧
    (m.day ≤ B ∧ Cal.monthIndex r.year r.month = Cal.monthIndex m.year m.month + (a + b) ∧ inMonth r = inMonth m ∨
      B < m.day ∧ Cal.monthIndex r.year r.month = Cal.monthIndex m.year m.month + (a + b) + 1 ∧ inMonth r = inMonth m - B * 86400) := by
  obtain ⟨v₁, lA, k₁⟩ := months_lead hc hm ha (by omega) hA h₁
  obtain ⟨v₂, lB, k₂⟩ := months_lead hc v₁ hb (by omega) hB h₂
  have k₁ : Cal.monthIndex m₁.year m₁.month = Cal.monthIndex m.year m.month + a ∧ inMonth m₁ = inMonth m := by omega
  have d := day_of (x := 0) v₁ hm (by omega)
  refine ⟨lB, ?_⟩
  omega

/-- **C25, months, exactly when (partial).** Months added in two steps and at once, from any day of a month, where both ways have a result (up to two billion
years): the results are the same if and only if the day exists in the month reached first, or the month reached in the end has the same number of days.
(`A` and `C` are these numbers of days, 30 for a month beyond the year of `m`. Missing: that it always holds, see `C25_refuted`.) -/
theorem C25_months_iff_partial (c : Cfg) (hc : Sane c) (m m₁ r r' : Moment) (hm : m.Valid c) (a b : Int) (ha : 0 ≤ a) (hb : 0 ≤ b) (hmax : a + b ≤ 24000000000)
    (h₁ : calculate c (.moment m + .months a) = .ok (.moment m₁)) (h₂ : calculate c (.moment m + .months a + .months b) = .ok (.moment r))
    (h₃ : calculate c (.moment m + (.months a + .months b)) = .ok (.moment r'))
    (A C : Int) (hA : A = if m.month + a ≤ 12 then Cal.monthLen m.year (m.month + a) else 30)
    (hC : C = if m.month + a + b ≤ 12 then Cal.monthLen m.year (m.month + a + b) else 30) :
    r = r' ↔ m.day ≤ A ∨ A = C := by
  have e := (C08_amounts_combined_first c m (.plus (.amt .month a) (.amt .month b))).1
  have s := (C07_chain_partial c (.moment m) (.months a) .month b).1
  simp only [AmtTree.toTT, amt] at e s
  have hs : calculate c (.months a + .months b) = .ok (.months (a + b)) := sum_months c (by unfold InI64; omega)
  rw [e, hs, OutE.ok_bind] at h₃
  rw [s, h₁, OutE.ok_bind] at h₂
  obtain ⟨v₁, lA, k₁⟩ := months_lead hc hm ha (by omega) hA h₁
  obtain ⟨v₂, lB, k₂⟩ := months_lead hc v₁ hb (by omega) rfl h₂
  obtain ⟨v₃, lC, k₃⟩ := months_lead (L := C) hc hm (by omega) hmax (by rw [hC, Int.add_assoc]) h₃
  have z₂ := (C15_computed c _ r (fun p => TT.noConfusion) h₂).2
  have z₃ := (C15_computed c _ r' (fun p => TT.noConfusion) h₃).2
  rw [same_of v₂ v₃ z₂ z₃]
  obtain ⟨-, -, ⟨m1, m2, m3, m4⟩, -, -⟩ := id hm
  have ml := Cal.monthLen_bounds (y := m.year) m1 m2
  obtain ⟨-, -, ⟨p1, p2, p3, p4⟩, -, -⟩ := id v₁
  obtain ⟨-, -, ⟨q1, q2, q3, q4⟩, -, -⟩ := id v₃
  by_cases hk : m.day ≤ A
  · refine iff_of_true ?_ (.inl hk)
    obtain ⟨-, t⟩ := second_step hc hm ha hb hmax hA hk h₁ h₂ _ rfl
    have k₁ : Cal.monthIndex m₁.year m₁.month = Cal.monthIndex m.year m.month + a := by omega
    by_cases hy : m.month + a ≤ 12
    · obtain ⟨e1, e2⟩ := index_inj (y := m₁.year) (y' := m.year) ⟨p1, p2⟩ (mo' := m.month + a) ⟨by omega, hy⟩ (by unfold Cal.monthIndex at *; omega)
      rw [e1, e2, ← hC] at t
      omega
    · have hC' : C = 30 := by rw [hC, if_neg (by omega)]
      have hA' : A = 30 := by rw [hA, if_neg (by omega)]
      have k₃ : Cal.monthIndex r'.year r'.month = Cal.monthIndex m.year m.month + (a + b) ∧ inMonth r' = inMonth m := by omega
      have d := day_of (x := 0) v₃ hm (by omega)
      by_cases hy' : m₁.month + b ≤ 12
      · obtain ⟨e1, e2⟩ := index_inj (y := r'.year) (y' := m₁.year) ⟨q1, q2⟩ (mo' := m₁.month + b) ⟨by omega, hy'⟩ (by unfold Cal.monthIndex at *; omega)
        rw [if_pos hy', ← e1, ← e2] at t
        omega
      · rw [if_neg hy'] at t
        omega
  · have k₁ : Cal.monthIndex m₁.year m₁.month = Cal.monthIndex m.year m.month + a + 1 ∧ inMonth m₁ = inMonth m - A * 86400 := by omega
    have d := day_of v₁ hm k₁.2
    omega

/-- Two months from 31 January by way of February are another day than at once; three by way of March are not. -/
example : (at_ 2017 4 3 0 0 0) ≠ at_ 2017 3 31 0 0 0 ∧ (at_ 2017 5 1 0 0 0) = at_ 2017 5 1 0 0 0 :=
  ⟨fun h => absurd ((C25_months_iff_partial (std .debug) (sane_std _) (at_ 2017 1 31 0 0 0) (at_ 2017 3 3 0 0 0) _ _ (by decide) 1 1 (by decide) (by decide)
      (by decide) (by decide +kernel) (by decide +kernel) (by decide +kernel) 28 31 rfl rfl).mp h) (by decide),
    (C25_months_iff_partial (std .debug) (sane_std _) (at_ 2017 1 31 0 0 0) (at_ 2017 3 31 0 0 0) _ _ (by decide) 2 1 (by decide) (by decide)
      (by decide) (by decide +kernel) (by decide +kernel) (by decide +kernel) 31 30 rfl rfl).mpr (by decide)⟩

/-- **C121, months, exactly when (partial).** Two numbers of months added in one order and in the other, from any day of a month, where all steps have a result: the
results are the same if and only if the code takes the same number of days off on the way. On the way by `m₁ = m + a` it takes off the length `A` of the month of
`m + a` if the day does not exist there, otherwise the length `B'` of the month reached in the second step if the day does not exist there, otherwise nothing; and
likewise with `B` and `A'` on the way by `m₂ = m + b`. (A month beyond the year in which the step starts counts 30 days. Missing: that it always holds, see
`C121_refuted`.) -/
theorem C121_months_iff_partial (c : Cfg) (hc : Sane c) (m m₁ m₂ r r' : Moment) (hm : m.Valid c) (a b : Int) (ha : 0 ≤ a) (hb : 0 ≤ b)
    (hmax : a + b ≤ 24000000000)
    (h₁ : calculate c (.moment m + .months a) = .ok (.moment m₁)) (h₂ : calculate c (.moment m + .months b) = .ok (.moment m₂))
    (h₃ : calculate c (.moment m + .months a + .months b) = .ok (.moment r)) (h₄ : calculate c (.moment m + .months b + .months a) = .ok (.moment r'))
    (A B A' B' : Int) (hA : A = if m.month + a ≤ 12 then Cal.monthLen m.year (m.month + a) else 30)
    (hB : B = if m.month + b ≤ 12 then Cal.monthLen m.year (m.month + b) else 30)
    (hB' : B' = if m₁.month + b ≤ 12 then Cal.monthLen m₁.year (m₁.month + b) else 30)
    (hA' : A' = if m₂.month + a ≤ 12 then Cal.monthLen m₂.year (m₂.month + a) else 30) :
    r = r' ↔ (if A < m.day then A else if B' < m.day then B' else 0) = (if B < m.day then B else if A' < m.day then A' else 0) := by
  have s₁ := (C07_chain_partial c (.moment m) (.months a) .month b).1
  have s₂ := (C07_chain_partial c (.moment m) (.months b) .month a).1
  simp only [amt] at s₁ s₂
  rw [s₁, h₁, OutE.ok_bind] at h₃
  rw [s₂, h₂, OutE.ok_bind] at h₄
  have way {a b A B' : Int} {m₁ r : Moment} (ha : 0 ≤ a) (hb : 0 ≤ b) (hmax : a + b ≤ 24000000000) (h₁ : calculate c (.moment m + .months a) = .ok (.moment m₁))
      (h₃ : calculate c (.moment m₁ + .months b) = .ok (.moment r)) (hA : A = if m.month + a ≤ 12 then Cal.monthLen m.year (m.month + a) else 30)
      (hB' : B' = if m₁.month + b ≤ 12 then Cal.monthLen m₁.year (m₁.month + b) else 30) :
      ∃ x, (if A < m.day then A else if B' < m.day then B' else 0) = x ∧ (x = 0 ∨ 28 ≤ x) ∧ inMonth r = inMonth m - x * 86400 ∧
        Cal.monthIndex r.year r.month = Cal.monthIndex m.year m.month + (a + b) + (if x = 0 then 0 else 1) := by
    refine ⟨_, rfl, ?_⟩
    obtain ⟨v₁, lA, k₁⟩ := months_lead hc hm ha (by omega) hA h₁
    by_cases hk : m.day ≤ A
    · obtain ⟨lB, k₂⟩ := second_step hc hm ha hb hmax hA hk h₁ h₃ _ hB'
      rw [if_neg (by omega)]
      by_cases hk' : m.day ≤ B'
      · rw [if_neg (by omega), if_pos rfl]; omega
      · rw [if_pos (by omega), if_neg (by omega)]; omega
    · obtain ⟨v₂, lB, k₂⟩ := months_lead hc v₁ hb (by omega) hB' h₃
      have k₁ : Cal.monthIndex m₁.year m₁.month = Cal.monthIndex m.year m.month + a + 1 ∧ inMonth m₁ = inMonth m - A * 86400 := by omega
      have d := day_of v₁ hm k₁.2
      have ml := Cal.monthLen_bounds (y := m.year) hm.2.2.1.1 hm.2.2.1.2.1
      have := hm.2.2.1.2.2.2
      rw [if_pos (by omega), if_neg (by omega)]
      omega
  obtain ⟨x, hx, x1, x2, x3⟩ := way ha hb hmax h₁ h₃ hA hB'
  obtain ⟨y, hy, y1, y2, y3⟩ := way hb ha (by omega) h₂ h₄ hB hA'
  have w₃ := C15_computed c _ r (fun p => TT.noConfusion) h₃
  have w₄ := C15_computed c _ r' (fun p => TT.noConfusion) h₄
  rw [hx, hy, same_of w₃.1 w₄.1 w₃.2 w₄.2]
  by_cases h : x = y
  · subst h; exact iff_of_true ⟨by omega, by omega⟩ rfl
  · exact iff_of_false (fun h' => by omega) h

/-- From 31 January, one month and two: 3 May, or 1 May. From 31 May, one month and four: 1 November either way. -/
example : (at_ 2017 5 3 0 0 0) ≠ at_ 2017 5 1 0 0 0 ∧ (at_ 2017 11 1 0 0 0) = at_ 2017 11 1 0 0 0 :=
  ⟨fun h => absurd ((C121_months_iff_partial (std .debug) (sane_std _) (at_ 2017 1 31 0 0 0) (at_ 2017 3 3 0 0 0) (at_ 2017 3 31 0 0 0) _ _ (by decide) 1 2
      (by decide) (by decide) (by decide) (by decide +kernel) (by decide +kernel) (by decide +kernel) (by decide +kernel) 28 31 30 31 rfl rfl rfl rfl).mp h)
      (by decide),
    (C121_months_iff_partial (std .debug) (sane_std _) (at_ 2017 5 31 0 0 0) (at_ 2017 7 1 0 0 0) (at_ 2017 10 1 0 0 0) _ _ (by decide) 1 4
      (by decide) (by decide) (by decide) (by decide +kernel) (by decide +kernel) (by decide +kernel) (by decide +kernel) 30 30 30 30 rfl rfl rfl rfl).mpr
      (by decide)⟩

/-- Where adding years leads: the same, or from 29 February into a common year 28 days less in the month after. -/
private theorem years_lead {c : Cfg} {m r : Moment} (hm : m.Valid c) {n x : Int} (hn : -2147483648 ≤ m.year + n ∧ m.year + n ≤ 2147483647)
    (hx : x = if m.month = 2 ∧ m.day = 29 ∧ Cal.isLeap (m.year + n) = false then 28 else 0)
    (e : calculate c (.moment m + .years n) = .ok (.moment r)) :
    r.Valid c ∧ (x = 0 ∨ x = 28 ∧ m.month = 2 ∧ m.day = 29) ∧ inMonth r = inMonth m - x * 86400 ∧
      Cal.monthIndex r.year r.month = Cal.monthIndex m.year m.month + 12 * n + (if x = 0 then 0 else 1) := by
  have hv := (C15_computed c _ r (fun p => TT.noConfusion) e).1
  refine ⟨hv, ?_⟩
  rw [C18_adding_years_partial c m hm n hn.1 hn.2] at e
  split at e
  · cases e
  split at e
  · rename_i h
    have e := ok_moment_inj e
    rw [if_pos h] at hx
    subst hx
    subst e
    refine ⟨.inr ⟨rfl, h.1, h.2.1⟩, ?_, ?_⟩
    · unfold inMonth; simp only; omega
    · rw [if_neg (by decide)]; unfold Cal.monthIndex; simp only; omega
  · rename_i h
    have e := ok_moment_inj e
    rw [if_neg h] at hx
    subst hx
    subst e
    refine ⟨.inl rfl, ?_, ?_⟩
    · unfold inMonth; simp only; omega
    · rw [if_pos rfl]; unfold Cal.monthIndex; simp only; omega

/-- **C121, months and years, exactly when (partial).** A number of months and a number of years (of either sign) added in one order and in the other, from any day
of a month, where all steps have a result: the results are the same if and only if the code takes the same number of days off on the way. Months take off the
length of the month reached (`A` from `m`, `A'` from `m₂ = m + b`) if the day does not exist in it, years take off 28 days if a 29 February leads into a common year.
(Missing: that it always holds, see `C121_refuted`.) -/
theorem C121_months_and_years_iff_partial (c : Cfg) (hc : Sane c) (m m₁ m₂ r r' : Moment) (hm : m.Valid c) (a b : Int) (ha : 0 ≤ a)
    (hmax : a ≤ 24000000000) (hb : -2147483648 ≤ m.year + b ∧ m.year + b ≤ 2147483647) (hb' : -2147483648 ≤ m₁.year + b ∧ m₁.year + b ≤ 2147483647)
    (h₁ : calculate c (.moment m + .months a) = .ok (.moment m₁)) (h₂ : calculate c (.moment m + .years b) = .ok (.moment m₂))
    (h₃ : calculate c (.moment m + .months a + .years b) = .ok (.moment r)) (h₄ : calculate c (.moment m + .years b + .months a) = .ok (.moment r'))
    (A A' : Int) (hA : A = if m.month + a ≤ 12 then Cal.monthLen m.year (m.month + a) else 30)
    (hA' : A' = if m₂.month + a ≤ 12 then Cal.monthLen m₂.year (m₂.month + a) else 30) :
    r = r' ↔
      (if A < m.day then A else if m₁.month = 2 ∧ m.day = 29 ∧ Cal.isLeap (m₁.year + b) = false then 28 else 0) =
        (if m.month = 2 ∧ m.day = 29 ∧ Cal.isLeap (m.year + b) = false then 28 else if A' < m.day then A' else 0) := by
  have s₁ := (C07_chain_partial c (.moment m) (.months a) .year b).1
  have s₂ := (C07_chain_partial c (.moment m) (.years b) .month a).1
  simp only [amt] at s₁ s₂
  rw [s₁, h₁, OutE.ok_bind] at h₃
  rw [s₂, h₂, OutE.ok_bind] at h₄
  have ml := Cal.monthLen_bounds (y := m.year) hm.2.2.1.1 hm.2.2.1.2.1
  have md := hm.2.2.1.2.2.2
  obtain ⟨v₁, lA, k₁⟩ := months_lead hc hm ha hmax hA h₁
  obtain ⟨v₃, o₃, i₃, j₃⟩ := years_lead v₁ hb' rfl h₃
  obtain ⟨v₂, o₂, i₂, j₂⟩ := years_lead hm hb rfl h₂
  obtain ⟨v₄, lA', k₄⟩ := months_lead hc v₂ ha hmax hA' h₄
  obtain ⟨x, hx, x1, x2, x3⟩ : ∃ x, (if A < m.day then A else if m₁.month = 2 ∧ m.day = 29 ∧ Cal.isLeap (m₁.year + b) = false then 28 else 0) = x ∧
      (x = 0 ∨ 28 ≤ x) ∧ inMonth r = inMonth m - x * 86400 ∧
        Cal.monthIndex r.year r.month = Cal.monthIndex m.year m.month + a + 12 * b + (if x = 0 then 0 else 1) := by
    refine ⟨_, rfl, ?_⟩
    by_cases hk : m.day ≤ A
    · have k₁ : Cal.monthIndex m₁.year m₁.month = Cal.monthIndex m.year m.month + a ∧ inMonth m₁ = inMonth m := by omega
      have d := day_of (x := 0) v₁ hm (by omega)
      rw [show m₁.day = m.day by omega] at o₃ i₃ j₃
      rw [if_neg (show ¬ A < m.day by omega)]
      generalize (if m₁.month = 2 ∧ m.day = 29 ∧ Cal.isLeap (m₁.year + b) = false then (28 : Int) else 0) = w at *
      exact ⟨by omega, by omega, by omega⟩
    · have k₁ : Cal.monthIndex m₁.year m₁.month = Cal.monthIndex m.year m.month + a + 1 ∧ inMonth m₁ = inMonth m - A * 86400 := by omega
      have d := day_of v₁ hm k₁.2
      rw [if_neg (show ¬ (m₁.month = 2 ∧ m₁.day = 29 ∧ Cal.isLeap (m₁.year + b) = false) by omega)] at i₃ j₃
      rw [if_pos (show A < m.day by omega)]
      rw [if_pos rfl] at j₃
      rw [if_neg (show ¬ A = 0 by omega)]
      exact ⟨by omega, by omega, by omega⟩
  obtain ⟨y, hy, y1, y2, y3⟩ : ∃ y, (if m.month = 2 ∧ m.day = 29 ∧ Cal.isLeap (m.year + b) = false then 28 else if A' < m.day then A' else 0) = y ∧
      (y = 0 ∨ 28 ≤ y) ∧ inMonth r' = inMonth m - y * 86400 ∧
        Cal.monthIndex r'.year r'.month = Cal.monthIndex m.year m.month + a + 12 * b + (if y = 0 then 0 else 1) := by
    refine ⟨_, rfl, ?_⟩
    by_cases hk : m.month = 2 ∧ m.day = 29 ∧ Cal.isLeap (m.year + b) = false
    · rw [if_pos hk] at i₂ j₂ ⊢
      rw [if_neg (by decide)] at j₂ ⊢
      have d := day_of v₂ hm i₂
      exact ⟨by omega, by omega, by omega⟩
    · rw [if_neg hk] at i₂ j₂ ⊢
      rw [if_pos rfl] at j₂
      have d := day_of v₂ hm i₂
      by_cases hk' : m.day ≤ A'
      · rw [if_neg (show ¬ A' < m.day by omega), if_pos rfl]
        exact ⟨by omega, by omega, by omega⟩
      · rw [if_pos (show A' < m.day by omega), if_neg (show ¬ A' = 0 by omega)]
        exact ⟨by omega, by omega, by omega⟩
  have z₃ := (C15_computed c _ r (fun p => TT.noConfusion) h₃).2
  have z₄ := (C15_computed c _ r' (fun p => TT.noConfusion) h₄).2
  rw [hx, hy, same_of v₃ v₄ z₃ z₄]
  by_cases h : x = y
  · subst h; exact iff_of_true ⟨by omega, by omega⟩ rfl
  · exact iff_of_false (fun h' => by omega) h

/-- From 29 January 2020, a month and a year: 29 February 2020 and so 1 March 2021, either way. From 30 January 2019: 2 March 2019 and so 2 March 2020, or by way
of 30 January 2020, 1 March. -/
example : (at_ 2021 3 1 0 0 0) = at_ 2021 3 1 0 0 0 ∧ (at_ 2020 3 2 0 0 0) ≠ at_ 2020 3 1 0 0 0 :=
  ⟨(C121_months_and_years_iff_partial (std .debug) (sane_std _) (at_ 2020 1 29 0 0 0) (at_ 2020 2 29 0 0 0) (at_ 2021 1 29 0 0 0) _ _ (by decide) 1 1
      (by decide) (by decide) (by decide) (by decide) (by decide +kernel) (by decide +kernel) (by decide +kernel) (by decide +kernel) 29 28 rfl rfl).mpr (by decide),
    fun h => absurd ((C121_months_and_years_iff_partial (std .debug) (sane_std _) (at_ 2019 1 30 0 0 0) (at_ 2019 3 2 0 0 0) (at_ 2020 1 30 0 0 0) _ _
      (by decide) 1 1 (by decide) (by decide) (by decide) (by decide) (by decide +kernel) (by decide +kernel) (by decide +kernel) (by decide +kernel) 28 29
      rfl rfl).mp h) (by decide)⟩

private theorem difference_months (c : Cfg) {a b : Int} (h : InI64 (a - b)) : calculate c (.months a - .months b) = .ok (.months (a - b)) := by
  rw [calculate_sub, exec_sub]
  simp only [Eval.sub, exec_subFrom_months, Eval.subFromMonths, Cfg.sub]
  unfold Cfg.chk; rw [if_pos h]; rfl

/-- Where subtracting months leads, if it has a result. -/
private theorem months_back {c : Cfg} (hc : Sane c) {m r : Moment} (hm : m.Valid c) {n : Int} (hn : 0 ≤ n) (hb : n < 4294967296)
    (e : calculate c (.moment m - .months n) = .ok (.moment r)) :
    r.Valid c ∧ r.nano = 0 ∧ Cal.monthIndex r.year r.month = Cal.monthIndex m.year m.month - n ∧ inMonth r = inMonth m := by
  have hv := C15_computed c _ r (fun p => TT.noConfusion) e
  refine ⟨hv.1, hv.2, ?_⟩
  obtain ⟨Y, M, hM, hi⟩ : ∃ Y M : Int, (1 ≤ M ∧ M ≤ 12) ∧ Cal.monthIndex Y M = Cal.monthIndex m.year m.month - n :=
    ⟨(Cal.monthIndex m.year m.month - n) / 12, (Cal.monthIndex m.year m.month - n) % 12 + 1, by omega, by unfold Cal.monthIndex; omega⟩
  rcases C22_subtracting_months_partial c hc m hm n hn hb Y M hM hi with ⟨-, -, -, f⟩ | ⟨-, Y', M', D, H, MI, S, f⟩
  · rw [e] at f
    have := ok_moment_inj f
    subst this
    exact ⟨hi, rfl⟩
  · rw [e] at f; cases f

/-- **C131, months, exactly when (partial).** From any day of a month, `b` not more than `a` (up to two billion years, `b` below 2^32 months), where both ways have a
result: `m + a − b` and `m + (a − b)` are the same if and only if the day exists in the month of `m + a`, or the month of `m + (a − b)` has the same number of days
as that. (`A` and `C` are these numbers of days, 30 for a month beyond the year of `m`. Missing: that it always holds, see `C131_refuted`.) -/
theorem C131_months_iff_partial (c : Cfg) (hc : Sane c) (m m₁ r r' : Moment) (hm : m.Valid c) (a b : Int) (hb : 0 ≤ b) (hba : b ≤ a) (hmax : a ≤ 24000000000)
    (hb' : b < 4294967296)
    (h₁ : calculate c (.moment m + .months a) = .ok (.moment m₁)) (h₂ : calculate c (.moment m + .months a - .months b) = .ok (.moment r))
    (h₃ : calculate c (.moment m + (.months a - .months b)) = .ok (.moment r'))
    (A C : Int) (hA : A = if m.month + a ≤ 12 then Cal.monthLen m.year (m.month + a) else 30)
    (hC : C = if m.month + (a - b) ≤ 12 then Cal.monthLen m.year (m.month + (a - b)) else 30) :
    r = r' ↔ m.day ≤ A ∨ A = C := by
  have e := (C08_amounts_combined_first c m (.minus (.amt .month a) (.amt .month b))).1
  have s := (C07_chain_partial c (.moment m) (.months a) .month b).2.1
  simp only [AmtTree.toTT, amt] at e s
  rw [e, difference_months c (by unfold InI64; omega), OutE.ok_bind] at h₃
  rw [s, h₁, OutE.ok_bind] at h₂
  obtain ⟨v₁, lA, k₁⟩ := months_lead hc hm (by omega) hmax hA h₁
  obtain ⟨v₂, z₂, i₂, j₂⟩ := months_back hc v₁ hb hb' h₂
  obtain ⟨v₃, lC, k₃⟩ := months_lead hc hm (by omega) (by omega) hC h₃
  have z₃ := (C15_computed c _ r' (fun p => TT.noConfusion) h₃).2
  obtain ⟨-, -, ⟨m1, m2, m3, m4⟩, -, -⟩ := id hm
  have ml := Cal.monthLen_bounds (y := m.year) m1 m2
  obtain ⟨-, -, ⟨q1, q2, q3, q4⟩, -, -⟩ := id v₂
  rw [same_of v₂ v₃ z₂ z₃]
  by_cases hk : m.day ≤ A
  · refine iff_of_true ?_ (.inl hk)
    have k₁ : Cal.monthIndex m₁.year m₁.month = Cal.monthIndex m.year m.month + a ∧ inMonth m₁ = inMonth m := by omega
    have d := day_of (x := 0) v₂ hm (by omega)
    by_cases hy : m.month + (a - b) ≤ 12
    · obtain ⟨e1, e2⟩ := index_inj (y := r.year) (y' := m.year) ⟨q1, q2⟩ (mo' := m.month + (a - b)) ⟨by omega, hy⟩ (by unfold Cal.monthIndex at *; omega)
      rw [if_pos hy, ← e1, ← e2] at hC
      omega
    · rw [if_neg hy] at hC
      rw [if_neg (by omega)] at hA
      omega
  · omega

/-- From 31 January, 3 months less one: 31 March at once, 1 April by way of 1 May. From 31 May, 6 months less 5: 1 July in either way. -/
example : at_ 2017 4 1 0 0 0 ≠ at_ 2017 3 31 0 0 0 ∧ at_ 2017 7 1 0 0 0 = at_ 2017 7 1 0 0 0 :=
  ⟨fun h => absurd ((C131_months_iff_partial (std .debug) (sane_std _) (at_ 2017 1 31 0 0 0) (at_ 2017 5 1 0 0 0) _ _ (by decide) 3 1 (by decide) (by decide)
      (by decide) (by decide) (by decide +kernel) (by decide +kernel) (by decide +kernel) 30 31 rfl rfl).mp h) (by decide),
    (C131_months_iff_partial (std .debug) (sane_std _) (at_ 2017 5 31 0 0 0) (at_ 2017 12 1 0 0 0) _ _ (by decide) 6 5 (by decide) (by decide)
      (by decide) (by decide) (by decide +kernel) (by decide +kernel) (by decide +kernel) 30 30 rfl rfl).mpr (.inr rfl)⟩

/-- **C131, years, from 29 February (partial).** `m + a − b` and `m + (a − b)` have the same outcome, a date or an error, if and only if the years of `m + a` and of
`m + (a − b)` are both leap years or both common years. -/
theorem C131_leap_day_partial (c : Cfg) (m m₁ : Moment) (hm : m.Valid c) (hd : m.month = 2 ∧ m.day = 29) (a b : Int) (hab : InI64 (a - b))
    (hr : -2147483648 ≤ m.year + a ∧ m.year + a ≤ 2147483647) (hr' : -2147483648 ≤ m.year + (a - b) ∧ m.year + (a - b) ≤ 2147483647)
    (h₁ : calculate c (.moment m + .years a) = .ok (.moment m₁)) :
    calculate c (.moment m + .years a - .years b) = calculate c (.moment m + (.years a - .years b)) ↔
      Cal.isLeap (m.year + a) = Cal.isLeap (m.year + (a - b)) := by
  have e := (C08_amounts_combined_first c m (.minus (.amt .year a) (.amt .year b))).1
  have q := (C07_chain_partial c (.moment m) (.years a) .year b).2.1
  simp only [AmtTree.toTT, amt] at e q
  rw [q, e, h₁, OutE.ok_bind, difference_years c hab, OutE.ok_bind]
  have hv₁ := C15_computed c _ m₁ (fun _ => by intro h; cases h) h₁ |>.1
  have f := C18_adding_years_partial c m hm a hr.1 hr.2
  rw [C18_adding_years_partial c m hm (a - b) hr'.1 hr'.2]
  rw [h₁] at f
  have ey : m.year + a - b = m.year + (a - b) := by omega
  split at f
  · cases f
  rename_i hin
  simp only [hd.1, hd.2, true_and] at f ⊢
  split at f
  · rename_i hl
    have := ok_moment_inj f
    subst this
    have g := C23_subtracting_years_partial c _ hv₁ b (by simp only; omega) (by simp only; omega)
    simp only [ey] at g
    have hv : Cal.ValidDate (m.year + (a - b)) 3 1 := by simp [Cal.ValidDate, Cal.monthLen]
    rw [g, hl]
    cases hl' : Cal.isLeap (m.year + (a - b)) <;> simp only [hv, and_true] <;>
      by_cases hy : c.minYear ≤ m.year + (a - b) ∧ m.year + (a - b) ≤ c.maxYear
    · rw [if_pos hy, if_neg (by omega)]; simp
    · rw [if_neg hy, if_pos (by omega)]; simp
    · rw [if_pos hy, if_neg (by omega)]; simp
    · rw [if_neg hy, if_pos (by omega)]; simp
  · rename_i hl
    have := ok_moment_inj f
    subst this
    have g := C23_subtracting_years_partial c _ hv₁ b (by simp only; omega) (by simp only; omega)
    simp only [ey] at g
    have hv : Cal.ValidDate (m.year + (a - b)) 2 29 ↔ Cal.isLeap (m.year + (a - b)) = true := by
      cases h : Cal.isLeap (m.year + (a - b)) <;> simp [Cal.ValidDate, Cal.monthLen, h]
    rw [g]
    simp only [Bool.not_eq_false] at hl
    rw [hl]
    cases hl' : Cal.isLeap (m.year + (a - b)) <;> rw [hl'] at hv <;>
      by_cases hy : c.minYear ≤ m.year + (a - b) ∧ m.year + (a - b) ≤ c.maxYear
    · rw [if_neg (by rw [hv]; simp), if_neg (by omega)]; simp
    · rw [if_neg (by rw [hv]; simp), if_pos (by omega)]; simp
    · rw [if_pos (by rw [hv]; exact ⟨hy.1, hy.2, rfl⟩), if_neg (by omega)]; simp
    · rw [if_neg (fun h => hy ⟨h.1, h.2.1⟩), if_pos (by omega)]; simp

/-- 29 February 2016 and 5 years less one, or 5 years less two. -/
example : calculate (std .debug) (.moment (at_ 2016 2 29 0 0 0) + .years 5 - .years 1) ≠ calculate (std .debug) (.moment (at_ 2016 2 29 0 0 0) + (.years 5 - .years 1)) ∧
    calculate (std .debug) (.moment (at_ 2016 2 29 0 0 0) + .years 5 - .years 2) = calculate (std .debug) (.moment (at_ 2016 2 29 0 0 0) + (.years 5 - .years 2)) :=
  ⟨fun h => absurd ((C131_leap_day_partial (std .debug) (at_ 2016 2 29 0 0 0) (at_ 2021 3 1 0 0 0) (by decide) (by decide) 5 1 (by decide) (by decide) (by decide)
      (by decide +kernel)).mp h) (by decide),
    (C131_leap_day_partial (std .debug) (at_ 2016 2 29 0 0 0) (at_ 2021 3 1 0 0 0) (by decide) (by decide) 5 2 (by decide) (by decide) (by decide)
      (by decide +kernel)).mpr (by decide)⟩

end Props
