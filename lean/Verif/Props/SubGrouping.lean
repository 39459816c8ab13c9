import Verif.Lemmas.SubSteps
import Verif.Props.Grouping
import Verif.Props.Subtracting
import Verif.Props.Values

/-!
# C120: grouping of subtracted amounts
-/

namespace Props
open Kairos Spec

/-- **C120, seconds, minutes, hours and days (partial).** `m₁` is the date-time the first amount before `m`, `m₂` the one both amounts before. If subtracting both
at once gives `m₂`, then so does subtracting one after the other. Apart from exactly as many hours as lead to midnight two days ago.
Missing: the other direction, see `C120_refuted`. -/
theorem C120_steps_partial (c : Cfg) (hc : Sane c) (m m₁ m₂ : Moment) (hm : m.Valid c) (hm₁ : m₁.Valid c)
    (hm₂ : m₂.Valid c) (hz₁ : m₁.nano = 0) (hz₂ : m₂.nano = 0) (u v : TUnit)
    (hu : u = .second ∨ u = .minute ∨ u = .hour ∨ u = .day) (hv : v = .second ∨ v = .minute ∨ v = .hour ∨ v = .day)
    (n k : Int) (hn : 0 ≤ n) (hk : 0 ≤ k)
    (h₁ : m₁.instant = m.instant - n * u.secs) (h₂ : m₂.instant = m.instant - (n * u.secs + k * v.secs))
    (hx : (u ≠ .hour ∧ v ≠ .hour) ∨ n * u.secs + k * v.secs ≠ (m.hour + 24) * 3600)
    (h : calculate c (.moment m - (amt u n + amt v k)) = .ok (.moment m₂)) :
    calculate c (.moment m - amt u n - amt v k) = .ok (.moment m₂) := by
  have pu : 0 < u.secs := by cases u <;> decide
  have pv : 0 < v.secs := by cases v <;> decide
  have nu : 0 ≤ n * u.secs := Int.mul_nonneg hn (by omega)
  have kv : 0 ≤ k * v.secs := Int.mul_nonneg hk (by omega)
  have close := instants_close hc hm hm₂
  -- the amount as a whole
  have e := (C08_amounts_combined_first c m (.plus (.amt u n) (.amt v k))).2
  simp only [AmtTree.toTT] at e
  obtain ⟨w, hw, hs, -⟩ := C05_amounts_succeed c (.plus (.amt u n) (.amt v k)) (by
    simp only [AmtTree.mag]; rw [if_neg (by omega), if_neg (by omega)]; omega)
  simp only [AmtTree.toTT, AmtTree.secs] at hw hs
  rw [e, hw, OutE.ok_bind] at h
  obtain ⟨f, hf⟩ : ∃ f, f = AmtTree.finest (.plus (.amt u n) (.amt v k)) := ⟨_, rfl⟩
  have hf' : f = u ∧ u.secs ≤ v.secs ∨ f = v ∧ v.secs < u.secs := by
    by_cases hle : u.secs ≤ v.secs
    · exact .inl ⟨hf.trans (if_pos hle), hle⟩
    · exact .inr ⟨hf.trans (if_neg hle), by omega⟩
  rw [← hf] at hs h
  have hfu : f = .second ∨ f = .minute ∨ f = .hour ∨ f = .day := by
    rcases hf' with ⟨h, -⟩ | ⟨h, -⟩ <;> rw [h] <;> assumption
  have pf : 0 < f.secs := by cases f <;> decide
  have hw0 : 0 ≤ w := by
    refine Int.not_lt.1 fun hneg => ?_
    have := Int.mul_neg_of_neg_of_pos hneg pf
    omega
  have r := (C21_exact_iff_partial c hc m m₂ hm hm₂ hz₂ f hfu w hw0 (by omega)).1 h
  obtain ⟨start, hstart⟩ : ∃ s, s = Cal.instant m.year m.month 1 0 0 0 := ⟨_, rfl⟩
  obtain ⟨plen, hplen⟩ : ∃ p, p = Cal.monthLen (prevMonth m.year m.month).1 (prevMonth m.year m.month).2 := ⟨_, rfl⟩
  have hxw : f ≠ .hour ∨ w ≠ m.hour + 24 := by
    by_cases hfh : f = .hour
    · refine .inr fun hwe => ?_
      rw [hfh, hwe] at hs
      have h3600 : TUnit.secs .hour = 3600 := rfl
      rw [h3600] at hs
      rcases hx with ⟨h1, h2⟩ | hx
      · rcases hf' with ⟨h, -⟩ | ⟨h, -⟩
        · exact h1 (h.symm.trans hfh)
        · exact h2 (h.symm.trans hfh)
      · omega
    · exact .inl hfh
  rw [subRight_instants hm hm₂ f hfu w hw0 (by omega) hxw start plen hstart hplen] at r
  obtain ⟨r1, r2⟩ := r
  have t := hm.2.2.2.1
  have t₁ := hm₁.2.2.2.1
  unfold Cal.ValidTime at t t₁
  have i := inst_eq m
  have i₁ := inst_eq m₁
  -- the first step
  have s1 : (u = .hour → n ≠ m.hour + 24) ∧ (u = .day ∨ n < comp m u + base u) ∧
      (v = .hour → k ≠ m₁.hour + 24) ∧ (v = .day ∨ k < comp m₁ v + base v) := by
    rcases hu with rfl | rfl | rfl | rfl <;> rcases hv with rfl | rfl | rfl | rfl <;>
      simp only [TUnit.secs] at * <;>
      (rcases hf' with ⟨rfl, hle⟩ | ⟨rfl, hle⟩ <;>
        simp only [comp, base, true_or, reduceCtorEq, false_or, false_implies, true_implies, true_and, and_true] at * <;> omega)
  rw [(C07_chain_partial c (.moment m) (amt u n) v k).2.2]
  have x1 : u ≠ .hour ∨ n ≠ m.hour + 24 := by
    by_cases h : u = .hour
    · exact .inr (s1.1 h)
    · exact .inl h
  have x2 : v ≠ .hour ∨ k ≠ m₁.hour + 24 := by
    by_cases h : v = .hour
    · exact .inr (s1.2.2.1 h)
    · exact .inl h
  rw [(C21_exact_iff_partial c hc m m₁ hm hm₁ hz₁ u hu n hn h₁).2
    ((subRight_instants hm hm₁ u hu n hn h₁ x1 start plen hstart hplen).2 ⟨s1.2.1, by omega⟩), OutE.ok_bind]
  refine (C21_exact_iff_partial c hc m₁ m₂ hm₁ hm₂ hz₂ v hv k hk (by omega)).2 ?_
  refine (subRight_instants hm₁ hm₂ v hv k hk (by omega) x2 _ _ rfl rfl).2 ⟨s1.2.2.2, ?_⟩
  obtain ⟨A, B, -⟩ := month_of_earlier hm hm₁ (by omega) start plen hstart hplen
  by_cases hge : start ≤ m₁.instant
  · obtain ⟨q1, q2⟩ := A.1 hge
    rw [q1, q2, ← hstart, ← hplen]
    exact r2
  · obtain ⟨q1, q2⟩ := B.1 ⟨by omega, by omega⟩
    left
    have dn := dayNumber_prevMonth (y := m.year) hm.2.2.1.1 hm.2.2.1.2.1 1
    rw [← hplen] at dn
    rw [q1, q2]
    unfold Cal.instant at hstart ⊢
    omega

example := C120_steps_partial (std .debug) (sane_std _) (at_ 2017 4 5 12 0 0) (at_ 2017 4 2 12 0 0) (at_ 2017 3 31 12 0 0) (by decide) (by decide) (by decide) rfl rfl
  .day .day (by decide) (by decide) 3 2 (by decide) (by decide) (by decide) (by decide) (by decide) (by decide +kernel)

/-- **C120, months (partial).** If subtracting the months of the first amount and subtracting both at once give results, then subtracting one after the
other gives the same as both at once. -/
theorem C120_months_partial (c : Cfg) (hc : Sane c) (m m₁ m₂ : Moment) (hm : m.Valid c) (a b : Int) (ha : 0 ≤ a) (hb : 0 ≤ b) (hmax : a + b < 4294967296)
    (h₁ : calculate c (.moment m - .months a) = .ok (.moment m₁)) (h : calculate c (.moment m - (.months a + .months b)) = .ok (.moment m₂)) :
    calculate c (.moment m - .months a - .months b) = .ok (.moment m₂) := by
  have e := (C08_amounts_combined_first c m (.plus (.amt .month a) (.amt .month b))).2
  have r := (C07_chain_partial c (.moment m) (.months a) .month b).2.2
  simp only [AmtTree.toTT, amt] at e r
  have hs : calculate c (.months a + .months b) = .ok (.months (a + b)) := sum_months c ⟨by omega, by omega⟩
  rw [e, hs, OutE.ok_bind] at h
  rw [r, h₁, OutE.ok_bind]
  have hv₁ := C15_computed c _ m₁ (fun _ => by intro h; cases h) h₁ |>.1
  have hm' := hm
  obtain ⟨a1, a2, ⟨a3, a4, a5, a6⟩, t, a7⟩ := hm'
  have ex : ∀ x : Int, ∃ Y M : Int, (1 ≤ M ∧ M ≤ 12) ∧ Cal.monthIndex Y M = x := by
    intro x
    unfold Cal.monthIndex
    exact ⟨x / 12, x % 12 + 1, by omega, by omega⟩
  obtain ⟨Y, M, hM, hi⟩ := ex (Cal.monthIndex m.year m.month - a)
  obtain ⟨Y', M', hM', hi'⟩ := ex (Cal.monthIndex m.year m.month - (a + b))
  rcases C22_subtracting_months_partial c hc m hm a ha (by omega) Y M hM hi with ⟨p1, p2, p3, p4⟩ | ⟨-, _, _, _, _, _, _, p⟩
  · rcases C22_subtracting_months_partial c hc m hm (a + b) (by omega) hmax Y' M' hM' hi' with ⟨q1, q2, q3, q4⟩ | ⟨-, _, _, _, _, _, _, q⟩
    · rw [h₁] at p4
      have e1 := ok_moment_inj p4
      rw [h] at q4
      have e2 := ok_moment_inj q4
      subst e1 e2
      unfold Cal.monthIndex at hi hi'
      rcases C22_subtracting_months_partial c hc _ hv₁ b hb (by omega) Y' M' hM' (by unfold Cal.monthIndex; simp only; omega) with ⟨-, -, -, s⟩ | ⟨s, -⟩
      · rw [s]
      · simp only at s; omega
    · rw [h] at q; cases q
  · rw [h₁] at p; cases p

example := C120_months_partial (std .debug) (sane_std _) (at_ 2017 4 5 12 0 0) (at_ 2017 1 5 12 0 0) (at_ 2016 11 5 12 0 0) (by decide) 3 2 (by decide) (by decide)
  (by decide) (by decide +kernel) (by decide +kernel)

/-- **C120, months, exactly when (partial).** `(Y, M)` is the month `a` calendar months before that of `m` and `(Y', M')` the one `a + b` months before. Subtracting both at once and one after
the other give the same moment if and only if fewer than 12 + (month of `m`) months are subtracted in all, both of these months have the day
and the year is in chrono's range. -/
theorem C120_months_iff_partial (c : Cfg) (hc : Sane c) (m : Moment) (hm : m.Valid c) (a b : Int) (ha : 0 ≤ a) (hb : 0 ≤ b) (hmax : a + b < 4294967296)
    (Y M Y' M' : Int) (hM : 1 ≤ M ∧ M ≤ 12) (hM' : 1 ≤ M' ∧ M' ≤ 12) (hi : Cal.monthIndex Y M = Cal.monthIndex m.year m.month - a)
    (hi' : Cal.monthIndex Y' M' = Cal.monthIndex m.year m.month - (a + b)) :
    (∃ r, calculate c (.moment m - .months a - .months b) = .ok (.moment r) ∧ calculate c (.moment m - (.months a + .months b)) = .ok (.moment r)) ↔
      a + b < m.month + 12 ∧ m.day ≤ Cal.monthLen Y M ∧ m.day ≤ Cal.monthLen Y' M' ∧ c.minYear ≤ Y' := by
  have e := (C08_amounts_combined_first c m (.plus (.amt .month a) (.amt .month b))).2
  have r := (C07_chain_partial c (.moment m) (.months a) .month b).2.2
  simp only [AmtTree.toTT, amt] at e r
  have hs : calculate c (.months a + .months b) = .ok (.months (a + b)) := sum_months c ⟨by omega, by omega⟩
  rw [hs, OutE.ok_bind] at e
  have hY : Y' ≤ Y := by unfold Cal.monthIndex at hi hi'; omega
  have fst := C22_subtracting_months_partial c hc m hm a ha (by omega) Y M hM hi
  have both := C22_subtracting_months_partial c hc m hm (a + b) (by omega) hmax Y' M' hM' hi'
  constructor
  · rintro ⟨q, h1, h2⟩
    rw [e] at h2
    rw [r] at h1
    obtain ⟨v, hv, -⟩ := OutE.bind_eq_ok.1 h1
    rcases fst with ⟨-, p, -⟩ | ⟨-, _, _, _, _, _, _, p⟩
    · rcases both with ⟨q1, q2, q3, -⟩ | ⟨-, _, _, _, _, _, _, q'⟩
      · exact ⟨q1, p, q2, q3⟩
      · rw [h2] at q'; cases q'
    · rw [hv] at p; cases p
  · rintro ⟨h1, h2, h3, h4⟩
    rcases fst with ⟨-, -, -, p⟩ | ⟨p, -⟩
    · rcases both with ⟨-, -, -, q⟩ | ⟨q, -⟩
      · rw [← e] at q
        exact ⟨_, C120_months_partial c hc m _ _ hm a b ha hb hmax p q, q⟩
      · omega
    · omega

/-- 31 May less 2 and 2 months; 31 May less 3 and 1: there is no 31 February. -/
example := (C120_months_iff_partial (std .debug) (sane_std _) (at_ 2017 5 31 0 0 0) (by decide) 2 2 (by decide) (by decide) (by decide) 2017 3 2017 1
  (by decide) (by decide) (by decide) (by decide)).2 (by decide)

example : calculate (std .debug) (.moment (at_ 2017 5 31 0 0 0) - .months 3 - .months 1) = .err (.outOfBounds 2017 2 0 0 0 0) ∧
    calculate (std .debug) (.moment (at_ 2017 5 31 0 0 0) - (.months 3 + .months 1)) = .ok (.moment (at_ 2017 1 31 0 0 0)) := by decide +kernel

/-- **C120, years (partial).** Years of either sign can be subtracted in one or two steps with the same outcome, provided the first step succeeds. -/
theorem C120_years_partial (c : Cfg) (m m₁ : Moment) (hm : m.Valid c) (a b : Int)
    (hr : InI64 (a + b)) (hr' : -2147483648 ≤ m.year - (a + b) ∧ m.year - (a + b) ≤ 2147483647)
    (hra : -2147483648 ≤ m.year - a ∧ m.year - a ≤ 2147483647)
    (h₁ : calculate c (.moment m - .years a) = .ok (.moment m₁)) :
    calculate c (.moment m - .years a - .years b) = calculate c (.moment m - (.years a + .years b)) := by
  have e := (C08_amounts_combined_first c m (.plus (.amt .year a) (.amt .year b))).2
  have r := (C07_chain_partial c (.moment m) (.years a) .year b).2.2
  simp only [AmtTree.toTT, amt] at e r
  have hs : calculate c (.years a + .years b) = .ok (.years (a + b)) := sum_years c hr
  rw [r, e, h₁, OutE.ok_bind, hs, OutE.ok_bind]
  have hv₁ := C15_computed c _ m₁ (fun _ => by intro h; cases h) h₁ |>.1
  have f := C23_subtracting_years_partial c m hm a hra.1 hra.2
  rw [h₁] at f
  split at f
  · have := ok_moment_inj f
    subst this
    have ey : m.year - a - b = m.year - (a + b) := by omega
    have g := C23_subtracting_years_partial c _ hv₁ b (by simp only; omega) (by simp only; omega)
    simp only [ey] at g
    rw [C23_subtracting_years_partial c m hm (a + b) hr'.1 hr'.2, g]
  · cases f

example := C120_years_partial (std .debug) (at_ 2016 2 29 12 0 0) (at_ 2012 2 29 12 0 0) (by decide) 4 2 (by decide) (by decide) (by decide) (by decide +kernel)

/-- **C120 refuted.** 50 seconds twice, and 100 seconds at once; 11 months twice, and 22 months at once; 34 hours before 10:00 on 1 May in
two steps and at once. -/
theorem C120_refuted :
    (calculate (std .debug) (.moment (at_ 2017 1 1 12 0 30) - .seconds 50 - .seconds 50) = .ok (.moment (at_ 2017 1 1 11 58 50)) ∧
     calculate (std .debug) (.moment (at_ 2017 1 1 12 0 30) - (.seconds 50 + .seconds 50)) = .err (.outOfBounds 2017 1 11 11 58 4294967286)) ∧
    (calculate (std .debug) (.moment (at_ 2017 5 1 0 0 0) - .months 11 - .months 11) = .ok (.moment (at_ 2015 7 1 0 0 0)) ∧
     calculate (std .debug) (.moment (at_ 2017 5 1 0 0 0) - (.months 11 + .months 11)) = .err (.outOfBounds 2015 4294967291 0 0 0 0)) ∧
    (calculate (std .debug) (.moment (at_ 2017 5 1 10 0 0) - .hours 20 - .hours 14) = .err (.outOfBounds 2017 4 14 14 0 0) ∧
     calculate (std .debug) (.moment (at_ 2017 5 1 10 0 0) - (.hours 20 + .hours 14)) = .ok (.moment (at_ 2017 4 30 0 0 0))) := by decide +kernel

/-- 1 hour and 40 minutes before 00:50 on 1 January: at once (100 minutes) and in two steps, across midnight, the month and the year. -/
example : (at_ 2017 1 1 0 50 0).Valid (std .debug) ∧ (at_ 2016 12 31 23 50 0).Valid (std .debug) ∧ (at_ 2016 12 31 23 10 0).Valid (std .debug) ∧
    (at_ 2016 12 31 23 50 0).instant = (at_ 2017 1 1 0 50 0).instant - 1 * TUnit.secs .hour ∧
    (at_ 2016 12 31 23 10 0).instant = (at_ 2017 1 1 0 50 0).instant - (1 * TUnit.secs .hour + 40 * TUnit.secs .minute) ∧
    1 * TUnit.secs .hour + 40 * TUnit.secs .minute ≠ ((at_ 2017 1 1 0 50 0).hour + 24) * 3600 ∧
    calculate (std .debug) (.moment (at_ 2017 1 1 0 50 0) - (amt .hour 1 + amt .minute 40)) = .ok (.moment (at_ 2016 12 31 23 10 0)) ∧
    calculate (std .debug) (.moment (at_ 2017 1 1 0 50 0) - amt .hour 1 - amt .minute 40) = .ok (.moment (at_ 2016 12 31 23 10 0)) := by decide +kernel

example : calculate (std .debug) (.moment (at_ 2017 5 31 0 0 0) - .months 2) = .ok (.moment (at_ 2017 3 31 0 0 0)) ∧
    calculate (std .debug) (.moment (at_ 2017 5 31 0 0 0) - (.months 2 + .months 2)) = .ok (.moment (at_ 2017 1 31 0 0 0)) ∧
    calculate (std .debug) (.moment (at_ 2016 2 29 0 0 0) - .years 4) = .ok (.moment (at_ 2012 2 29 0 0 0)) ∧
    calculate (std .debug) (.moment (at_ 2016 2 29 0 0 0) - .years 4 - .years 1) = .err (.outOfBounds 2011 2 0 0 0 0) := by decide +kernel

end Props
