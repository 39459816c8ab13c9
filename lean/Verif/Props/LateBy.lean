import Verif.Props.KeepOrder
import Verif.Props.Drift
import Verif.Spec.LateBy

/-!
# By how much sums are off, and what follows for the order of moments and of amounts (C107, C82, C121)
-/

namespace Props
open Kairos Spec

/-- **C107, exactly.** Adding `n ≥ 0` seconds, minutes, hours or days leads too far by exactly `lateBy` days. For amounts up to 4.29 billion years. -/
theorem C107_exactly (c : Cfg) (hc : Sane c) (m r : Moment) (hm : m.Valid c)
    (u : TUnit) (hu : u = .second ∨ u = .minute ∨ u = .hour ∨ u = .day) (n : Int) (hn : 0 ≤ n)
    (hmax : n * u.secs ≤ 133500000000000000)
    (h : calculate c (.moment m + amt u n) = .ok (.moment r)) :
    r.instant = m.instant + n * u.secs + lateBy m r * 86400 := by
  have hu' : u.secs ≤ 86400 := by rcases hu with rfl | rfl | rfl | rfl <;> decide
  unfold lateBy
  by_cases hy : r.year = m.year
  · rw [if_pos hy]
    obtain ⟨-, off, h1, h2, -⟩ := C107_off_by c hc m r hm u hu n hn hmax h
    rw [h2 hy] at h1
    omega
  · rw [if_neg hy]
    obtain ⟨J, a1, a2, a3, a4⟩ := sum_beyond hc hm hu' hn hmax h hy
    rw [Cal.dayNumber_newYear]
    unfold Cal.monthIndex at a3 ⊢
    unfold inMonth at a4
    have hr : r.instant = Cal.dayNumber r.year r.month 1 * 86400 + (r.day - 1) * 86400 + r.hour * 3600 + r.minute * 60 + r.second := by
      unfold Moment.instant Cal.instant Cal.dayNumber; omega
    omega

/-- 400 days after New Year's Eve: the code says 10 February, six days too late. -/
example : lateBy (at_ 2016 12 31 0 0 0) (at_ 2018 2 10 0 0 0) = 6 := by decide

example : (at_ 2018 2 10 0 0 0).instant = (at_ 2016 12 31 0 0 0).instant + 400 * TUnit.secs .day + 6 * 86400 :=
  C107_exactly (std .debug) (sane_std _) (at_ 2016 12 31 0 0 0) (at_ 2018 2 10 0 0 0) (by decide) .day (by decide) 400 (by decide) (by decide) (by decide +kernel)

/-- **C82, seconds to days, exactly when (partial).** The same amount added to two moments keeps their order if and only if the first sum is off by less
than the second together with the distance of the two moments. For amounts up to 4.29 billion years where both sums have results. -/
theorem C82_late_iff_partial (c : Cfg) (hc : Sane c) (m₁ m₂ r₁ r₂ : Moment) (h1 : m₁.Valid c) (h2 : m₂.Valid c)
    (u : TUnit) (hu : u = .second ∨ u = .minute ∨ u = .hour ∨ u = .day) (n : Int) (hn : 0 ≤ n)
    (hmax : n * u.secs ≤ 133500000000000000)
    (e₁ : calculate c (.moment m₁ + amt u n) = .ok (.moment r₁)) (e₂ : calculate c (.moment m₂ + amt u n) = .ok (.moment r₂)) :
    r₁.instant < r₂.instant ↔ lateBy m₁ r₁ * 86400 < m₂.instant - m₁.instant + lateBy m₂ r₂ * 86400 := by
  have x := C107_exactly c hc m₁ r₁ h1 u hu n hn hmax e₁
  have y := C107_exactly c hc m₂ r₂ h2 u hu n hn hmax e₂
  omega

/-- 400 days after New Year's Eve 2016 and after New Year's Day 2017. -/
example : ¬ (at_ 2018 2 10 0 0 0).instant < (at_ 2018 2 6 0 0 0).instant := fun h =>
  absurd ((C82_late_iff_partial (std .debug) (sane_std _) (at_ 2016 12 31 0 0 0) (at_ 2017 1 1 0 0 0) _ _ (by decide) (by decide) .day (by decide) 400
    (by decide) (by decide) (by decide +kernel) (by decide +kernel)).mp h) (by decide +kernel)

/-- Two whole-second moments at the same instant are the same. -/
private theorem same_of_instant {c : Cfg} {r r' : Moment} (hr : r.Valid c) (hr' : r'.Valid c) (hz : r.nano = 0) (hz' : r'.nano = 0)
    (h : r.instant = r'.instant) : r = r' := by
  obtain ⟨e1, e2, e3, e4, e5, e6⟩ := Cal.instant_inj hr.2.2.1 hr'.2.2.1 hr.2.2.2.1 hr'.2.2.2.1 h
  cases r; cases r'; simp only at *; simp [*]

/-- Two steps. -/
private theorem two_sums {c : Cfg} (hc : Sane c) {m m₁ r : Moment} (hm : m.Valid c) {u v : TUnit}
    (hu : u = .second ∨ u = .minute ∨ u = .hour ∨ u = .day) (hv : v = .second ∨ v = .minute ∨ v = .hour ∨ v = .day)
    {n k : Int} (hn : 0 ≤ n) (hk : 0 ≤ k) (hmax : n * u.secs + k * v.secs ≤ 133500000000000000)
    (h₁ : calculate c (.moment m + amt u n) = .ok (.moment m₁)) (hr : calculate c (.moment m + amt u n + amt v k) = .ok (.moment r)) :
    r.instant = m.instant + n * u.secs + k * v.secs + (lateBy m m₁ + lateBy m₁ r) * 86400 ∧ r.Valid c ∧ r.nano = 0 := by
  have pu : 0 < u.secs := by cases u <;> decide
  have pv : 0 < v.secs := by cases v <;> decide
  have nu : 0 ≤ n * u.secs := Int.mul_nonneg hn (by omega)
  have kv : 0 ≤ k * v.secs := Int.mul_nonneg hk (by omega)
  rw [(C07_chain_partial c (.moment m) (amt u n) v k).1, h₁, OutE.ok_bind] at hr
  have hu' : u.secs ≤ 86400 := by rcases hu with rfl | rfl | rfl | rfl <;> decide
  have hv' : v.secs ≤ 86400 := by rcases hv with rfl | rfl | rfl | rfl <;> decide
  obtain ⟨-, -, -, -, -, z₁, v₁⟩ := sum_closed c hc hm u hu' n hn (by omega) h₁
  obtain ⟨-, -, -, -, -, z, hv⟩ := sum_closed c hc v₁ v hv' k hk (by omega) hr
  have x := C107_exactly c hc m m₁ hm u hu n hn (by omega) h₁
  have y := C107_exactly c hc m₁ r v₁ v (by assumption) k hk (by omega) hr
  exact ⟨by omega, hv, z⟩

/-- **C121, seconds to days, exactly when (partial).** `m + a + b` and `m + b + a` are the same moment if and only if the two steps of the one are together
off by as much as those of the other. For amounts up to 4.29 billion years where all four sums have results. -/
theorem C121_late_iff_partial (c : Cfg) (hc : Sane c) (m m₁ m₂ r r' : Moment) (hm : m.Valid c) (u v : TUnit)
    (hu : u = .second ∨ u = .minute ∨ u = .hour ∨ u = .day) (hv : v = .second ∨ v = .minute ∨ v = .hour ∨ v = .day)
    (n k : Int) (hn : 0 ≤ n) (hk : 0 ≤ k) (hmax : n * u.secs + k * v.secs ≤ 133500000000000000)
    (h₁ : calculate c (.moment m + amt u n) = .ok (.moment m₁)) (h₂ : calculate c (.moment m + amt v k) = .ok (.moment m₂))
    (hr : calculate c (.moment m + amt u n + amt v k) = .ok (.moment r)) (hr' : calculate c (.moment m + amt v k + amt u n) = .ok (.moment r')) :
    r = r' ↔ lateBy m m₁ + lateBy m₁ r = lateBy m m₂ + lateBy m₂ r' := by
  obtain ⟨i, hv₁, z⟩ := two_sums hc hm hu hv hn hk hmax h₁ hr
  obtain ⟨i', hv₂, z'⟩ := two_sums hc hm hv hu hk hn (by omega) h₂ hr'
  constructor
  · intro h
    rw [← h] at i' ⊢
    omega
  · intro h
    exact same_of_instant hv₁ hv₂ z z' (by omega)

/-- 35 and 40 days from 20 December, where both alone lead into January; 35 and 43 days, where the second leads into February. -/
example := (C121_late_iff_partial (std .debug) (sane_std _) (at_ 2017 12 20 0 0 0) (at_ 2018 1 24 0 0 0) (at_ 2018 1 29 0 0 0) (at_ 2018 3 5 0 0 0) (at_ 2018 3 5 0 0 0) (by decide)
  .day .day (by decide) (by decide) 35 40 (by decide) (by decide) (by decide) (by decide +kernel) (by decide +kernel) (by decide +kernel) (by decide +kernel)).mpr (by decide)

example : ¬ at_ 2018 3 8 0 0 0 = at_ 2018 3 9 0 0 0 := fun h =>
  absurd ((C121_late_iff_partial (std .debug) (sane_std _) (at_ 2017 12 20 0 0 0) (at_ 2018 1 24 0 0 0) (at_ 2018 2 2 0 0 0) (at_ 2018 3 8 0 0 0) (at_ 2018 3 9 0 0 0) (by decide)
    .day .day (by decide) (by decide) 35 43 (by decide) (by decide) (by decide) (by decide +kernel) (by decide +kernel) (by decide +kernel) (by decide +kernel)).mp h) (by decide)

end Props
