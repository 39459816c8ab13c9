import Verif.Props.Grouping

/-!
# C25: exactly when adding in one step or in two is the same
-/

namespace Props
open Kairos Spec

/-- Two steps on the code's calendar and one. -/
private theorem two_steps {y N₁ N₂ N₃ y₁ M₁ D₁ y₂ M₂ D₂ y₃ M₃ D₃ : Int} (c₁ : CodeDate y N₁ y₁ M₁ D₁) (c₂ : CodeDate y N₂ y₂ M₂ D₂)
    (c₃ : CodeDate y₁ N₃ y₃ M₃ D₃) (v₁ : Cal.ValidDate y₁ M₁ D₁) (v₂ : Cal.ValidDate y₂ M₂ D₂)
    (h3 : N₃ = Cal.dayOfYear y₁ M₁ D₁ + (N₂ - N₁)) (hle : N₁ ≤ N₂) :
    (y₃ = y₂ ∧ M₃ = M₂ ∧ D₃ = D₂) ↔
      y₁ = y ∨ (y₂ = y₁ ∧ Cal.daysBeforeMonth y₁ M₂ - Cal.daysBeforeMonth y₁ M₁ = 30 * (M₂ - M₁)) := by
  have hyl := Cal.yearLen_bounds y
  have hyl₁ := Cal.yearLen_bounds y₁
  obtain ⟨g1, g2, g3, g4⟩ := v₁
  obtain ⟨k1, k2, k3, k4⟩ := id v₂
  by_cases hy : N₁ ≤ Cal.yearLen y
  · -- the first step stays in the year
    obtain ⟨rfl, w, e⟩ := c₁.1 hy
    rw [e] at h3
    have : N₃ = N₂ := by omega
    subst this
    exact ⟨fun _ => .inl rfl, fun _ => codeDate_unique c₃ c₂⟩
  · obtain ⟨e1, e2, e3⟩ := c₁.2 (by omega)
    obtain ⟨f1, f2, f3⟩ := c₂.2 (by omega)
    have hne : y₁ ≠ y := by omega
    have hdoy : Cal.dayOfYear y₁ M₁ D₁ = Cal.daysBeforeMonth y₁ M₁ + D₁ := rfl
    by_cases hs : N₃ ≤ Cal.yearLen y₁
    · obtain ⟨rfl, w, e⟩ := c₃.1 hs
      constructor
      · rintro ⟨rfl, rfl, rfl⟩
        right
        refine ⟨rfl, ?_⟩
        have hdoy' : Cal.dayOfYear y₃ M₃ D₃ = Cal.daysBeforeMonth y₃ M₃ + D₃ := rfl
        omega
      · rintro (h | ⟨rfl, h⟩)
        · exact absurd h hne
        · have := Cal.dayNumber_inj w v₂ (by
            rw [Cal.dayNumber_eq, Cal.dayNumber_eq, e]
            have hdoy' : Cal.dayOfYear y₂ M₂ D₂ = Cal.daysBeforeMonth y₂ M₂ + D₂ := rfl
            omega)
          exact this
    · obtain ⟨l1, l2, l3⟩ := c₃.2 (by omega)
      constructor
      · rintro ⟨rfl, rfl, rfl⟩
        exfalso
        have hcum : Cal.daysBeforeMonth y₁ M₁ - 30 * (M₁ - 1) < Cal.yearLen y₁ - 360 := by
          unfold Cal.yearLen
          rcases Cal.month_cases g1 g2 with h | h | h | h | h | h | h | h | h | h | h | h <;> rw [h] <;>
            cases hl : Cal.isLeap y₁ <;> simp [Cal.daysBeforeMonth, hl]
        omega
      · rintro (h | ⟨rfl, h⟩)
        · exact absurd h hne
        · exfalso
          have hcum : Cal.daysBeforeMonth y₂ M₂ + D₂ ≤ Cal.yearLen y₂ := (Cal.dayOfYear_bounds v₂).2
          omega

/-- What a sum gives, on the code's calendar. -/
theorem sum_closed (c : Cfg) (hc : Sane c) {m r : Moment} (hm : m.Valid c) (u : TUnit) (hu : u.secs ≤ 86400) (n : Int) (hn : 0 ≤ n)
    (hmax : n * u.secs ≤ 133500000000000000) (h : calculate c (.moment m + amt u n) = .ok (.moment r)) :
    CodeDate m.year ((m.instant + n * u.secs) / 86400 - Cal.daysBeforeYear m.year) r.year r.month r.day ∧ Cal.ValidDate r.year r.month r.day ∧
      r.hour = todH (m.instant + n * u.secs) ∧ r.minute = todM (m.instant + n * u.secs) ∧ r.second = todS (m.instant + n * u.secs) ∧ r.nano = 0 ∧ r.Valid c := by
  have pu : 1 ≤ u.secs := by cases u <;> decide
  have nn : n ≤ n * u.secs := by have := Int.mul_le_mul_of_nonneg_left pu hn; omega
  obtain ⟨y', mo', d', e, cd⟩ := add_closed c hc hm u hu n hn (by omega)
  have hc' := hc
  unfold Sane at hc'
  obtain ⟨h1, h2, hd, ⟨t1, t2, t3, t4, t5, t6⟩, hna⟩ := hm
  have hdn := Cal.dayNumber_eq m.year m.month m.day
  have hdb := Cal.dayOfYear_bounds hd
  have hyl := Cal.yearLen_bounds m.year
  have far := codeDate_far cd (by omega) (by omega) (by unfold Moment.instant Cal.instant; omega)
  rw [build_far c hc far.1 far.2.1 (by simp only; omega) (by simp only; omega) (by
    unfold Cal.ValidTime todH todM todS; simp only; omega)] at e
  rw [e] at h
  split at h
  · rename_i hin
    cases h
    refine ⟨cd, hin.2.2, rfl, rfl, rfl, rfl, hin.1, hin.2.1, hin.2.2, ?_, by simp⟩
    unfold Cal.ValidTime todH todM todS; simp only; omega
  · cases h

/-- **C25, seconds to days, exactly when (partial).** Adding `a` and then `b`, and adding both at once, give the same moment if and only if `a` does not lead out of
the year of the start, or both results are in the year of the first step and the months from there to the result have 30 days on average (as after the
turn of a year the code counts months of 30 days). For amounts up to 4.29 billion years where all three have results. -/
theorem C25_iff_partial (c : Cfg) (hc : Sane c) (m m₁ r r' : Moment) (hm : m.Valid c) (u v : TUnit)
    (hu : u = .second ∨ u = .minute ∨ u = .hour ∨ u = .day) (hv : v = .second ∨ v = .minute ∨ v = .hour ∨ v = .day)
    (n k : Int) (hn : 0 ≤ n) (hk : 0 ≤ k) (hmax : n * u.secs + k * v.secs ≤ 133500000000000000)
    (h₁ : calculate c (.moment m + amt u n) = .ok (.moment m₁)) (h₂ : calculate c (.moment m + amt u n + amt v k) = .ok (.moment r))
    (h₃ : calculate c (.moment m + (amt u n + amt v k)) = .ok (.moment r')) :
    r = r' ↔ m₁.year = m.year ∨
      (r'.year = m₁.year ∧ Cal.dayNumber m₁.year r'.month 1 - Cal.dayNumber m₁.year m₁.month 1 = 30 * (r'.month - m₁.month)) := by
  have pu : 1 ≤ u.secs := by cases u <;> decide
  have pv : 1 ≤ v.secs := by cases v <;> decide
  have nu : 0 ≤ n * u.secs := Int.mul_nonneg hn (by omega)
  have kv : 0 ≤ k * v.secs := Int.mul_nonneg hk (by omega)
  have hu' : u.secs ≤ 86400 := by rcases hu with rfl | rfl | rfl | rfl <;> decide
  have hv' : v.secs ≤ 86400 := by rcases hv with rfl | rfl | rfl | rfl <;> decide
  rw [(C07_chain_partial c (.moment m) (amt u n) v k).1, h₁, OutE.ok_bind] at h₂
  have e := (C08_amounts_combined_first c m (.plus (.amt u n) (.amt v k))).1
  simp only [AmtTree.toTT] at e
  obtain ⟨w, hw, hs, -⟩ := C05_amounts_succeed c (.plus (.amt u n) (.amt v k)) (by
    simp only [AmtTree.mag]; rw [if_neg (by omega), if_neg (by omega)]; omega)
  simp only [AmtTree.toTT, AmtTree.secs] at hw hs
  rw [e, hw, OutE.ok_bind] at h₃
  have hf : (AmtTree.finest (.plus (.amt u n) (.amt v k))).secs ≤ 86400 := by
    by_cases hle : u.secs ≤ v.secs
    · have : ((AmtTree.amt u n).plus (AmtTree.amt v k)).finest = u := if_pos hle
      rw [this]; exact hu'
    · have : ((AmtTree.amt u n).plus (AmtTree.amt v k)).finest = v := if_neg hle
      rw [this]; exact hv'
  generalize AmtTree.finest (.plus (.amt u n) (.amt v k)) = f at *
  have pf : 1 ≤ f.secs := by cases f <;> decide
  have hw0 : 0 ≤ w := by
    refine Int.not_lt.1 fun hneg => ?_
    have := Int.mul_neg_of_neg_of_pos hneg (b := f.secs) (by omega)
    omega
  obtain ⟨c₁, v₁, a1, a2, a3, a4, hm₁⟩ := sum_closed c hc hm u hu' n hn (by omega) h₁
  obtain ⟨c₃, v₃, b1, b2, b3, b4, hr⟩ := sum_closed c hc hm₁ v hv' k hk (by omega) h₂
  obtain ⟨c₂, v₂, d1, d2, d3, d4, hr'⟩ := sum_closed c hc hm f hf w hw0 (by omega) h₃
  rw [hs] at c₂ d1 d2 d3
  have hi₁ : m₁.instant = Cal.dayNumber m₁.year m₁.month m₁.day * 86400 + (m.instant + n * u.secs) % 86400 := by
    unfold Moment.instant Cal.instant
    rw [a1, a2, a3]
    unfold todH todM todS
    simp only [Moment.instant, Cal.instant]
    omega
  have hdn := Cal.dayNumber_eq m₁.year m₁.month m₁.day
  have key := two_steps c₁ c₂ c₃ v₁ v₂ (by omega) (by omega)
  have hdist : Cal.dayNumber m₁.year r'.month 1 - Cal.dayNumber m₁.year m₁.month 1 =
      Cal.daysBeforeMonth m₁.year r'.month - Cal.daysBeforeMonth m₁.year m₁.month := by unfold Cal.dayNumber; omega
  rw [hdist, ← key]
  constructor
  · rintro rfl; exact ⟨rfl, rfl, rfl⟩
  · rintro ⟨q1, q2, q3⟩
    have t1 : r.hour = r'.hour := by rw [b1, d1]; unfold todH; omega
    have t2 : r.minute = r'.minute := by rw [b2, d2]; unfold todM; omega
    have t3 : r.second = r'.second := by rw [b3, d3]; unfold todS; omega
    have t4 : r.nano = r'.nano := by rw [b4, d4]
    cases r; cases r'
    simp only at q1 q2 q3 t1 t2 t3 t4
    rw [q1, q2, q3, t1, t2, t3, t4]

/-- From 20 December 2016: 20 days and then 10 are 30 (all in January); 20 and then 95 are 115 too, for the months from January to April 2017 have 90 days;
but 20 and then 25 are not 45. -/
example : calculate (std .debug) (.moment (at_ 2016 12 20 0 0 0) + amt .day 20) = .ok (.moment (at_ 2017 1 9 0 0 0)) ∧
    (calculate (std .debug) (.moment (at_ 2016 12 20 0 0 0) + amt .day 20 + amt .hour 240) = .ok (.moment (at_ 2017 1 19 0 0 0)) ∧
     calculate (std .debug) (.moment (at_ 2016 12 20 0 0 0) + (amt .day 20 + amt .hour 240)) = .ok (.moment (at_ 2017 1 19 0 0 0))) ∧
    (calculate (std .debug) (.moment (at_ 2016 12 20 0 0 0) + amt .day 20 + amt .day 95) = .ok (.moment (at_ 2017 4 14 0 0 0)) ∧
     calculate (std .debug) (.moment (at_ 2016 12 20 0 0 0) + (amt .day 20 + amt .day 95)) = .ok (.moment (at_ 2017 4 14 0 0 0)) ∧
     Cal.dayNumber 2017 4 1 - Cal.dayNumber 2017 1 1 = 30 * (4 - 1)) ∧
    (calculate (std .debug) (.moment (at_ 2016 12 20 0 0 0) + amt .day 20 + amt .day 25) = .ok (.moment (at_ 2017 2 3 0 0 0)) ∧
     calculate (std .debug) (.moment (at_ 2016 12 20 0 0 0) + (amt .day 20 + amt .day 25)) = .ok (.moment (at_ 2017 2 4 0 0 0))) := by
  decide +kernel

/-- **C121, seconds to days, exactly when (partial).** If `m + a` is still in the year of `m`: `m + a + b` and `m + b + a` are the same moment if and only if `m + b`
is in that year too, or the results are in the year of `m + b` and the months from there to the result have 30 days on average. For amounts up to 4.29 billion
years where all four have results. Both `m + a` and `m + b` after the year of `m`: `C121_late_iff_partial`. -/
theorem C121_iff_partial (c : Cfg) (hc : Sane c) (m m₁ m₂ r r' : Moment) (hm : m.Valid c) (u v : TUnit)
    (hu : u = .second ∨ u = .minute ∨ u = .hour ∨ u = .day) (hv : v = .second ∨ v = .minute ∨ v = .hour ∨ v = .day)
    (n k : Int) (hn : 0 ≤ n) (hk : 0 ≤ k) (hmax : n * u.secs + k * v.secs ≤ 133500000000000000)
    (h₁ : calculate c (.moment m + amt u n) = .ok (.moment m₁)) (hy : m₁.year = m.year) (h₂ : calculate c (.moment m + amt v k) = .ok (.moment m₂))
    (hr : calculate c (.moment m + amt u n + amt v k) = .ok (.moment r)) (hr' : calculate c (.moment m + amt v k + amt u n) = .ok (.moment r')) :
    r = r' ↔ m₂.year = m.year ∨
      (r.year = m₂.year ∧ Cal.dayNumber m₂.year r.month 1 - Cal.dayNumber m₂.year m₂.month 1 = 30 * (r.month - m₂.month)) := by
  have pu : 1 ≤ u.secs := by cases u <;> decide
  have pv : 1 ≤ v.secs := by cases v <;> decide
  have nu : 0 ≤ n * u.secs := Int.mul_nonneg hn (by omega)
  have kv : 0 ≤ k * v.secs := Int.mul_nonneg hk (by omega)
  have hu' : u.secs ≤ 86400 := by rcases hu with rfl | rfl | rfl | rfl <;> decide
  have hv' : v.secs ≤ 86400 := by rcases hv with rfl | rfl | rfl | rfl <;> decide
  rw [(C07_chain_partial c (.moment m) (amt u n) v k).1, h₁, OutE.ok_bind] at hr
  rw [(C07_chain_partial c (.moment m) (amt v k) u n).1, h₂, OutE.ok_bind] at hr'
  obtain ⟨c₁, v₁, a1, a2, a3, a4, hm₁⟩ := sum_closed c hc hm u hu' n hn (by omega) h₁
  obtain ⟨c₃, v₃, b1, b2, b3, b4, -⟩ := sum_closed c hc hm₁ v hv' k hk (by omega) hr
  obtain ⟨c₂, v₂, d1, d2, d3, d4, hm₂⟩ := sum_closed c hc hm v hv' k hk (by omega) h₂
  obtain ⟨c₄, v₄, f1, f2, f3, f4, -⟩ := sum_closed c hc hm₂ u hu' n hn (by omega) hr'
  have hi₁ : m₁.instant = Cal.dayNumber m₁.year m₁.month m₁.day * 86400 + (m.instant + n * u.secs) % 86400 := by
    unfold Moment.instant Cal.instant
    rw [a1, a2, a3]
    unfold todH todM todS
    simp only [Moment.instant, Cal.instant]
    omega
  have hi₂ : m₂.instant = Cal.dayNumber m₂.year m₂.month m₂.day * 86400 + (m.instant + k * v.secs) % 86400 := by
    unfold Moment.instant Cal.instant
    rw [d1, d2, d3]
    unfold todH todM todS
    simp only [Moment.instant, Cal.instant]
    omega
  have hdn₁ := Cal.dayNumber_eq m₁.year m₁.month m₁.day
  have hdn₂ := Cal.dayNumber_eq m₂.year m₂.month m₂.day
  -- the first amount leads to the exact date
  have hdoy : Cal.dayOfYear m₁.year m₁.month m₁.day = (m.instant + n * u.secs) / 86400 - Cal.daysBeforeYear m.year := by
    by_cases hle : (m.instant + n * u.secs) / 86400 - Cal.daysBeforeYear m.year ≤ Cal.yearLen m.year
    · have := c₁.1 hle
      rw [hy]; exact this.2.2
    · have := (c₁.2 (by omega)).1
      omega
  have hi : m₁.instant = m.instant + n * u.secs := by rw [hy] at hdn₁; rw [hy] at hdoy hi₁; omega
  rw [hy, hi] at c₃
  have key := two_steps c₂ c₃ c₄ v₂ v₃ (by omega) (by omega)
  have hdist : Cal.dayNumber m₂.year r.month 1 - Cal.dayNumber m₂.year m₂.month 1 =
      Cal.daysBeforeMonth m₂.year r.month - Cal.daysBeforeMonth m₂.year m₂.month := by unfold Cal.dayNumber; omega
  rw [hdist, ← key]
  constructor
  · rintro rfl; exact ⟨rfl, rfl, rfl⟩
  · rintro ⟨q1, q2, q3⟩
    have t1 : r'.hour = r.hour := by rw [b1, f1]; unfold todH; omega
    have t2 : r'.minute = r.minute := by rw [b2, f2]; unfold todM; omega
    have t3 : r'.second = r.second := by rw [b3, f3]; unfold todS; omega
    have t4 : r'.nano = r.nano := by rw [b4, f4]
    cases r; cases r'
    simp only at q1 q2 q3 t1 t2 t3 t4
    rw [q1, q2, q3, t1, t2, t3, t4]

/-- From 20 December 2016: 5 days and 115 days (January to April 2017, 90 days) in either order are the same; 5 days and 38 days are not. -/
example : calculate (std .debug) (.moment (at_ 2016 12 20 0 0 0) + amt .day 5) = .ok (.moment (at_ 2016 12 25 0 0 0)) ∧
    (calculate (std .debug) (.moment (at_ 2016 12 20 0 0 0) + amt .hour 2760) = .ok (.moment (at_ 2017 4 14 0 0 0)) ∧
     calculate (std .debug) (.moment (at_ 2016 12 20 0 0 0) + amt .day 5 + amt .hour 2760) = .ok (.moment (at_ 2017 4 19 0 0 0)) ∧
     calculate (std .debug) (.moment (at_ 2016 12 20 0 0 0) + amt .hour 2760 + amt .day 5) = .ok (.moment (at_ 2017 4 19 0 0 0))) ∧
    (calculate (std .debug) (.moment (at_ 2016 12 20 0 0 0) + amt .day 38) = .ok (.moment (at_ 2017 1 27 0 0 0)) ∧
     calculate (std .debug) (.moment (at_ 2016 12 20 0 0 0) + amt .day 5 + amt .day 38) = .ok (.moment (at_ 2017 2 2 0 0 0)) ∧
     calculate (std .debug) (.moment (at_ 2016 12 20 0 0 0) + amt .day 38 + amt .day 5) = .ok (.moment (at_ 2017 2 1 0 0 0))) := by
  decide +kernel

end Props
