import Verif.Lemmas.EndOf
import Verif.Spec.Chain

/-!
# C10–C14: the `end_of_*` markers
-/

namespace Props
open Kairos Spec

theorem calc_year (c : Cfg) (x : TT) : calculate c (.endOfYear x) = (do let v ← calculate c x; endVal c .year v) :=
  calculate_endOf c .year x
theorem calc_month (c : Cfg) (x : TT) : calculate c (.endOfMonth x) = (do let v ← calculate c x; endVal c .month v) :=
  calculate_endOf c .month x
theorem calc_day (c : Cfg) (x : TT) : calculate c (.endOfDay x) = (do let v ← calculate c x; endVal c .day v) :=
  calculate_endOf c .day x
theorem calc_hour (c : Cfg) (x : TT) : calculate c (.endOfHour x) = (do let v ← calculate c x; endVal c .hour v) :=
  calculate_endOf c .hour x
theorem calc_minute (c : Cfg) (x : TT) : calculate c (.endOfMinute x) = (do let v ← calculate c x; endVal c .minute v) :=
  calculate_endOf c .minute x

/-- An expression with the value of the valid moment `m`. -/
structure EvalsTo (c : Cfg) (x : TT) (m : Moment) : Prop where
  sane : Sane c
  eval : calculate c x = .ok (.moment m)
  valid : m.Valid c

theorem EvalsTo.endOf {c : Cfg} {x : TT} {m : Moment} (h : EvalsTo c x m) (k : EndKind) :
    ∃ r : Moment, (do let v ← calculate c x; endVal c k v) = .ok (.moment r) ∧ r.Valid c ∧
      r.year = m.year ∧ (r.month = if k = .year then 12 else m.month) ∧ r.nano = 0 ∧
      (r.day = if k = .year then 31 else if k = .month then Cal.monthLen m.year m.month else m.day) ∧
      (r.hour = if k = .year ∨ k = .month then 0 else if k = .day then 23 else m.hour) ∧
      (r.minute = if k = .year ∨ k = .month then 0 else if k = .day ∨ k = .hour then 59 else m.minute) ∧
      (r.second = if k = .year ∨ k = .month then 0 else 59) := by
  obtain ⟨hs, he, hv⟩ := h
  unfold Sane at hs
  obtain ⟨w, hw⟩ := endVal_valid c (by omega) (by omega) k hv
  obtain ⟨r, rfl, g1, -, g2⟩ := endVal_ok c hw
  have e : getNumOfDaysInMonth m.year m.month = Cal.monthLen m.year m.month :=
    numDays_eq (by have := hv.1; omega) (by have := hv.2.1; omega) hv.2.2.1.1 hv.2.2.1.2.1
  have b := Cal.monthLen_bounds (y := m.year) hv.2.2.1.1 hv.2.2.1.2.1
  rw [e, asU32_id (by omega) (by omega)] at g2
  exact ⟨r, by rw [he]; exact hw, g1, g2⟩

theorem Moment.ext' {r : Moment} {y mo d h mi s n : Int} (h1 : r.year = y) (h2 : r.month = mo)
    (h3 : r.day = d) (h4 : r.hour = h) (h5 : r.minute = mi) (h6 : r.second = s) (h7 : r.nano = n) :
    r = ⟨y, mo, d, h, mi, s, n⟩ := by
  cases r; simp_all

/-- **C10.** -/
theorem C10_end_of_year (c : Cfg) (x : TT) (m : Moment) (h : EvalsTo c x m) :
    calculate c (.endOfYear x) = .ok (.moment (at_ m.year 12 31 0 0 0)) := by
  rw [calc_year]
  obtain ⟨r, hr, -, h1, h2, h3, h4, h5, h6, h7⟩ := h.endOf .year
  rw [hr, Moment.ext' h1 h2 h4 h5 h6 h7 h3]; rfl

example : calculate (std .debug) (.endOfYear (.moment (at_ 2017 6 15 7 8 9) + .months 8)) = .ok (.moment (at_ 2018 12 31 0 0 0)) :=
  C10_end_of_year _ _ (at_ 2018 2 15 7 8 9) ⟨by decide, by decide +kernel, by decide⟩

/-- **C11.** -/
theorem C11_end_of_month (c : Cfg) (x : TT) (m : Moment) (h : EvalsTo c x m) :
    ∃ last, calculate c (.endOfMonth x) = .ok (.moment (at_ m.year m.month last 0 0 0)) ∧
      Cal.ValidDate m.year m.month last ∧ ∀ d, Cal.ValidDate m.year m.month d → d ≤ last := by
  rw [calc_month]
  obtain ⟨r, hr, hv, h1, h2, h3, h4, h5, h6, h7⟩ := h.endOf .month
  refine ⟨Cal.monthLen m.year m.month, ?_, ?_, fun d hd => hd.2.2.2⟩
  · rw [hr, Moment.ext' h1 h2 h4 h5 h6 h7 h3]; simp [at_]
  · have := hv.2.2.1; rw [h1, h2, h4] at this; simpa using this

example := C11_end_of_month (std .debug) (.moment (at_ 2016 1 29 7 8 9) + .months 1) (at_ 2016 2 29 7 8 9) ⟨by decide, by decide +kernel, by decide⟩

/-- **C12.** The exact values … -/
theorem C12_end_of_day_hour_minute (c : Cfg) (x : TT) (m : Moment) (h : EvalsTo c x m) :
    calculate c (.endOfDay x) = .ok (.moment (at_ m.year m.month m.day 23 59 59)) ∧
    calculate c (.endOfHour x) = .ok (.moment (at_ m.year m.month m.day m.hour 59 59)) ∧
    calculate c (.endOfMinute x) = .ok (.moment (at_ m.year m.month m.day m.hour m.minute 59)) := by
  rw [calc_day, calc_hour, calc_minute]
  refine ⟨?_, ?_, ?_⟩
  · obtain ⟨r, hr, -, h1, h2, h3, h4, h5, h6, h7⟩ := h.endOf .day
    rw [hr, Moment.ext' h1 h2 h4 h5 h6 h7 h3]; simp [at_]
  · obtain ⟨r, hr, -, h1, h2, h3, h4, h5, h6, h7⟩ := h.endOf .hour
    rw [hr, Moment.ext' h1 h2 h4 h5 h6 h7 h3]; simp [at_]
  · obtain ⟨r, hr, -, h1, h2, h3, h4, h5, h6, h7⟩ := h.endOf .minute
    rw [hr, Moment.ext' h1 h2 h4 h5 h6 h7 h3]; simp [at_]

example := C12_end_of_day_hour_minute (std .debug) (.moment (at_ 2016 1 29 7 8 9) + .months 1) (at_ 2016 2 29 7 8 9) ⟨by decide, by decide +kernel, by decide⟩

/-- **C12.** … and where they lie on the timeline. -/
theorem C12_bounds (c : Cfg) (x : TT) (m : Moment) (h : EvalsTo c x m) :
    (∃ r, calculate c (.endOfDay x) = .ok (.moment r) ∧
      m.instant ≤ r.instant ∧ r.instant < m.instant + 86400) ∧
    (∃ r, calculate c (.endOfHour x) = .ok (.moment r) ∧
      m.instant ≤ r.instant ∧ r.instant < m.instant + 3600) ∧
    (∃ r, calculate c (.endOfMinute x) = .ok (.moment r) ∧
      m.instant ≤ r.instant ∧ r.instant < m.instant + 60) := by
  obtain ⟨h1, h2, h3⟩ := C12_end_of_day_hour_minute c x m h
  obtain ⟨g1, g2, g3, g4, g5, g6⟩ := h.valid.2.2.2.1
  refine ⟨⟨_, h1, ?_⟩, ⟨_, h2, ?_⟩, ⟨_, h3, ?_⟩⟩ <;>
    simp only [Moment.instant, at_, Cal.instant] <;> omega

/-- The hypotheses of C10–C12 are met by an expression that needs evaluation. -/
example : EvalsTo (std .debug) (.moment (at_ 2016 1 31 7 8 9) + .days 29) (at_ 2016 2 29 7 8 9) :=
  ⟨sane_std _, by decide +kernel, by decide⟩
example : calculate (std .debug) (.endOfMonth (.moment (at_ 2016 1 31 7 8 9) + .days 29)) =
    .ok (.moment (at_ 2016 2 29 0 0 0)) := by decide +kernel

/-- Kleisli composition: if on every successful value of `f` the second function returns it, it can
be left out. -/
theorem absorb {r : Out TT} {f g : TT → Out TT} (h : ∀ v w, r = .ok v → f v = .ok w → g w = .ok w) :
    (do let w ← (do let v ← r; f v); g w) = (do let v ← r; f v) := by
  cases r with
  | ok v =>
    simp only [OutE.ok_bind]
    cases hf : f v with
    | ok w => simpa using h v w rfl hf
    | _ => rfl
  | _ => rfl

theorem endVal_absorb (c : Cfg) (x : TT) (k k' : EndKind)
    (h : ∀ r : Moment, r.Valid c →
      (k = .year → r.month = 12) →
      (k = .year → r.day = 31) →
      (k = .month → r.day = asU32 (getNumOfDaysInMonth r.year r.month)) →
      (k = .day → r.hour = 23) → (k = .day ∨ k = .hour → r.minute = 59) →
      (k = .year ∨ k = .month → r.hour = 0 ∧ r.minute = 0 ∧ r.second = 0) →
      (k = .day ∨ k = .hour ∨ k = .minute → r.second = 59) → r.nano = 0 →
      endVal c k' (.moment r) = .ok (.moment r)) :
    (do let w ← (do let v ← calculate c x; endVal c k v); endVal c k' w) =
      (do let v ← calculate c x; endVal c k v) := by
  refine absorb fun v w hv hw => ?_
  have hl := calculate_isLeaf hv
  by_cases ha : v.isAAmount
  · rw [endVal_amount c k ha] at hw; cases hw
  · cases v <;> simp [TT.isLeaf, TT.isAAmount, TT.isMoment] at hl ha
    obtain ⟨r, rfl, hval, -, h1, h2, h3, h4, h5, h6, h7⟩ := endVal_ok c hw
    refine h r hval ?_ ?_ ?_ ?_ ?_ ?_ ?_ h3 <;> intro hk <;> (try subst hk) <;> (try rcases hk with rfl | rfl | rfl) <;>
      (try rcases hk with rfl | rfl) <;> simp_all

/-- **C13.** Each end-of marker is idempotent, on every expression, failing ones included. -/
theorem C13_idempotent (c : Cfg) (x : TT) :
    calculate c (.endOfYear (.endOfYear x)) = calculate c (.endOfYear x) ∧
    calculate c (.endOfMonth (.endOfMonth x)) = calculate c (.endOfMonth x) ∧
    calculate c (.endOfDay (.endOfDay x)) = calculate c (.endOfDay x) ∧
    calculate c (.endOfHour (.endOfHour x)) = calculate c (.endOfHour x) ∧
    calculate c (.endOfMinute (.endOfMinute x)) = calculate c (.endOfMinute x) := by
  have key : ∀ k : EndKind, (do let w ← (do let v ← calculate c x; endVal c k v); endVal c k w) =
      (do let v ← calculate c x; endVal c k v) := by
    intro k
    refine absorb fun v w hv hw => ?_
    have hl := calculate_isLeaf hv
    by_cases ha : v.isAAmount
    · rw [endVal_amount c k ha] at hw; cases hw
    · cases v <;> simp [TT.isLeaf, TT.isAAmount, TT.isMoment] at hl ha
      obtain ⟨r, rfl, -, h, -⟩ := endVal_ok c hw
      exact h
  simp only [calc_year, calc_month, calc_day, calc_hour, calc_minute]
  exact ⟨key .year, key .month, key .day, key .hour, key .minute⟩

/-- **C13.** The end of a longer period is the end of the shorter ones in it. -/
theorem C13_absorb (c : Cfg) (x : TT) :
    calculate c (.endOfMonth (.endOfYear x)) = calculate c (.endOfYear x) ∧
    calculate c (.endOfHour (.endOfDay x)) = calculate c (.endOfDay x) ∧
    calculate c (.endOfMinute (.endOfDay x)) = calculate c (.endOfDay x) ∧
    calculate c (.endOfMinute (.endOfHour x)) = calculate c (.endOfHour x) := by
  have t0 : Cal.ValidTime 0 0 0 := by decide
  simp only [calc_year, calc_month, calc_day, calc_hour, calc_minute]
  refine ⟨?_, ?_, ?_, ?_⟩
  · refine endVal_absorb c x .year .month fun r hv h1 h2 _ _ _ h3 _ hn => ?_
    obtain ⟨y, mo, d, h, mi, s, n⟩ := r
    obtain ⟨v1, v2, v3, v4, v5⟩ := hv
    simp at h1 h2 h3 hn v1 v2 v3
    obtain ⟨rfl, rfl, rfl⟩ := h3
    subst h1 h2 hn
    have : asU32 (getNumOfDaysInMonth y 12) = 31 := by simp [getNumOfDaysInMonth, asU32]
    rw [endVal_moment]; simp [this, fromYmdOpt_ok c v1 v2 v3, andHms_ok t0]
  all_goals
    first
    | refine endVal_absorb c x .day .hour fun r hv _ _ _ h1 h2 _ h3 hn => ?_
    | refine endVal_absorb c x .day .minute fun r hv _ _ _ h1 h2 _ h3 hn => ?_
    | refine endVal_absorb c x .hour .minute fun r hv _ _ _ h1 h2 _ h3 hn => ?_
    obtain ⟨y, mo, d, h, mi, s, n⟩ := r
    obtain ⟨v1, v2, v3, v4, v5⟩ := hv
    simp at h1 h2 h3 hn v1 v2 v3 v4
    subst h2 h3 hn
    rw [endVal_moment]; simp [fromYmdOpt_ok c v1 v2 v3, Date.andHmsOpt, v4]

/-- Not in C13, and false: end_of_month after end_of_day loses the time of day. -/
example : calculate (std .debug) (.endOfMonth (.endOfDay (.moment (at_ 2017 2 28 3 4 5)))) ≠
    calculate (std .debug) (.endOfDay (.moment (at_ 2017 2 28 3 4 5))) := by decide +kernel

/-- **C14.** Every end-of marker on an expression that evaluates to an amount is an error. -/
theorem C14_not_on_amounts (c : Cfg) (x : TT) (u : TUnit) (n : Int)
    (h : calculate c x = .ok (amt u n)) :
    (∃ e, calculate c (.endOfYear x) = .err e) ∧ (∃ e, calculate c (.endOfMonth x) = .err e) ∧
    (∃ e, calculate c (.endOfDay x) = .err e) ∧ (∃ e, calculate c (.endOfHour x) = .err e) ∧
    (∃ e, calculate c (.endOfMinute x) = .err e) := by
  have ha : (amt u n).isAAmount := by cases u <;> rfl
  simp only [calc_year, calc_month, calc_day, calc_hour, calc_minute, h, OutE.ok_bind,
    endVal_amount c _ ha]
  exact ⟨⟨_, rfl⟩, ⟨_, rfl⟩, ⟨_, rfl⟩, ⟨_, rfl⟩, ⟨_, rfl⟩⟩

example := C14_not_on_amounts (std .debug) (.days 2 - .hours 3) .hour 45 (by decide +kernel)

/-- **C14.** Every end-of marker passes on the error of its argument. -/
theorem C14_errors_passed_on (c : Cfg) (x : TT) (e : ErrorKind) (h : calculate c x = .err e) :
    calculate c (.endOfYear x) = .err e ∧ calculate c (.endOfMonth x) = .err e ∧
    calculate c (.endOfDay x) = .err e ∧ calculate c (.endOfHour x) = .err e ∧
    calculate c (.endOfMinute x) = .err e := by
  simp only [calc_year, calc_month, calc_day, calc_hour, calc_minute, h, OutE.err_bind, and_self]

example : calculate (std .debug) (TT.days 1 + .hours 2) = .ok (amt .hour 26) := by decide +kernel
example : calculate (std .debug) (TT.days 1 + .moment (at_ 2017 1 1 0 0 0)) =
    .err (.cannotAdd (.days 1) (.moment (at_ 2017 1 1 0 0 0))) := by decide +kernel

end Props
