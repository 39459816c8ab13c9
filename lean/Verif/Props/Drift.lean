import Verif.Props.AllAmounts
import Verif.Props.Evaluation
import Verif.Props.IterOps
import Verif.Lemmas.Valid
import Verif.Props.Subtracting
import Verif.Spec.Shape

/-!
# C107: how far additions and subtractions can be off
-/

namespace Props
open Kairos Spec

variable {c : Cfg}

/-- How many days the code's months of 30 days are behind those of the calendar when month `b + 1` begins. -/
private theorem month_drift (y b : Int) (h0 : 0 ≤ b) (h1 : b ≤ 11) :
    -1 ≤ Cal.daysBeforeMonth y (b + 1) - 30 * b ∧ Cal.daysBeforeMonth y (b + 1) - 30 * b ≤ 5 := by
  have : b = 0 ∨ b = 1 ∨ b = 2 ∨ b = 3 ∨ b = 4 ∨ b = 5 ∨ b = 6 ∨ b = 7 ∨ b = 8 ∨ b = 9 ∨ b = 10 ∨ b = 11 := by omega
  rcases this with rfl | rfl | rfl | rfl | rfl | rfl | rfl | rfl | rfl | rfl | rfl | rfl <;>
    (simp [Cal.daysBeforeMonth]; try (split <;> omega))

theorem off_cases (c : Cfg) (hc : Sane c) (m r : Moment) (hm : m.Valid c)
    (u : TUnit) (hu : u = .second ∨ u = .minute ∨ u = .hour ∨ u = .day) (n : Int) (hn : 0 ≤ n)
    (hmax : n * u.secs ≤ 133500000000000000)
    (h : calculate c (.moment m + amt u n) = .ok (.moment r)) :
    (r.year = m.year ∧ r.instant = m.instant + n * u.secs) ∨
      (m.year < r.year ∧ ∃ off, r.instant = m.instant + n * u.secs + off * 86400 ∧
        5 * (r.year - m.year - 1) - 1 ≤ off ∧ off ≤ 6 * (r.year - m.year - 1) + 5) := by
  have hc' := hc
  unfold Sane at hc'
  have y1 := hm.1
  have y2 := hm.2.1
  have hsec : 1 ≤ u.secs := by rcases hu with rfl | rfl | rfl | rfl <;> decide
  have hnu : n ≤ n * u.secs := by
    have := Int.mul_le_mul_of_nonneg_left hsec hn; omega
  by_cases hlt : m.instant + n * u.secs < Cal.instant (m.year + 1) 1 1 0 0 0
  · left
    have hend : Cal.instant (m.year + 1) 1 1 0 0 0 ≤ Cal.instant (c.maxYear + 1) 1 1 0 0 0 := by
      have := (Cal.daysBeforeYear_ge (y := m.year + 1) (y' := c.maxYear + 1) (by omega)).1
      have a := Cal.dayNumber_newYear (m.year + 1)
      have b := Cal.dayNumber_newYear (c.maxYear + 1)
      unfold Cal.instant; omega
    obtain ⟨m', hm', hz, hi⟩ := moment_exists hm (m.instant + n * u.secs) (by omega) (by omega)
    have hy : m'.year = m.year := by
      have h1 := year_le_of_instant hm'.2.2.1 hm'.2.2.2.1 (Y := m.year)
        (show m'.instant < _ by omega)
      by_cases e : m'.year < m.year
      · have := instant_lt_of_year hm'.2.2.1 hm'.2.2.2.1 (Y := m.year - 1) (by omega)
        have h2 : m'.instant < Cal.instant (m.year - 1 + 1) 1 1 0 0 0 := this
        rw [show m.year - 1 + 1 = m.year by omega] at h2
        have b := Cal.dayOfYear_bounds hm.2.2.1
        have d1 := Cal.dayNumber_eq m.year m.month m.day
        have a := Cal.dayNumber_newYear m.year
        have t := hm.2.2.2.1
        unfold Cal.ValidTime at t
        have h3 : m.instant = Cal.dayNumber m.year m.month m.day * 86400 + m.hour * 3600 + m.minute * 60 + m.second := rfl
        unfold Cal.instant at h2
        omega
      · omega
    rw [C16_within_the_year_partial c hc m m' hm hm' hz u hu n hn hi hy] at h
    cases h
    exact ⟨hy, hi⟩
  · right
    let R := m.instant + n * u.secs - Cal.instant (m.year + 1) 1 1 0 0 0
    have hR : R = m.instant + n * u.secs - Cal.instant (m.year + 1) 1 1 0 0 0 := rfl
    have hnew : Cal.instant (m.year + 1) 1 1 0 0 0 = (Cal.daysBeforeYear (m.year + 1) + 1) * 86400 := by
      unfold Cal.instant Cal.dayNumber Cal.daysBeforeMonth; simp
    have hmend : m.instant < Cal.instant (m.year + 1) 1 1 0 0 0 :=
      instant_lt_of_year hm.2.2.1 hm.2.2.2.1 (Int.le_refl _)
    have hJ0 : 0 ≤ R / 86400 := by omega
    have ht : Cal.ValidTime (R % 86400 / 3600) (R % 3600 / 60) (R % 60) := by
      unfold Cal.ValidTime; omega
    have hRmax : R / 86400 / 360 ≤ 4292052470 := by omega
    have hpart : part m u ≤ 59 := by
      have t := hm.2.2.2.1
      have := hm.2.2.1
      have ml := Cal.monthLen_bounds (y := m.year) this.1 this.2.1
      unfold Cal.ValidDate at this
      unfold Cal.ValidTime at t
      rcases hu with rfl | rfl | rfl | rfl <;> simp only [part] <;> omega
    by_cases hk : m.year + 1 + R / 86400 / 360 ≤ 2147483647
    · have e := C16_beyond_the_year_partial c hc m hm u hu n hn (by omega) (R / 86400) (R % 86400 / 3600) (R % 3600 / 60) (R % 60)
        (m.year + 1 + R / 86400 / 360) 0 hJ0 ht (by omega) (by omega) (by omega)
      rw [h] at e
      split at e
      · rename_i hv
        cases e
        refine ⟨by simp only; omega, ?_⟩
        have md := month_drift (m.year + 1 + R / 86400 / 360) (R / 86400 / 30 % 12) (by omega) (by omega)
        have yd := Cal.daysBeforeYear_ge (y := m.year + 1) (y' := m.year + 1 + R / 86400 / 360) (by omega)
        refine ⟨Cal.daysBeforeYear (m.year + 1 + R / 86400 / 360) - Cal.daysBeforeYear (m.year + 1) +
          Cal.daysBeforeMonth (m.year + 1 + R / 86400 / 360) (R / 86400 / 30 % 12 + 1) + R / 86400 % 30 - R / 86400, ?_, ?_, ?_⟩
        · show Cal.instant _ _ _ _ _ _ = _
          unfold Cal.instant Cal.dayNumber
          simp only
          rw [hnew] at hR
          clear md yd hv h
          generalize Cal.daysBeforeMonth _ _ = A
          generalize Cal.daysBeforeYear (m.year + 1 + _) = B
          omega
        · simp only
          clear hv h hR hnew
          generalize Cal.daysBeforeMonth _ _ = A at *
          generalize Cal.daysBeforeYear (m.year + 1 + _) = B at *
          omega
        · simp only
          clear hv h hR hnew
          generalize Cal.daysBeforeMonth _ _ = A at *
          generalize Cal.daysBeforeYear (m.year + 1 + _) = B at *
          omega
      · cases e
    · have e := C16_beyond_the_year_partial c hc m hm u hu n hn (by omega) (R / 86400) (R % 86400 / 3600) (R % 3600 / 60) (R % 60)
        (m.year + 1 + R / 86400 / 360 - 4294967296) 1 hJ0 ht (by omega) (by omega) (by omega)
      rw [h, if_neg (by omega)] at e
      cases e

/-- **C107.** Adding `n ≥ 0` seconds, minutes, hours or days never leads to an earlier year, and is right to the second up
to a whole number of days `off`. Within the year of the moment nothing is off; `k` turns of the year later the result is off by
`5 · (k - 1) - 1` to `6 · (k - 1) + 5` days: at most a day too early, and too late by five or six days for every year
after the first. For amounts up to 4.29 billion years. -/
theorem C107_off_by (c : Cfg) (hc : Sane c) (m r : Moment) (hm : m.Valid c)
    (u : TUnit) (hu : u = .second ∨ u = .minute ∨ u = .hour ∨ u = .day) (n : Int) (hn : 0 ≤ n)
    (hmax : n * u.secs ≤ 133500000000000000)
    (h : calculate c (.moment m + amt u n) = .ok (.moment r)) :
    m.year ≤ r.year ∧ ∃ off, r.instant = m.instant + n * u.secs + off * 86400 ∧ (r.year = m.year → off = 0) ∧
      (m.year < r.year → 5 * (r.year - m.year - 1) - 1 ≤ off ∧ off ≤ 6 * (r.year - m.year - 1) + 5) := by
  rcases off_cases c hc m r hm u hu n hn hmax h with ⟨h1, h2⟩ | ⟨h1, off, h2, h3⟩
  · exact ⟨by omega, 0, by omega, fun _ => rfl, by omega⟩
  · exact ⟨by omega, off, h2, by omega, fun _ => h3⟩

/-- The bounds are reached: a day too early in March, five days too late in November of a leap year, and 47
days too late in the tenth year. -/
example :
    calculate (std .debug) (.moment (at_ 2000 12 31 8 0 0) + .days 61) = .ok (.moment (at_ 2001 3 1 8 0 0)) ∧
    (at_ 2001 3 1 8 0 0).instant = (at_ 2000 12 31 8 0 0).instant + 61 * 86400 - 1 * 86400 ∧
    calculate (std .debug) (.moment (at_ 2003 12 31 8 0 0) + .days 301) = .ok (.moment (at_ 2004 11 1 8 0 0)) ∧
    (at_ 2004 11 1 8 0 0).instant = (at_ 2003 12 31 8 0 0).instant + 301 * 86400 + 5 * 86400 ∧
    calculate (std .debug) (.moment (at_ 2000 12 31 8 0 0) + .hours (24 * 3241)) = .ok (.moment (at_ 2010 1 1 8 0 0)) ∧
    (at_ 2010 1 1 8 0 0).instant = (at_ 2000 12 31 8 0 0).instant + 24 * 3241 * 3600 + 47 * 86400 := by decide +kernel

/-- One step of a chain. -/
private theorem nonneg_step (c : Cfg) (hc : Sane c) (m : Moment) (hm : m.Valid c) (u : TUnit) (n : Int)
    (hn : 0 ≤ n) (hmax : n * u.secs ≤ 133500000000000000) :
    (∃ r, calculate c (.moment m + amt u n) = .ok (.moment r) ∧ r.Valid c ∧ m.instant ≤ r.instant ∧
      (0 < n → m.instant < r.instant)) ∨
    ∃ e, calculate c (.moment m + amt u n) = .err e := by
  by_cases h0 : n = 0
  · subst h0
    refine .inl ⟨_, (C19_zero c hc m hm u).1, ?_, Int.le_refl _, by omega⟩
    exact ⟨hm.1, hm.2.1, hm.2.2.1, hm.2.2.2.1, by simp, by simp⟩
  · rcases forward_step c hc m hm u n (by omega) hmax with ⟨r, e, v, lt⟩ | ⟨Y, M, D, H, MI, S, e⟩
    · exact .inl ⟨r, e, v, by omega, fun _ => lt⟩
    · exact .inr ⟨_, e⟩

theorem stepwise_err (c : Cfg) (r : Out TT) (hr : ∀ x, r ≠ .ok x) (steps : List (Op × TT)) (x : TT) :
    steps.foldl (fun r s => do let v ← r; calculate c (s.1.app v s.2)) r ≠ .ok x := by
  induction steps generalizing r with
  | nil => exact hr x
  | cons s l ih =>
    rw [List.foldl_cons]
    refine ih _ fun y => ?_
    cases r with
    | ok z => exact absurd rfl (hr z)
    | err e => simp
    | panic => simp
    | oof => simp

/-- **C20 (partial), chains.** `m + a₁ + a₂ + …` with non-negative amounts of any units, in any order, each up to 4.29 billion
years: if it is a moment, then it is at least as many seconds later than `m` as there are positive amounts. Missing: larger amounts,
see `C20_refuted`. -/
theorem C20_chain_partial (c : Cfg) (hc : Sane c) (m r : Moment) (hm : m.Valid c) (steps : List (TUnit × Int))
    (hs : ∀ s ∈ steps, 0 ≤ s.2 ∧ s.2 * s.1.secs ≤ 133500000000000000)
    (h : calculate c (chain (.moment m) (steps.map fun s => (.plus, amt s.1 s.2))) = .ok (.moment r)) :
    m.instant + (steps.filter fun s => 0 < s.2).length ≤ r.instant := by
  have e := C07_long_chain_partial c m steps []
  rw [List.map_nil, List.append_nil] at e
  rw [e] at h
  clear e
  unfold stepwise at h
  induction steps generalizing m with
  | nil => cases h; simp
  | cons s l ih =>
    obtain ⟨h1, h2⟩ := hs s (by simp)
    rw [List.map_cons, List.foldl_cons] at h
    rcases nonneg_step c hc m hm s.1 s.2 h1 h2 with ⟨r', e, v, le, lt⟩ | ⟨e, he⟩
    · have e' : (do let v ← (OutE.ok (TT.moment m) : Out TT); calculate c (Op.plus.app v (amt s.1 s.2))) = .ok (.moment r') := e
      rw [e'] at h
      have := ih r' v (fun t ht => hs t (by simp [ht])) h
      by_cases hp : 0 < s.2
      · have := lt hp
        simp [hp]; omega
      · simp [hp]; omega
    · have e' : (do let v ← (OutE.ok (TT.moment m) : Out TT); calculate c (Op.plus.app v (amt s.1 s.2))) = .err e := he
      rw [e'] at h
      exact absurd h (stepwise_err c _ (by simp) _ _)

example : let steps : List (TUnit × Int) := [(.month, 1), (.day, 0), (.hour, 30), (.year, 3)]
    (∀ s ∈ steps, 0 ≤ s.2 ∧ s.2 * s.1.secs ≤ 133500000000000000) ∧
    calculate (std .debug) (chain (.moment (at_ 2017 1 31 12 0 0)) (steps.map fun s => (.plus, amt s.1 s.2))) =
      .ok (.moment (at_ 2020 3 4 18 0 0)) ∧ (steps.filter fun s => 0 < s.2).length = 3 := by decide +kernel

/-- **C107, chains.** `m + a₁ + a₂ + …` with non-negative amounts of seconds, minutes, hours and days: over `k` turns of the year
the result is off by a whole number of days, at most `k` days too early and at most `6 · k` days too late, however many steps
there are. -/
theorem C107_chains (c : Cfg) (hc : Sane c) (m r : Moment) (hm : m.Valid c) (steps : List (TUnit × Int))
    (hs : ∀ s ∈ steps, (s.1 = .second ∨ s.1 = .minute ∨ s.1 = .hour ∨ s.1 = .day) ∧ 0 ≤ s.2 ∧
      s.2 * s.1.secs ≤ 133500000000000000)
    (h : calculate c (chain (.moment m) (steps.map fun s => (.plus, amt s.1 s.2))) = .ok (.moment r)) :
    m.year ≤ r.year ∧ ∃ off, r.instant = m.instant + sumSecs steps + off * 86400 ∧
      -(r.year - m.year) ≤ off ∧ off ≤ 6 * (r.year - m.year) := by
  have e := C07_long_chain_partial c m steps []
  rw [List.map_nil, List.append_nil] at e
  rw [e] at h
  clear e
  unfold stepwise at h
  induction steps generalizing m with
  | nil => cases h; exact ⟨Int.le_refl _, 0, by simp [sumSecs], by omega, by omega⟩
  | cons s l ih =>
    obtain ⟨h0, h1, h2⟩ := hs s (by simp)
    rw [List.map_cons, List.foldl_cons] at h
    rcases nonneg_step c hc m hm s.1 s.2 h1 h2 with ⟨r', e, v, le, lt⟩ | ⟨e, he⟩
    · have e' : (do let v ← (OutE.ok (TT.moment m) : Out TT); calculate c (Op.plus.app v (amt s.1 s.2))) = .ok (.moment r') := e
      rw [e'] at h
      obtain ⟨g1, off, g2, g3, g4⟩ := ih r' v (fun t ht => hs t (by simp [ht])) h
      have ht : sumSecs (s :: l) = s.2 * s.1.secs + sumSecs l := by simp [sumSecs]
      rcases off_cases c hc m r' hm s.1 h0 s.2 h1 h2 e with ⟨f1, f2⟩ | ⟨f1, off', f2, f3, f4⟩
      · exact ⟨by omega, off, by omega, by omega, by omega⟩
      · exact ⟨by omega, off + off', by omega, by omega, by omega⟩
    · have e' : (do let v ← (OutE.ok (TT.moment m) : Out TT); calculate c (Op.plus.app v (amt s.1 s.2))) = .err e := he
      rw [e'] at h
      exact absurd h (stepwise_err c _ (by simp) _ _)

example : let steps : List (TUnit × Int) := [(.day, 300), (.hour, 2400), (.second, 8640000)]
    (∀ s ∈ steps, (s.1 = .second ∨ s.1 = .minute ∨ s.1 = .hour ∨ s.1 = .day) ∧ 0 ≤ s.2 ∧ s.2 * s.1.secs ≤ 133500000000000000) ∧
    calculate (std .debug) (chain (.moment (at_ 2017 6 1 12 0 0)) (steps.map fun s => (.plus, amt s.1 s.2))) =
      .ok (.moment (at_ 2018 10 13 12 0 0)) ∧
    (at_ 2018 10 13 12 0 0).instant = (at_ 2017 6 1 12 0 0).instant + sumSecs steps - 1 * 86400 := by decide +kernel

/-- **C107, iterators.** The items of an iterator by seconds, minutes, hours or days: `k` turns of the year after the base, an item is
off by a whole number of days, at most `k` days too early and at most `6 · k` days too late. (With at most 30 days per step nothing is off:
C34.) -/
theorem C107_iterators (c : Cfg) (hc : Sane c) (m r : Moment) (hm : m.Valid c)
    (u : TUnit) (hu : u = .second ∨ u = .minute ∨ u = .hour ∨ u = .day) (n : Int) (hn : 0 < n)
    (hmax : n * u.secs ≤ 133500000000000000) (it : Iter) (hit : Iter.build m (amt u n) = .ok it) (k : Nat)
    (h : nth (Iter.next c) k it = some (.ok (.moment r))) :
    m.year ≤ r.year ∧ ∃ off, r.instant = m.instant + k * (n * u.secs) + off * 86400 ∧
      -(r.year - m.year) ≤ off ∧ off ≤ 6 * (r.year - m.year) := by
  have hit' : it = ⟨.moment m, amt u n, false⟩ := by
    unfold Iter.build at hit
    rw [amt_isAAmount] at hit
    cases hit; rfl
  subst hit'
  refine (run_shape (c := c) (amt_isAAmount u n)
    (fun k r => r.Valid c ∧ m.year ≤ r.year ∧ ∃ off, r.instant = m.instant + k * (n * u.secs) + off * 86400 ∧
      -(r.year - m.year) ≤ off ∧ off ≤ 6 * (r.year - m.year))
    (fun _ _ => True) ?_ (fun _ _ _ => trivial) m ⟨hm, Int.le_refl _, 0, by simp, by omega, by omega⟩ k).elim ?_ ?_
  · rintro k r ⟨v, g1, off, g2, g3, g4⟩
    rcases forward_step c hc r v u n hn hmax with ⟨r', e, v', -⟩ | ⟨Y, M, D, H, MI, S, e⟩
    · refine .inl ⟨r', e, v', ?_⟩
      have hk : ((k + 1 : Nat) : Int) * (n * u.secs) = k * (n * u.secs) + n * u.secs := by
        push_cast; rw [Int.add_mul, Int.one_mul]
      rw [hk]
      rcases off_cases c hc r r' v u hu n (by omega) hmax e with ⟨f1, f2⟩ | ⟨f1, off', f2, f3, f4⟩
      · exact ⟨by omega, off, by omega, by omega, by omega⟩
      · exact ⟨by omega, off + off', by omega, by omega, by omega⟩
    · exact .inr ⟨_, e, trivial⟩
  · rintro ⟨r', ⟨-, g⟩, -, e⟩
    rw [h] at e; cases e; exact g
  · rintro ⟨e, -, -, he⟩
    rw [h] at he; nomatch he

/-- Every 400 days from 1 June 2017: the fifth item after the base is two weeks late. -/
example : nth (Iter.next (std .debug)) 5 ⟨.moment (at_ 2017 6 1 0 0 0), amt .day 400, false⟩ =
      some (.ok (.moment (at_ 2022 12 6 0 0 0))) ∧
    (at_ 2022 12 6 0 0 0).instant = (at_ 2017 6 1 0 0 0).instant + 5 * (400 * 86400) + 14 * 86400 := by decide +kernel

/-! ## Subtracting -/

private theorem sub_off_time (c : Cfg) (hc : Sane c) (m r : Moment) (hm : m.Valid c)
    (u : TUnit) (hu : u = .second ∨ u = .minute ∨ u = .hour) (n : Int) (hn : 0 ≤ n) (hb : n < 4294967296)
    (h : calculate c (.moment m - amt u n) = .ok (.moment r)) :
    ∃ off, r.instant = m.instant - n * u.secs + off ∧ -86400 ≤ off ∧ off ≤ 0 := by
  obtain ⟨k, hh, mi, s, y', mo', d', hd', k0, r1, r2, r3, e⟩ := sub_time c hc hm u hu n hn hb
  rw [e] at h
  split at h
  · rename_i hv
    cases h
    have a3 := hm.2.2.1
    obtain ⟨v1, v2, v3, v4⟩ := a3
    have pv := prevMonth_valid (y := m.year) v1 v2
    have ml := Cal.monthLen_bounds (y := (prevMonth m.year m.month).1) pv.1 pv.2.1
    have hbase : 60 ≤ base u * u.secs ∧ base u * u.secs ≤ 86400 ∧ (u ≠ .hour → base u * u.secs ≤ 3600) ∧ (u = .hour → base u * u.secs = 86400) := by
      rcases hu with rfl | rfl | rfl <;> simp [base, TUnit.secs]
    have key : (k ≤ 1 ∧ hh * 3600 + mi * 60 + s - k * 86400 = m.hour * 3600 + m.minute * 60 + m.second - n * u.secs) ∨
        (k ≤ 1 ∧ hh * 3600 + mi * 60 + s - k * 86400 =
          m.hour * 3600 + m.minute * 60 + m.second - n * u.secs - base u * u.secs) ∨
        (k = 2 ∧ hh * 3600 + mi * 60 + s - k * 86400 =
          m.hour * 3600 + m.minute * 60 + m.second - n * u.secs - 86400) := by
      rcases Int.lt_trichotomy n (comp m u + base u) with hlt | heq | hgt
      · exact .inl (r1 hlt).2
      · obtain ⟨q1, q2, q3, q4, q5⟩ := r2 heq
        by_cases hour : u = .hour
        · right; right; rw [hbase.2.2.2 hour] at q5; exact ⟨q3 hour, q5⟩
        · right; left; exact ⟨q4 hour, q5⟩
      · exact absurd hv.2.2.2 (r3 hgt)
    generalize n * u.secs = N at *
    generalize base u * u.secs = B at *
    unfold Moment.instant Cal.instant
    simp only
    rcases dateP_cases hm.2.2.1 k0 with ⟨c1, c2, c3, c4⟩ | ⟨c1, c2, c3, c4, c5⟩ | ⟨c1, -⟩
    · rw [c2] at hd'; cases hd'
      rcases key with ⟨q1, q2⟩ | ⟨q1, q2⟩ | ⟨q1, q2⟩
      · exact ⟨0, by omega, by omega, by omega⟩
      · exact ⟨-B, by omega, by omega, by omega⟩
      · exact ⟨-86400, by omega, by omega, by omega⟩
    · rw [c3] at hd'; cases hd'
      have := c4.1 hv.2.2.1
      rcases key with ⟨q1, q2⟩ | ⟨q1, q2⟩ | ⟨q1, q2⟩
      · exact ⟨0, by omega, by omega, by omega⟩
      · exact ⟨-B, by omega, by omega, by omega⟩
      · exact ⟨-86400 + (31 - Cal.monthLen (prevMonth m.year m.month).1 (prevMonth m.year m.month).2) * 86400,
          by omega, by omega, by omega⟩
    · omega
  · cases h

/-- **C107, subtracting.** What subtracting `n` seconds, minutes, hours or days leads to, if it succeeds, is right
to within a few days: seconds, minutes and hours may lead up to one day too far back, never too little; days may
lead up to three days too little back, never too far. Up to eleven million years. -/
theorem C107_subtracting (c : Cfg) (hc : Sane c) (m r : Moment) (hm : m.Valid c)
    (u : TUnit) (hu : u = .second ∨ u = .minute ∨ u = .hour ∨ u = .day) (n : Int) (hn : 0 ≤ n)
    (hmax : n * u.secs ≤ 371085171523200)
    (h : calculate c (.moment m - amt u n) = .ok (.moment r)) :
    ∃ off, r.instant = m.instant - n * u.secs + off ∧
      (u = .second ∨ u = .minute ∨ u = .hour → -86400 ≤ off ∧ off ≤ 0) ∧
      (u = .day → off = 0 ∨ off = 86400 ∨ off = 2 * 86400 ∨ off = 3 * 86400) := by
  by_cases hb : 4294967296 ≤ n
  · have hpos : 1 ≤ u.secs := by cases u <;> decide
    have hge : n ≤ n * u.secs := by have := Int.mul_le_mul_of_nonneg_left hpos hn; omega
    obtain ⟨_, _, _, _, _, _, e⟩ := sub_too_far c hc hm u hu n (by omega) hmax
    rw [e] at h; cases h
  have hb : n < 4294967296 := by omega
  by_cases hd : u = .day
  · subst hd
    obtain ⟨y', mo', d', hd', e⟩ := sub_days c hc hm n hn hb
    rw [e] at h
    split at h
    · rename_i hv
      cases h
      have a3 := hm.2.2.1
      obtain ⟨v1, v2, v3, v4⟩ := a3
      have pv := prevMonth_valid (y := m.year) v1 v2
      have ml := Cal.monthLen_bounds (y := (prevMonth m.year m.month).1) pv.1 pv.2.1
      unfold Moment.instant Cal.instant
      simp only [TUnit.secs]
      rcases dateP_cases hm.2.2.1 hn with ⟨c1, c2, c3, c4⟩ | ⟨c1, c2, c3, c4, c5⟩ | ⟨c1, c2⟩
      · rw [c2] at hd'; cases hd'
        exact ⟨0, by omega, by simp, fun _ => .inl rfl⟩
      · rw [c3] at hd'; cases hd'
        refine ⟨(31 - Cal.monthLen (prevMonth m.year m.month).1 (prevMonth m.year m.month).2) * 86400, by omega, by simp,
          fun _ => by omega⟩
      · rw [show d' = (dateP m.year m.month (m.day - n)).2.2 by rw [← hd']] at hv
        exact absurd hv.2.2 (c2 _ _)
    · cases h
  · have hu' : u = .second ∨ u = .minute ∨ u = .hour := by
      rcases hu with h | h | h | h
      · exact .inl h
      · exact .inr (.inl h)
      · exact .inr (.inr h)
      · exact absurd h hd
    obtain ⟨off, e, b⟩ := sub_off_time c hc m r hm u hu' n hn hb h
    exact ⟨off, e, fun _ => b, fun e => absurd e hd⟩

/-- Both bounds are met: 24 hours before midnight of 10 May is given as midnight of 8 May, and 4 days before
1 March 2017, 25 February, as 28 February. -/
example : calculate (std .debug) (.moment (at_ 2017 5 10 0 0 0) - .hours 24) = .ok (.moment (at_ 2017 5 8 0 0 0)) ∧
    calculate (std .debug) (.moment (at_ 2017 3 1 0 0 0) - .days 4) = .ok (.moment (at_ 2017 2 28 0 0 0)) ∧
    (at_ 2017 5 8 0 0 0).instant = (at_ 2017 5 10 0 0 0).instant - 24 * TUnit.secs .hour + (-86400) ∧
    (at_ 2017 2 28 0 0 0).instant = (at_ 2017 3 1 0 0 0).instant - 4 * TUnit.secs .day + 3 * 86400 := by
  decide +kernel

end Props
