import Verif.Props.RoundTrip
import Verif.Props.Monotone
import Verif.Props.Drift

/-!
# C112: subtracting and then adding; C113: subtracting the same amount keeps the order
-/

namespace Props
open Kairos Spec

/-! ## C112 -/

/-- What was reached by subtracting from a valid moment is valid … -/
private theorem subtracted_valid {c : Cfg} {m q : Moment} {u : TUnit} {n : Int} (hm : m.Valid c)
    (e : calculate c (.moment m - amt u n) = .ok (.moment q)) : q.Valid c :=
  C15_results_are_dates c _ q (by
    simp only [TT.hsub_def, AllMoments]; exact ⟨hm, by cases u <;> trivial⟩) e

/-- … and has whole seconds if the moment has. -/
private theorem subtracted_whole {c : Cfg} {m q : Moment} {u : TUnit} {n : Int} (hm : m.Valid c) (hz : m.nano = 0)
    (e : calculate c (.moment m - amt u n) = .ok (.moment q)) : q.nano = 0 :=
  C15_whole_seconds c _ q (by
    simp only [TT.hsub_def, AllMoments]; exact ⟨⟨hm, hz⟩, by cases u <;> trivial⟩) e

/-- The two steps, taken apart. -/
theorem minus_plus {c : Cfg} {m : Moment} {u : TUnit} {n : Int} :
    stepwise c (.moment m) [(.minus, amt u n), (.plus, amt u n)] = .ok (.moment m) ↔
      ∃ q, calculate c (.moment m - amt u n) = .ok (.moment q) ∧ calculate c (.moment q + amt u n) = .ok (.moment m) := by
  have hk : kind (TT.moment m - amt u n) = some .moment := by cases u <;> rfl
  show (do let v ← calculate c (TT.moment m - amt u n); calculate c (v + amt u n)) = _ ↔ _
  rcases C76_moments c _ hk with ⟨q, e⟩ | ⟨y, mo, d, hh, mi, s, e⟩ | ⟨e, -⟩ <;> rw [e]
  · rw [OutE.ok_bind]
    exact ⟨fun h => ⟨q, rfl, h⟩, fun ⟨q', h1, h2⟩ => by cases h1; exact h2⟩
  · exact ⟨fun h => (nomatch h), fun ⟨_, h, _⟩ => (nomatch h)⟩
  · exact ⟨fun h => (nomatch h), fun ⟨_, h, _⟩ => (nomatch h)⟩

/-- **C112, exactly when it holds (partial)**, for any number of seconds, minutes, hours or days. `m'` is the
date-time `n` units before `m`: subtracting `n` from `m` and adding it again leads to `m` if and only if the subtraction goes right
and does not lead from 31 January into the year before. -/
theorem C112_iff_partial (c : Cfg) (hc : Sane c) (m m' : Moment) (hm : m.Valid c) (hm' : m'.Valid c)
    (hz : m.nano = 0) (hz' : m'.nano = 0) (u : TUnit) (hu : u = .second ∨ u = .minute ∨ u = .hour ∨ u = .day)
    (n : Int) (hn : 0 ≤ n) (hi : m'.instant = m.instant - n * u.secs) :
    stepwise c (.moment m) [(.minus, amt u n), (.plus, amt u n)] = .ok (.moment m) ↔
      SubRight m m' n u ∧ (m.year = m'.year ∨ ¬ (m.month = 1 ∧ m.day = 31)) := by
  have hsub := C21_exact_iff_partial c hc m m' hm hm' hz' u hu n hn hi
  have hback := C24_any_amount_iff_partial c hc m' m hm' hm hz' hz u hu n hn (by omega)
  rw [minus_plus]
  constructor
  · rintro ⟨q, h1, h2⟩
    have hq := subtracted_valid hm h1
    have hqn := subtracted_whole hm hz h1
    have hqi := there_and_back hc hq hm u hu n hn (by have := instants_close hc hm hm'; omega) h2 h1
    have hqm : q = m' := by
      obtain ⟨e1, e2, e3, e4, e5, e6⟩ := Cal.instant_inj hq.2.2.1 hm'.2.2.1 hq.2.2.2.1 hm'.2.2.2.1
        (show q.instant = m'.instant by omega)
      cases q; cases m'; simp only at *; simp [*]
    subst hqm
    apply hback.1
    rw [(C07_chain_partial c (.moment q) (amt u n) u n).2.1, h2, OutE.ok_bind]
    exact h1
  · rintro ⟨h1, h2⟩
    exact ⟨m', hsub.2 h1, add_right_of_sub hc hm' hm hz u hu n hn (by omega) h1 h2⟩

/-- An hour back over midnight of 1 August and forth; but 70 minutes from 12:10, or 31 days from 31 January, do not come back. -/
example : SubRight (at_ 2017 8 1 0 30 0) (at_ 2017 7 31 23 30 0) 1 .hour ∧
    stepwise (std .debug) (.moment (at_ 2017 8 1 0 30 0)) [(.minus, .hours 1), (.plus, .hours 1)] = .ok (.moment (at_ 2017 8 1 0 30 0)) ∧
    stepwise (std .debug) (.moment (at_ 2018 1 31 0 0 0)) [(.minus, .days 31), (.plus, .days 31)] = .ok (.moment (at_ 2018 2 1 0 0 0)) := by
  refine ⟨.inl ⟨by decide, by decide⟩, by decide +kernel, ?_⟩
  decide +kernel

/-- **C112, months, exactly when it holds (partial).** `(Y, M)` is the month `n` months before that of `m`: it must have the day
of `m`, be in chrono's range, and in the same year if `m` is on a 31st, and the months must be fewer than that of `m` plus 12.
For more than 4·10^9 months see `C112_every_month_iff_partial`. -/
theorem C112_months_iff_partial (c : Cfg) (hc : Sane c) (m : Moment) (hm : m.Valid c) (hz : m.nano = 0) (n : Int)
    (hn : 0 ≤ n) (hmax : n ≤ 4000000000) (Y M : Int) (hM : 1 ≤ M ∧ M ≤ 12)
    (hi : Cal.monthIndex Y M = Cal.monthIndex m.year m.month - n) :
    stepwise c (.moment m) [(.minus, .months n), (.plus, .months n)] = .ok (.moment m) ↔
      c.minYear ≤ Y ∧ m.day ≤ Cal.monthLen Y M ∧ (m.day ≤ 30 ∨ Y = m.year) ∧ n < m.month + 12 := by
  have two := minus_plus (c := c) (m := m) (u := .month) (n := n)
  simp only [amt] at two
  rw [two]
  have hm' := hm
  obtain ⟨a1, a2, ⟨a3, a4, a5, a6⟩, t, a7⟩ := hm'
  have hY : Y ≤ m.year := by unfold Cal.monthIndex at hi; omega
  have hme : m = { ({ m with year := Y, month := M, nano := 0 } : Moment) with year := m.year, month := m.month, nano := 0 } := by
    cases m; simp only at hz; subst hz; rfl
  rcases C22_subtracting_months_partial c hc m hm n hn (by omega) Y M hM hi with ⟨g1, g2, g3, f⟩ | ⟨g, _, _, _, _, _, _, f⟩
  · rw [f]
    have hv : ({ m with year := Y, month := M, nano := 0 } : Moment).Valid c :=
      ⟨g3, by simp only; omega, ⟨hM.1, hM.2, a5, g2⟩, t, by simp, by simp⟩
    have hadd := C17_exact_iff_partial c hc { m with year := Y, month := M, nano := 0 } m hv hm n hn (by simp only; omega) hme
    constructor
    · rintro ⟨q, h1, h2⟩
      cases h1
      have := hadd.1 h2
      simp only at this
      exact ⟨g3, g2, by omega, g1⟩
    · rintro ⟨h1, h2, h3, h4⟩
      exact ⟨_, rfl, hadd.2 (by simp only; omega)⟩
  · rw [f]
    refine ⟨fun ⟨_, h, _⟩ => (nomatch h), fun h => ?_⟩
    omega

example : stepwise (std .debug) (.moment (at_ 2017 3 30 1 2 3)) [(.minus, .months 14), (.plus, .months 14)] =
      .ok (.moment (at_ 2017 3 30 1 2 3)) ∧
    Cal.monthIndex 2016 1 = Cal.monthIndex 2017 3 - 14 ∧ (14 : Int) < 3 + 12 := by decide +kernel

/-- **C112, years, exactly when it holds**, for years of either sign: when the date exists that many years before. -/
theorem C112_years_iff_partial (c : Cfg) (hc : Sane c) (m : Moment) (hm : m.Valid c) (hz : m.nano = 0) (n : Int)
    (hn : -2000000000 ≤ n) (hmax : n ≤ 2000000000) :
    stepwise c (.moment m) [(.minus, .years n), (.plus, .years n)] = .ok (.moment m) ↔
      c.minYear ≤ m.year - n ∧ m.year - n ≤ c.maxYear ∧ Cal.ValidDate (m.year - n) m.month m.day := by
  have two := minus_plus (c := c) (m := m) (u := .year) (n := n)
  simp only [amt] at two
  rw [two]
  have hc' := hc
  unfold Sane at hc'
  have hm' := hm
  obtain ⟨a1, a2, a3, t, a7⟩ := hm'
  rw [C23_subtracting_years_partial c m hm n (by omega) (by omega)]
  by_cases h : c.minYear ≤ m.year - n ∧ m.year - n ≤ c.maxYear ∧ Cal.ValidDate (m.year - n) m.month m.day
  · rw [if_pos h]
    refine ⟨fun _ => h, fun _ => ⟨_, rfl, ?_⟩⟩
    have hv : ({ m with year := m.year - n, nano := 0 } : Moment).Valid c := ⟨h.1, h.2.1, h.2.2, t, by simp, by simp⟩
    rw [C18_adding_years_partial c _ hv n (by simp only; omega) (by simp only; omega)]
    have ey : m.year - n + n = m.year := by omega
    simp only [ey]
    rw [if_neg (by omega), if_neg (by
      rintro ⟨h2, h29, hl⟩
      have := a3.2.2.2
      rw [h2, h29] at this
      unfold Cal.monthLen at this
      simp [hl] at this)]
    congr 2; cases m; simp only at hz; subst hz; rfl
  · rw [if_neg h]
    exact ⟨fun ⟨_, h', _⟩ => (nomatch h'), fun h' => absurd h' h⟩

example : stepwise (std .debug) (.moment (at_ 2016 2 29 0 0 0)) [(.minus, .years 4), (.plus, .years 4)] =
    .ok (.moment (at_ 2016 2 29 0 0 0)) := by decide +kernel

/-- **C112 (partial).** In particular up to 59 seconds, 59 minutes, 23 hours or any days that stay in the month come back. -/
theorem C112_within_month_partial (c : Cfg) (hc : Sane c) (m m' : Moment) (hm : m.Valid c) (hm' : m'.Valid c)
    (hz : m.nano = 0) (hz' : m'.nano = 0) (u : TUnit) (n : Int) (hn : 0 ≤ n)
    (hu : (u = .second ∧ n < 60) ∨ (u = .minute ∧ n < 60) ∨ (u = .hour ∧ n < 24) ∨ u = .day)
    (hsame : m'.year = m.year ∧ m'.month = m.month) (hi : m'.instant = m.instant - n * u.secs) :
    stepwise c (.moment m) [(.minus, amt u n), (.plus, amt u n)] = .ok (.moment m) := by
  have t := hm.2.2.2.1
  unfold Cal.ValidTime at t
  refine (C112_iff_partial c hc m m' hm hm' hz hz' u ?_ n hn hi).2 ⟨?_, .inl hsame.1.symm⟩
  · rcases hu with ⟨h, -⟩ | ⟨h, -⟩ | ⟨h, -⟩ | h
    · exact .inl h
    · exact .inr (.inl h)
    · exact .inr (.inr (.inl h))
    · exact .inr (.inr (.inr h))
  · rcases hu with ⟨rfl, h⟩ | ⟨rfl, h⟩ | ⟨rfl, h⟩ | rfl
    · exact ⟨by omega, .inl hsame.2⟩
    · exact ⟨by omega, .inl hsame.2⟩
    · exact .inl ⟨by omega, .inl hsame.2⟩
    · exact .inl hsame

example := C112_within_month_partial (std .debug) (sane_std _) (at_ 2017 4 30 0 20 0) (at_ 2017 4 29 23 40 0) (by decide) (by decide) rfl rfl
  .minute 40 (by decide) (by decide) (by decide) (by decide)

/-- **C112 refuted.** 70 minutes from 12:10 and 5 days from 1 May do not come back. Written as one expression
nothing comes back, see `C07_refuted_all`. -/
theorem C112_refuted :
    stepwise (std .debug) (.moment (at_ 2017 1 1 12 10 0)) [(.minus, .minutes 70), (.plus, .minutes 70)] =
      .ok (.moment (at_ 2017 1 1 11 10 0)) ∧
    stepwise (std .debug) (.moment (at_ 2017 5 1 0 0 0)) [(.minus, .days 5), (.plus, .days 5)] =
      .ok (.moment (at_ 2017 5 2 0 0 0)) := by decide +kernel

/-! ## C113 -/

/-- A moment is earlier than another if its date and time come first, component by component. -/
private theorem earlier_iff {c : Cfg} {m r : Moment} (hm : m.Valid c) (hr : r.Valid c) : m.instant < r.instant ↔
    (m.year < r.year ∨ m.year = r.year ∧ (m.month < r.month ∨ m.month = r.month ∧ (m.day < r.day ∨ m.day = r.day ∧
      (m.hour < r.hour ∨ m.hour = r.hour ∧ (m.minute < r.minute ∨ m.minute = r.minute ∧ m.second < r.second))))) := by
  have key : ∀ {m r : Moment}, m.Valid c → r.Valid c →
      (m.year < r.year ∨ m.year = r.year ∧ (m.month < r.month ∨ m.month = r.month ∧ (m.day < r.day ∨ m.day = r.day ∧
      (m.hour < r.hour ∨ m.hour = r.hour ∧ (m.minute < r.minute ∨ m.minute = r.minute ∧ m.second < r.second))))) →
      m.instant < r.instant := by
    intro m r hm hr h
    have t := hm.2.2.2.1; have t' := hr.2.2.2.1
    unfold Cal.ValidTime at t t'
    by_cases hd : m.year < r.year ∨ m.year = r.year ∧ (m.month < r.month ∨ m.month = r.month ∧ m.day < r.day)
    · have := Cal.dayNumber_lt hm.2.2.1 hr.2.2.1 hd
      unfold Moment.instant Cal.instant; omega
    · have e : m.year = r.year ∧ m.month = r.month ∧ m.day = r.day := by omega
      unfold Moment.instant Cal.instant
      rw [e.1, e.2.1, e.2.2]; omega
  refine ⟨fun h => ?_, key hm hr⟩
  by_cases h' : r.year < m.year ∨ r.year = m.year ∧ (r.month < m.month ∨ r.month = m.month ∧ (r.day < m.day ∨ r.day = m.day ∧
      (r.hour < m.hour ∨ r.hour = m.hour ∧ (r.minute < m.minute ∨ r.minute = m.minute ∧ r.second < m.second))))
  · have := key hr hm h'; omega
  · by_cases he : m.year = r.year ∧ m.month = r.month ∧ m.day = r.day ∧ m.hour = r.hour ∧ m.minute = r.minute ∧ m.second = r.second
    · obtain ⟨e1, e2, e3, e4, e5, e6⟩ := he
      have : m.instant = r.instant := by unfold Moment.instant; rw [e1, e2, e3, e4, e5, e6]
      omega
    · omega

/-- **C113 (partial), days, months and years.** If one moment is before another, it still is after the same number of days or months,
below 2^32 and not negative, or of years, has been subtracted from both, whenever both succeed (even where
the date reached is wrong). -/
theorem C113_days_months_years_partial (c : Cfg) (hc : Sane c) (m₁ m₂ r₁ r₂ : Moment) (h1 : m₁.Valid c) (h2 : m₂.Valid c)
    (u : TUnit) (n : Int)
    (hu : ((u = .day ∨ u = .month) ∧ 0 ≤ n ∧ n < 4294967296) ∨ (u = .year ∧ -2000000000 ≤ n ∧ n ≤ 2000000000))
    (h : m₁.instant < m₂.instant)
    (e₁ : calculate c (.moment m₁ - amt u n) = .ok (.moment r₁))
    (e₂ : calculate c (.moment m₂ - amt u n) = .ok (.moment r₂)) : r₁.instant < r₂.instant := by
  have hc' := hc
  unfold Sane at hc'
  have v1 := subtracted_valid h1 e₁
  have v2 := subtracted_valid h2 e₂
  have prev : ∀ (m : Moment) (k : Int), ∃ Y M, (1 ≤ M ∧ M ≤ 12) ∧ Cal.monthIndex Y M = Cal.monthIndex m.year m.month - k :=
    fun m k => ⟨(Cal.monthIndex m.year m.month - k) / 12, (Cal.monthIndex m.year m.month - k) % 12 + 1, by omega,
      by unfold Cal.monthIndex; omega⟩
  rw [earlier_iff h1 h2] at h
  rw [earlier_iff v1 v2]
  have d1 := h1.2.2.1; have d2 := h2.2.2.1
  unfold Cal.ValidDate at d1 d2
  rcases hu with ⟨rfl | rfl, hn, hb⟩ | ⟨rfl, hn, hb⟩ <;> simp only [amt] at e₁ e₂
  · obtain ⟨Y1, M1, hM1, p1⟩ := prev m₁ 1
    obtain ⟨Y2, M2, hM2, p2⟩ := prev m₂ 1
    have l1 := Cal.monthLen_bounds (y := m₁.year) d1.1 d1.2.1
    unfold Cal.monthIndex at p1 p2
    rcases C21_days_partial c hc m₁ h1 n hn hb Y1 M1 hM1 p1 with ⟨a1, f⟩ | ⟨a1, a2, a3, a4, f⟩ | ⟨-, -, _, _, _, _, _, _, f⟩ <;>
      rw [f] at e₁ <;> cases e₁ <;>
    rcases C21_days_partial c hc m₂ h2 n hn hb Y2 M2 hM2 p2 with ⟨b1, g⟩ | ⟨b1, b2, b3, b4, g⟩ | ⟨-, -, _, _, _, _, _, _, g⟩ <;>
      rw [g] at e₂ <;> cases e₂ <;> simp only <;> omega
  · obtain ⟨Y1, M1, hM1, p1⟩ := prev m₁ n
    obtain ⟨Y2, M2, hM2, p2⟩ := prev m₂ n
    rcases C22_subtracting_months_partial c hc m₁ h1 n hn hb Y1 M1 hM1 p1 with ⟨a1, a2, a3, f⟩ | ⟨-, _, _, _, _, _, _, f⟩ <;>
      rw [f] at e₁ <;> cases e₁
    rcases C22_subtracting_months_partial c hc m₂ h2 n hn hb Y2 M2 hM2 p2 with ⟨b1, b2, b3, g⟩ | ⟨-, _, _, _, _, _, _, g⟩ <;>
      rw [g] at e₂ <;> cases e₂
    unfold Cal.monthIndex at p1 p2
    simp only; omega
  · have y1 := h1.1; have y2 := h1.2.1
    have z1 := h2.1; have z2 := h2.2.1
    rw [C23_subtracting_years_partial c m₁ h1 n (by omega) (by omega)] at e₁
    rw [C23_subtracting_years_partial c m₂ h2 n (by omega) (by omega)] at e₂
    split at e₁ <;> cases e₁
    split at e₂ <;> cases e₂
    simp only; omega

example : calculate (std .debug) (.moment (at_ 2017 4 30 23 0 0) - .days 4) = .ok (.moment (at_ 2017 4 26 23 0 0)) ∧
    calculate (std .debug) (.moment (at_ 2017 5 1 0 0 0) - .days 4) = .ok (.moment (at_ 2017 4 28 0 0 0)) ∧
    (at_ 2017 4 30 23 0 0).instant < (at_ 2017 5 1 0 0 0).instant := by decide +kernel

/-- **C113 (partial), seconds, minutes and hours**, up to eleven million years: the order is kept unless the later moment has exactly 60 (24) fewer
seconds, minutes (hours) than are subtracted. -/
theorem C113_time_partial (c : Cfg) (hc : Sane c) (m₁ m₂ r₁ r₂ : Moment) (h1 : m₁.Valid c) (h2 : m₂.Valid c)
    (u : TUnit) (n : Int) (hn : 0 ≤ n) (hb : n * u.secs ≤ 371085171523200)
    (hu : (u = .second ∧ n ≠ m₂.second + 60) ∨ (u = .minute ∧ n ≠ m₂.minute + 60) ∨ (u = .hour ∧ n ≠ m₂.hour + 24))
    (h : m₁.instant < m₂.instant)
    (e₁ : calculate c (.moment m₁ - amt u n) = .ok (.moment r₁))
    (e₂ : calculate c (.moment m₂ - amt u n) = .ok (.moment r₂)) : r₁.instant < r₂.instant := by
  rcases C21_exact_or_rejected_partial c hc m₂ h2 u n hn hb hu with ⟨r, f, hr, -⟩ | ⟨_, _, _, _, _, _, f⟩ <;>
    rw [f] at e₂ <;> cases e₂
  have hu' : u = .second ∨ u = .minute ∨ u = .hour := by
    rcases hu with ⟨h, -⟩ | ⟨h, -⟩ | ⟨h, -⟩ <;> simp [h]
  obtain ⟨off, ho, hoff, -⟩ := C107_subtracting c hc m₁ r₁ h1 u (by rcases hu' with h | h | h <;> simp [h]) n hn hb e₁
  have := (hoff hu').2
  omega

example : calculate (std .debug) (.moment (at_ 2017 1 1 11 50 0) - .minutes 70) = .ok (.moment (at_ 2017 1 1 10 40 0)) ∧
    calculate (std .debug) (.moment (at_ 2017 1 1 12 11 0) - .minutes 70) = .ok (.moment (at_ 2017 1 1 11 1 0)) := by decide +kernel

/-- **C113 refuted.** 70 minutes before 12:10 is given as earlier than 70 minutes before 11:50. -/
theorem C113_refuted :
    (at_ 2017 1 1 11 50 0).instant < (at_ 2017 1 1 12 10 0).instant ∧
    calculate (std .debug) (.moment (at_ 2017 1 1 11 50 0) - .minutes 70) = .ok (.moment (at_ 2017 1 1 10 40 0)) ∧
    calculate (std .debug) (.moment (at_ 2017 1 1 12 10 0) - .minutes 70) = .ok (.moment (at_ 2017 1 1 10 0 0)) := by
  decide +kernel

end Props
