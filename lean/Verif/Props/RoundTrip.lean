import Verif.Props.Laws
import Verif.Props.Kinds
import Verif.Props.Values
import Verif.Lemmas.CalExists

/-!
# C24, months and years: exactly when adding and then subtracting comes back
-/

namespace Props
open Kairos Spec

/-- A result of adding days in the year of the moment itself is exact. -/
theorem add_same_year {c : Cfg} (hc : Sane c) {m q : Moment} (hm : m.Valid c) (n : Int) (hn : 0 ≤ n) (hb : n < 4294967296)
    (e : calculate c (.moment m + .days n) = .ok (.moment q)) (hy : q.year = m.year) : q.instant = m.instant + n * 86400 := by
  have hc' := hc
  unfold Sane at hc'
  have hm' := hm
  obtain ⟨a1, a2, a3, t, a7⟩ := hm'
  obtain ⟨y', mo', d', e', cd⟩ := add_closed c hc hm .day (by decide) n hn (by omega)
  have e1 : calculate c (.moment m + amt .day n) = .ok (.moment q) := e
  rw [e'] at e1
  simp only [TUnit.secs] at e1 cd
  have hdoy := Cal.dayOfYear_bounds a3
  have hdn := Cal.dayNumber_eq m.year m.month m.day
  have hyl := Cal.yearLen_bounds m.year
  have tt := t
  unfold Cal.ValidTime at tt
  have hN : (m.instant + n * (24 * (60 * 60))) / 86400 - Cal.daysBeforeYear m.year =
      Cal.dayOfYear m.year m.month m.day + n := by
    unfold Moment.instant Cal.instant; omega
  rw [hN] at cd
  have small := codeDate_small cd (by omega) (by omega) (by omega)
  have tv := tod_valid (m.instant + n * (24 * (60 * 60)))
  rw [build_cases c (by simp only; omega) (by simp only; omega) (by simp only; omega) (by simp only; omega) tv] at e1
  split at e1
  · have hq := ok_moment_inj e1
    simp only at hq
    have hy' : y' = m.year := by rw [← hy, ← hq]
    by_cases hle : Cal.dayOfYear m.year m.month m.day + n ≤ Cal.yearLen m.year
    · obtain ⟨-, c1, c2⟩ := cd.1 hle
      have hdn' := Cal.dayNumber_eq m.year mo' d'
      subst hq
      show Cal.instant _ _ _ _ _ _ = _
      rw [hy']
      have := instant_of (y := m.year) (mo := mo') (d := d') (i := m.instant + n * (24 * (60 * 60))) (by omega)
      rw [this]
      omega
    · have := cd.2 (by omega)
      omega
  · cases e1

/-- If adding and then subtracting leads back, the addition was exact. -/
theorem there_and_back {c : Cfg} (hc : Sane c) {m q : Moment} (hm : m.Valid c) (hq : q.Valid c)
    (u : TUnit) (hu : u = .second ∨ u = .minute ∨ u = .hour ∨ u = .day) (n : Int) (hn : 0 ≤ n) (hb : n * u.secs ≤ 371085171523200)
    (e : calculate c (.moment m + amt u n) = .ok (.moment q)) (h2 : calculate c (.moment q - amt u n) = .ok (.moment m)) :
    q.instant = m.instant + n * u.secs := by
  by_cases hb' : 63 * 86400 ≤ n * u.secs
  · obtain ⟨_, _, _, _, _, _, e'⟩ := sub_too_far c hc hq u hu n hb' hb
    rw [e'] at h2; cases h2
  have hb2 : n < 4294967296 := by
    have hpos : 1 ≤ u.secs := by cases u <;> decide
    have := Int.mul_le_mul_of_nonneg_left hpos hn
    omega
  by_cases hshort : n * u.secs ≤ 30 * 86400
  · have hpos : 1 ≤ u.secs := by cases u <;> decide
    have h0 : 0 ≤ n * u.secs := Int.mul_nonneg hn (by omega)
    by_cases hlt : m.instant + n * u.secs < Cal.instant (c.maxYear + 1) 1 1 0 0 0
    · obtain ⟨p, p1, p2, p3⟩ := moment_exists hm (m.instant + n * u.secs) (by omega) hlt
      rw [C16_up_to_30_days_partial c hc m p hm p1 p2 u hu n hn hshort p3] at e
      rw [← ok_moment_inj e, p3]
    · obtain ⟨Y, M, D, H, MI, S, e'⟩ := C16_past_the_end_partial c hc m hm u hu n hn (by omega) (by omega)
      rw [e'] at e; cases e
  have tq := hq.2.2.2.1
  unfold Cal.ValidTime at tq
  by_cases hday : u = .day
  · subst hday
    simp only [TUnit.secs] at hshort ⊢
    have e' : calculate c (.moment m + .days n) = .ok (.moment q) := e
    have h2' : calculate c (.moment q - .days n) = .ok (.moment m) := h2
    obtain ⟨Y, M, hM, hprev⟩ : ∃ Y M, (1 ≤ M ∧ M ≤ 12) ∧ Cal.monthIndex Y M = Cal.monthIndex q.year q.month - 1 :=
      ⟨(Cal.monthIndex q.year q.month - 1) / 12, (Cal.monthIndex q.year q.month - 1) % 12 + 1, by omega,
        by unfold Cal.monthIndex; omega⟩
    rcases C21_days_partial c hc q hq n hn hb2 Y M hM hprev with ⟨g1, f⟩ | ⟨g1, g2, g3, g4, f⟩ | ⟨-, -, _, _, _, _, _, _, f⟩
    · rw [f] at h2'
      rw [← ok_moment_inj h2']
      unfold Moment.instant Cal.instant Cal.dayNumber
      simp only; omega
    · rw [f] at h2'
      have hmq := ok_moment_inj h2'
      by_cases hyy : q.year = m.year
      · have := add_same_year hc hm n hn hb2 e' hyy
        omega
      · -- over New Year: December has 31 days
        have hY : Y = m.year := by rw [← hmq]
        have q3 := hq.2.2.1.1
        have q4 := hq.2.2.1.2.1
        have hq1 : q.month = 1 ∧ M = 12 ∧ q.year = Y + 1 := by
          unfold Cal.monthIndex at hprev; omega
        rw [← hmq]
        unfold Moment.instant Cal.instant Cal.dayNumber
        simp only
        rw [hq1.1, hq1.2.1, hq1.2.2]
        have hs := Cal.daysBeforeYear_succ Y
        have h1 : Cal.daysBeforeMonth (Y + 1) 1 = 0 := by simp [Cal.daysBeforeMonth]
        have h12 : Cal.daysBeforeMonth Y 12 + 31 = Cal.yearLen Y := by
          unfold Cal.daysBeforeMonth Cal.yearLen; simp; split <;> omega
        omega
    · rw [f] at h2'; cases h2'
  · have hu' : (u = .second ∧ n ≠ q.second + 60) ∨ (u = .minute ∧ n ≠ q.minute + 60) ∨ (u = .hour ∧ n ≠ q.hour + 24) := by
      rcases hu with rfl | rfl | rfl | rfl
      · exact .inl ⟨rfl, by simp only [TUnit.secs] at hshort; omega⟩
      · exact .inr (.inl ⟨rfl, by simp only [TUnit.secs] at hshort; omega⟩)
      · exact .inr (.inr ⟨rfl, by simp only [TUnit.secs] at hshort; omega⟩)
      · exact absurd rfl hday
    rcases C21_exact_or_rejected_partial c hc q hq u n hn hb hu' with ⟨r, f, hr, -⟩ | ⟨_, _, _, _, _, _, f⟩
    · rw [f] at h2
      rw [← ok_moment_inj h2]; omega
    · rw [f] at h2; cases h2

/-- Where subtracting goes right and the addition does not lead to 31 January of the next year, adding is right as well. -/
theorem add_right_of_sub {c : Cfg} (hc : Sane c) {m m' : Moment} (hm : m.Valid c) (hm' : m'.Valid c)
    (hz' : m'.nano = 0) (u : TUnit) (hu : u = .second ∨ u = .minute ∨ u = .hour ∨ u = .day)
    (n : Int) (hn : 0 ≤ n) (hi : m'.instant = m.instant + n * u.secs) (h1 : SubRight m' m n u)
    (h2 : m'.year = m.year ∨ ¬ (m'.month = 1 ∧ m'.day = 31)) : calculate c (.moment m + amt u n) = .ok (.moment m') := by
  have hadd := C16_exact_iff_partial c hc m m' hm hm' hz' u hu n hn hi
  rw [hadd]
  rcases h2 with h2 | h2
  · exact .inl h2
  · by_cases hyy : m'.year = m.year
    · exact .inl hyy
    have t' := hm'.2.2.2.1
    unfold Cal.ValidTime at t'
    have short : n * u.secs ≤ 30 * 86400 → m'.year = m.year ∨ (m'.year = m.year + 1 ∧
        ((m'.month = 1 ∧ m'.day ≤ 30) ∨ (m'.month = 3 ∧ m'.day ≤ 30 ∧ Cal.isLeap m'.year = true) ∨
         (m'.month = 4 ∧ Cal.isLeap m'.year = false) ∨ (m'.month = 5 ∧ m'.day ≤ 30 ∧ Cal.isLeap m'.year = false))) :=
      fun hs => hadd.1 (C16_up_to_30_days_partial c hc m m' hm hm' hz' u hu n hn hs hi)
    rcases hu with rfl | rfl | rfl | rfl
    · exact short (by have := h1.1; simp only [TUnit.secs]; omega)
    · exact short (by have := h1.1; simp only [TUnit.secs]; omega)
    · exact short (by
        simp only [TUnit.secs]
        rcases h1 with h1 | h1
        · have := h1.1; omega
        · have := h1.1; omega)
    · right
      have m3 := hm.2.2.1.1
      have m4 := hm.2.2.1.2.1
      have n3 := hm'.2.2.1.1
      have n4 := hm'.2.2.1.2.1
      have ml := Cal.monthLen_bounds (y := m'.year) n3 n4
      have n6 := hm'.2.2.1.2.2.2
      rcases h1 with h1 | ⟨h1, -⟩
      · exact absurd h1.1.symm hyy
      · unfold Cal.monthIndex at h1
        have : m'.month = 1 ∧ m'.year = m.year + 1 := by omega
        exact ⟨this.2, .inl ⟨this.1, by omega⟩⟩

/-- **C24, exactly when it holds (partial)**, for any number of seconds, minutes, hours or days. `m'` is the
date-time `n` units after `m`: `(m + n) - n` is `m` again if and only if subtracting from `m'` goes right, and the addition
does not lead to 31 January of the next year. -/
theorem C24_any_amount_iff_partial (c : Cfg) (hc : Sane c) (m m' : Moment) (hm : m.Valid c) (hm' : m'.Valid c)
    (hz : m.nano = 0) (hz' : m'.nano = 0) (u : TUnit) (hu : u = .second ∨ u = .minute ∨ u = .hour ∨ u = .day)
    (n : Int) (hn : 0 ≤ n) (hi : m'.instant = m.instant + n * u.secs) :
    calculate c (.moment m + amt u n - amt u n) = .ok (.moment m) ↔
      SubRight m' m n u ∧ (m'.year = m.year ∨ ¬ (m'.month = 1 ∧ m'.day = 31)) := by
  have hpos : 1 ≤ u.secs := by cases u <;> decide
  have hsub := C21_exact_iff_partial c hc m' m hm' hm hz u hu n hn (by omega)
  have hadd := C16_exact_iff_partial c hc m m' hm hm' hz' u hu n hn hi
  rw [(C07_chain_partial c (.moment m) (amt u n) u n).2.1]
  constructor
  · intro h
    rw [OutE.bind_eq_ok] at h
    obtain ⟨v, h1, h2⟩ := h
    have hk : kind (.moment m + amt u n) = some .moment := by cases u <;> rfl
    rcases C76_moments c _ hk with ⟨q, e⟩ | ⟨y, mo, d, hh, mi, s, e⟩ | ⟨e, -⟩ <;> rw [e] at h1 <;> cases h1
    have hq : q.Valid c := C15_results_are_dates c _ q (by
      simp only [TT.hadd_def, AllMoments]; exact ⟨hm, by cases u <;> trivial⟩) e
    have hqn : q.nano = 0 := C15_whole_seconds c _ q (by
      simp only [TT.hadd_def, AllMoments]; exact ⟨⟨hm, hz⟩, by cases u <;> trivial⟩) e
    -- it is enough that the sum is exact
    suffices hqi : q.instant = m.instant + n * u.secs by
      have hqm : q = m' := by
        obtain ⟨e1, e2, e3, e4, e5, e6⟩ := Cal.instant_inj hq.2.2.1 hm'.2.2.1 hq.2.2.2.1 hm'.2.2.2.1
          (show q.instant = m'.instant by omega)
        cases q; cases m'; simp only at *; simp [*]
      subst hqm
      refine ⟨hsub.1 h2, ?_⟩
      have := hadd.1 e
      omega
    exact there_and_back hc hm hq u hu n hn (by have := instants_close hc hm' hm; omega) e h2
  · rintro ⟨h1, h2⟩
    rw [add_right_of_sub hc hm hm' hz' u hu n hn hi h1 h2, OutE.ok_bind]
    exact hsub.2 h1

/-- 61 days from 1 July to 31 August and back; 31 days from 31 December do not come back, as the addition goes wrong. -/
example : SubRight (at_ 2017 8 31 0 0 0) (at_ 2017 7 1 0 0 0) 61 .day ∧
    calculate (std .debug) (.moment (at_ 2017 7 1 0 0 0) + .days 61 - .days 61) = .ok (.moment (at_ 2017 7 1 0 0 0)) ∧
    SubRight (at_ 2018 1 31 0 0 0) (at_ 2017 12 31 0 0 0) 31 .day ∧
    calculate (std .debug) (.moment (at_ 2017 12 31 0 0 0) + .days 31 - .days 31) = .ok (.moment (at_ 2018 1 1 0 0 0)) := by
  refine ⟨.inr ⟨by decide, by decide⟩, by decide +kernel, .inr ⟨by decide, by decide⟩, by decide +kernel⟩

/-- **C24, months, exactly when it holds (partial).** `(Y, M)` is the month `n` months after that of `m`. `(m + n) - n` is
`m` again if and only if that month has the day of `m`, is in chrono's range, is in the same year if `m` is on a 31st,
and fewer than `M + 12` months are added. For more than 4·10^9 months see `C24_every_month_iff_partial`. -/
theorem C24_months_iff_partial (c : Cfg) (hc : Sane c) (m : Moment) (hm : m.Valid c) (hz : m.nano = 0) (n : Int)
    (hn : 0 ≤ n) (hmax : n ≤ 4000000000) (Y M : Int) (hM : 1 ≤ M ∧ M ≤ 12)
    (hi : Cal.monthIndex Y M = Cal.monthIndex m.year m.month + n) :
    calculate c (.moment m + .months n - .months n) = .ok (.moment m) ↔
      Y ≤ c.maxYear ∧ m.day ≤ Cal.monthLen Y M ∧ (m.day ≤ 30 ∨ Y = m.year) ∧ n < M + 12 := by
  have ch := (C07_chain_partial c (.moment m) (.months n) .month n).2.1
  simp only [amt] at ch
  rw [ch]
  have hm' := hm
  obtain ⟨a1, a2, ⟨a3, a4, a5, a6⟩, t, a7⟩ := hm'
  have hi' := hi
  unfold Cal.monthIndex at hi'
  constructor
  · intro h
    rw [OutE.bind_eq_ok] at h
    obtain ⟨v, h1, h2⟩ := h
    rcases C76_moments c (.moment m + .months n) rfl with ⟨q, e⟩ | ⟨y, mo, d, hh, mi, s, e⟩ | ⟨e, -⟩ <;> rw [e] at h1 <;> cases h1
    have hq : q.Valid c := C15_results_are_dates c _ q (by
      simp only [TT.hadd_def, AllMoments]; exact ⟨hm, trivial⟩) e
    have hqn : q.nano = 0 := C15_whole_seconds c _ q (by
      simp only [TT.hadd_def, AllMoments]; exact ⟨⟨hm, hz⟩, trivial⟩) e
    have hq' := hq
    obtain ⟨b1, b2, ⟨b3, b4, b5, b6⟩, t', b7⟩ := hq'
    have key : ∃ Y' M', (1 ≤ M' ∧ M' ≤ 12) ∧ Cal.monthIndex Y' M' = Cal.monthIndex q.year q.month - n :=
      ⟨(Cal.monthIndex q.year q.month - n) / 12, (Cal.monthIndex q.year q.month - n) % 12 + 1, by omega,
        by unfold Cal.monthIndex; omega⟩
    obtain ⟨Y', M', hM', hi2⟩ := key
    rcases C22_subtracting_months_partial c hc q hq n hn (by omega) Y' M' hM' hi2 with ⟨g1, g2, g3, f⟩ | ⟨-, _, _, _, _, _, _, f⟩
    · rw [f] at h2
      have hqm := ok_moment_inj h2
      have hY : Y' = m.year := by rw [← hqm]
      have hMM : M' = m.month := by rw [← hqm]
      unfold Cal.monthIndex at hi2
      have ey : q.year = Y ∧ q.month = M := by omega
      have hqe : q = { m with year := q.year, month := q.month, nano := 0 } := by
        rw [← hqm]; cases q; simp only at hqn; subst hqn; rfl
      have hd : q.day = m.day := by rw [← hqm]
      have := (C17_exact_iff_partial c hc m q hm hq n hn (by unfold Cal.monthIndex; omega) hqe).1 e
      rw [ey.1, ey.2, hd] at b6
      exact ⟨by omega, b6, by omega, by omega⟩
    · rw [f] at h2; cases h2
  · rintro ⟨h1, h2, h3, h4⟩
    have hv : ({ m with year := Y, month := M, nano := 0 } : Moment).Valid c :=
      ⟨by simp only; omega, h1, ⟨hM.1, hM.2, a5, h2⟩, t, by simp, by simp⟩
    rw [(C17_exact_iff_partial c hc m { m with year := Y, month := M, nano := 0 } hm hv n hn hi rfl).2 h3, OutE.ok_bind]
    rcases C22_subtracting_months_partial c hc _ hv n hn (by omega) m.year m.month ⟨a3, a4⟩ (by simp only; omega) with
      ⟨-, -, -, h⟩ | ⟨h, -⟩
    · rw [h]
      congr 2; cases m; simp only at hz; subst hz; rfl
    · simp only at h; omega

/-- There and back: 13 months from 30 November 2016 (December plus 12 are more), but not from 30 December 2017 (January
plus 12 are not), nor a month from 31 December. -/
example : calculate (std .debug) (.moment (at_ 2016 11 30 0 0 0) + .months 13 - .months 13) = .ok (.moment (at_ 2016 11 30 0 0 0)) ∧
    calculate (std .debug) (.moment (at_ 2017 12 30 0 0 0) + .months 13 - .months 13) ≠ .ok (.moment (at_ 2017 12 30 0 0 0)) ∧
    calculate (std .debug) (.moment (at_ 2017 12 31 0 0 0) + .months 1 - .months 1) ≠ .ok (.moment (at_ 2017 12 31 0 0 0)) := by
  decide +kernel

/-- **C24, years, exactly when it holds**: not from 29 February into a common year. The year reached must be in chrono's
range. -/
theorem C24_years_iff_partial (c : Cfg) (hc : Sane c) (m : Moment) (hm : m.Valid c) (hz : m.nano = 0) (n : Int)
    (hn : -2000000000 ≤ n) (hmax : n ≤ 2000000000) :
    calculate c (.moment m + .years n - .years n) = .ok (.moment m) ↔
      c.minYear ≤ m.year + n ∧ m.year + n ≤ c.maxYear ∧
        ¬ (m.month = 2 ∧ m.day = 29 ∧ Cal.isLeap (m.year + n) = false) := by
  have ch := (C07_chain_partial c (.moment m) (.years n) .year n).2.1
  simp only [amt] at ch
  rw [ch]
  have hc' := hc
  unfold Sane at hc'
  have hm' := hm
  obtain ⟨a1, a2, ⟨a3, a4, a5, a6⟩, t, a7⟩ := hm'
  have f := C18_adding_years_partial c m hm n (by omega) (by omega)
  rw [f]
  by_cases h1 : m.year + n < c.minYear ∨ c.maxYear < m.year + n
  · rw [if_pos h1]
    exact ⟨fun h => (by cases h), fun h => (by omega)⟩
  rw [if_neg h1]
  have ey : m.year + n - n = m.year := by omega
  by_cases h2 : m.month = 2 ∧ m.day = 29 ∧ Cal.isLeap (m.year + n) = false
  · rw [if_pos h2, OutE.ok_bind]
    have hv : ({ m with year := m.year + n, month := 3, day := 1, nano := 0 } : Moment).Valid c :=
      ⟨by simp only; omega, by simp only; omega, by simp [Cal.ValidDate, Cal.monthLen], t, by simp, by simp⟩
    have g := C23_subtracting_years_partial c _ hv n (by simp only; omega) (by simp only; omega)
    simp only [ey] at g
    rw [g]
    refine ⟨fun h => ?_, fun h => absurd h2 h.2.2⟩
    split at h
    · have := ok_moment_inj h
      have e3 : (3 : Int) = m.month := by rw [← this]
      omega
    · cases h
  · rw [if_neg h2, OutE.ok_bind]
    refine ⟨fun _ => ⟨by omega, by omega, h2⟩, fun _ => ?_⟩
    have hle : m.day ≤ Cal.monthLen (m.year + n) m.month := by
      by_cases h : m.month = 2
      · rw [h] at a6 ⊢
        unfold Cal.monthLen at a6 ⊢
        simp at a6 ⊢
        by_cases h29 : m.day = 29
        · have : Cal.isLeap (m.year + n) = true := by simpa using fun hh => h2 ⟨h, h29, hh⟩
          rw [this]; simp; omega
        · split at a6 <;> split <;> omega
      · have : Cal.monthLen (m.year + n) m.month = Cal.monthLen m.year m.month := by unfold Cal.monthLen; simp [h]
        omega
    have hv : ({ m with year := m.year + n, nano := 0 } : Moment).Valid c :=
      ⟨by simp only; omega, by simp only; omega, ⟨a3, a4, a5, hle⟩, t, by simp, by simp⟩
    have g := C23_subtracting_years_partial c _ hv n (by simp only; omega) (by simp only; omega)
    simp only [ey] at g
    rw [g, if_pos ⟨a1, a2, a3, a4, a5, a6⟩]
    congr 2; cases m; simp only at hz; subst hz; rfl

example : calculate (std .debug) (.moment (at_ 2016 2 29 0 0 0) + .years (-4) - .years (-4)) = .ok (.moment (at_ 2016 2 29 0 0 0)) ∧
    Cal.isLeap (2016 + -4) = true := by decide +kernel

end Props
