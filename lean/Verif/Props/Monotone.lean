import Verif.Props.Laws
import Verif.Lemmas.CalExists

/-! Larger amounts lead further (C81), and the same amount keeps the order of moments (C82). -/

namespace Props
open Kairos Spec

/-! ## C81 -/

/-- A moment with a lexicographically smaller date and time is earlier. -/
private theorem later {c : Cfg} {m r : Moment} (hm : m.Valid c) (hr : r.Valid c)
    (h : m.year < r.year ∨ m.year = r.year ∧ (m.month < r.month ∨ m.month = r.month ∧ (m.day < r.day ∨ m.day = r.day ∧
      (m.hour < r.hour ∨ m.hour = r.hour ∧ (m.minute < r.minute ∨ m.minute = r.minute ∧ m.second < r.second))))) :
    m.instant < r.instant := by
  have t := hm.2.2.2.1; have t' := hr.2.2.2.1
  unfold Cal.ValidTime at t t'
  by_cases hd : m.year < r.year ∨ m.year = r.year ∧ (m.month < r.month ∨ m.month = r.month ∧ m.day < r.day)
  · have := Cal.dayNumber_lt hm.2.2.1 hr.2.2.1 hd
    unfold Moment.instant Cal.instant; omega
  · have e : m.year = r.year ∧ m.month = r.month ∧ m.day = r.day := by omega
    unfold Moment.instant Cal.instant
    rw [e.1, e.2.1, e.2.2]; omega

private theorem added_valid {c : Cfg} {m r : Moment} {u : TUnit} {n : Int}
    (h : calculate c (.moment m + amt u n) = .ok (.moment r)) : r.Valid c := by
  rw [calc_add_moment, exec_addToMoment] at h
  have : ∃ p, Eval.buildMoment c p = .ok (.moment r) := by
    cases u <;> simp only [amt, Eval.addToMoment, OutE.bind_eq_ok] at h <;>
      (obtain ⟨_, -, p, -, h⟩ := h; exact ⟨p, h⟩)
  obtain ⟨p, hp⟩ := this
  obtain ⟨r', e, -, hb⟩ := buildMoment_ok hp
  cases e; exact hb.1

private theorem tod_lex {i1 i2 : Int} (h : i1 < i2) (hq : i1 / 86400 = i2 / 86400) :
    i1 / 3600 % 24 < i2 / 3600 % 24 ∨ i1 / 3600 % 24 = i2 / 3600 % 24 ∧
      (i1 / 60 % 60 < i2 / 60 % 60 ∨ i1 / 60 % 60 = i2 / 60 % 60 ∧ i1 % 60 < i2 % 60) := by
  have k1 : i1 / 3600 / 24 = i1 / 86400 := by omega
  have k2 : i2 / 3600 / 24 = i2 / 86400 := by omega
  have k3 : i1 / 60 / 60 = i1 / 3600 := by omega
  have k4 : i2 / 60 / 60 = i2 / 3600 := by omega
  omega

private theorem monthDate_lex {y t₁ t₂ d : Int} (h1 : 1 ≤ t₁) (h : t₁ < t₂) (hd1 : 1 ≤ d) (hd2 : d ≤ 31) :
    (monthDate y t₁ d).1 < (monthDate y t₂ d).1 ∨ (monthDate y t₁ d).1 = (monthDate y t₂ d).1 ∧
      ((monthDate y t₁ d).2.1 < (monthDate y t₂ d).2.1 ∨ (monthDate y t₁ d).2.1 = (monthDate y t₂ d).2.1 ∧
        (monthDate y t₁ d).2.2 < (monthDate y t₂ d).2.2) := by
  have e (t : Int) (ht : 1 ≤ t) : (t ≤ 12 ∧ d ≤ Cal.monthLen y t ∧ monthDate y t d = (y, t, d)) ∨
      (t ≤ 11 ∧ 28 ≤ Cal.monthLen y t ∧ Cal.monthLen y t < d ∧ monthDate y t d = (y, t + 1, d - Cal.monthLen y t)) ∨
      (13 ≤ t ∧ d ≤ 30 ∧ monthDate y t d = (y + (t - 1) / 12, (t - 1) % 12 + 1, d)) ∨
      (13 ≤ t ∧ d = 31 ∧ monthDate y t d = (y + t / 12, t % 12 + 1, 1)) := by
    unfold monthDate
    by_cases h12 : t ≤ 12
    · have b := Cal.monthLen_bounds (y := y) ht h12
      rw [if_pos h12]
      by_cases hl : d ≤ Cal.monthLen y t
      · rw [if_pos hl]; exact .inl ⟨h12, hl, rfl⟩
      · rw [if_neg hl]
        refine .inr (.inl ⟨?_, b.1, by omega, rfl⟩)
        by_cases h : t = 12
        · subst h; simp [Cal.monthLen] at hl; omega
        · omega
    · rw [if_neg h12]
      by_cases hl : d ≤ 30
      · rw [if_pos hl]; exact .inr (.inr (.inl ⟨by omega, hl, rfl⟩))
      · rw [if_neg hl]; exact .inr (.inr (.inr ⟨by omega, by omega, by rw [show d - 30 = 1 by omega]⟩))
  rcases e t₁ h1 with ⟨p1, p2, p3⟩ | ⟨p1, p2, p4, p3⟩ | ⟨p1, p2, p3⟩ | ⟨p1, p2, p3⟩ <;>
  rcases e t₂ (by omega) with ⟨q1, q2, q3⟩ | ⟨q1, q2, q4, q3⟩ | ⟨q1, q2, q3⟩ | ⟨q1, q2, q3⟩ <;>
    rw [p3, q3] <;> simp only [true_and] <;> omega

/-- Adding to two moments of the same year keeps the order of the exact results. -/
private theorem add_order {c : Cfg} (hc : Sane c) {m m' r₁ r₂ : Moment} (hm : m.Valid c) (hm' : m'.Valid c) (hyy : m'.year = m.year)
    {u v : TUnit} (hu : u.secs ≤ 86400) (hv : v.secs ≤ 86400) {n₁ n₂ : Int} (h01 : 0 ≤ n₁) (h02 : 0 ≤ n₂)
    (hmax1 : n₁ * u.secs ≤ 133500000000000000) (hmax2 : n₂ * v.secs ≤ 133500000000000000)
    (hi : m.instant + n₁ * u.secs < m'.instant + n₂ * v.secs)
    (h₁ : calculate c (.moment m + amt u n₁) = .ok (.moment r₁))
    (h₂ : calculate c (.moment m' + amt v n₂) = .ok (.moment r₂)) : r₁.instant < r₂.instant := by
  have hc' := hc
  unfold Sane at hc'
  have hr₁ := added_valid h₁
  have hr₂ := added_valid h₂
  have hp1 : 0 < u.secs := by cases u <;> decide
  have hp2 : 0 < v.secs := by cases v <;> decide
  have y1 := hm.1; have y2 := hm.2.1
  have t := hm.2.2.2.1; have t' := hm'.2.2.2.1
  have hnn1 : n₁ ≤ n₁ * u.secs := by
    have := Int.mul_le_mul_of_nonneg_left (a := 1) (b := u.secs) (c := n₁) (by omega) (by omega); omega
  have hnn2 : n₂ ≤ n₂ * v.secs := by
    have := Int.mul_le_mul_of_nonneg_left (a := 1) (b := v.secs) (c := n₂) (by omega) (by omega); omega
  obtain ⟨y1, mo1, d1, e1, cd1⟩ := add_closed c hc hm u hu n₁ h01 (by omega)
  obtain ⟨y2, mo2, d2, e2, cd2⟩ := add_closed c hc hm' v hv n₂ h02 (by omega)
  rw [hyy] at cd2
  obtain ⟨p1, p2, p3, p4⟩ := tod_of_instant t
  obtain ⟨p1', p2', p3', p4'⟩ := tod_of_instant t'
  have l1 := Cal.dayOfYear_bounds hm.2.2.1
  have l1' := Cal.dayOfYear_bounds hm'.2.2.1
  have yl := Cal.yearLen_bounds m.year
  have dy := Cal.dayNumber_eq m.year m.month m.day
  have dy' := Cal.dayNumber_eq m'.year m'.month m'.day
  rw [hyy] at l1' dy' p4'
  have s1 := codeDate_far cd1 (by omega) (by omega) (by omega)
  have s2 := codeDate_far cd2 (by omega) (by omega) (by omega)
  rw [e1, build_far c hc s1.1 s1.2.1 (by simp only; omega) (by simp only; omega) (tod_valid _)] at h₁
  rw [e2, build_far c hc s2.1 s2.2.1 (by simp only; omega) (by simp only; omega) (tod_valid _)] at h₂
  split at h₁
  · split at h₂
    · have e1 := ok_moment_inj h₁
      have e2 := ok_moment_inj h₂
      obtain ⟨c1, c2⟩ := cd1
      obtain ⟨c3, c4⟩ := cd2
      generalize hi1 : m.instant + n₁ * u.secs = i1 at *
      generalize hi2 : m'.instant + n₂ * v.secs = i2 at *
      by_cases b1 : i1 / 86400 - Cal.daysBeforeYear m.year ≤ Cal.yearLen m.year <;>
        by_cases b2 : i2 / 86400 - Cal.daysBeforeYear m.year ≤ Cal.yearLen m.year
      · obtain ⟨rfl, v1, dn1⟩ := c1 b1
        obtain ⟨rfl, v2, dn2⟩ := c3 b2
        have q1 : r₁.instant = i1 := by
          rw [← e1]; exact instant_of (by simp only; rw [Cal.dayNumber_eq]; omega)
        have q2 : r₂.instant = i2 := by
          rw [← e2]; exact instant_of (by simp only; rw [Cal.dayNumber_eq]; omega)
        omega
      · obtain ⟨rfl, v1, dn1⟩ := c1 b1
        refine later hr₁ hr₂ (.inl ?_)
        have := (c4 (by omega)).1
        rw [← e1, ← e2]; simp only; omega
      · exfalso
        have : i1 / 86400 ≤ i2 / 86400 := Int.ediv_le_ediv (by decide) (by omega)
        omega
      · obtain ⟨f1, f2, f3⟩ := c2 (by omega)
        obtain ⟨g1, g2, g3⟩ := c4 (by omega)
        refine later hr₁ hr₂ ?_
        rw [← e1, ← e2]
        simp only [todH, todM, todS]
        have : i1 / 86400 ≤ i2 / 86400 := Int.ediv_le_ediv (by decide) (by omega)
        by_cases hq : i1 / 86400 = i2 / 86400
        · rw [← hq] at g1 g2 g3
          have := tod_lex hi hq
          omega
        · have hj : i1 / 86400 - Cal.daysBeforeYear m.year - Cal.yearLen m.year - 1 <
              i2 / 86400 - Cal.daysBeforeYear m.year - Cal.yearLen m.year - 1 := by omega
          clear e1 e2 h₁ h₂ c1 c2 c3 c4
          generalize i1 / 86400 - Cal.daysBeforeYear m.year - Cal.yearLen m.year - 1 = j1 at *
          generalize i2 / 86400 - Cal.daysBeforeYear m.year - Cal.yearLen m.year - 1 = j2 at *
          have k1 : j1 / 360 = j1 / 30 / 12 := by omega
          have k2 : j2 / 360 = j2 / 30 / 12 := by omega
          omega
    · cases h₂
  · cases h₁

/-- **C81 (partial), adding.** Of two amounts of the same unit, the larger one leads to the later
moment, if both can be added. Any unit, amounts from 0 to 4.29 billion years. Missing: larger
amounts, see `C81_refuted`. -/
theorem C81_adding_more_partial (c : Cfg) (hc : Sane c) (m r₁ r₂ : Moment) (hm : m.Valid c) (u : TUnit) (n₁ n₂ : Int)
    (h0 : 0 ≤ n₁) (hn : n₁ < n₂) (hmax : n₂ * u.secs ≤ 133500000000000000)
    (h₁ : calculate c (.moment m + amt u n₁) = .ok (.moment r₁))
    (h₂ : calculate c (.moment m + amt u n₂) = .ok (.moment r₂)) : r₁.instant < r₂.instant := by
  have hc' := hc
  unfold Sane at hc'
  have hm' := hm
  obtain ⟨a1, a2, ⟨a3, a4, a5, a6⟩, t, a7⟩ := hm'
  have ml := Cal.monthLen_bounds (y := m.year) a3 a4
  have hr₁ := added_valid h₁
  have hr₂ := added_valid h₂
  have hpos : 0 < u.secs := by cases u <;> decide
  have hlt : n₁ * u.secs < n₂ * u.secs := Int.mul_lt_mul_of_pos_right hn hpos
  by_cases hu1 : u = .year
  · subst hu1
    simp only [TUnit.secs, amt] at *
    have e1 := far_year c hc hm n₁ (by omega) (by omega) h₁
    have e2 := far_year c hc hm n₂ (by omega) (by omega) h₂
    exact later hr₁ hr₂ (.inl (by omega))
  by_cases hu2 : u = .month
  · subst hu2
    simp only [TUnit.secs, amt] at *
    have s1 := monthDate_far (y := m.year) (t := m.month + n₁) (d := m.day) (by omega) (by omega) (by omega) (by omega) a5 (by omega)
    have s2 := monthDate_far (y := m.year) (t := m.month + n₂) (d := m.day) (by omega) (by omega) (by omega) (by omega) a5 (by omega)
    rw [addMonths_closed c hc hm n₁ (by omega) (by omega),
      build_far c hc s1.1 s1.2.1 (by simp only; omega) (by simp only; omega) t] at h₁
    rw [addMonths_closed c hc hm n₂ (by omega) (by omega),
      build_far c hc s2.1 s2.2.1 (by simp only; omega) (by simp only; omega) t] at h₂
    split at h₁
    · split at h₂
      · have e1 := ok_moment_inj h₁
        have e2 := ok_moment_inj h₂
        refine later hr₁ hr₂ ?_
        rw [← e1, ← e2]
        have := monthDate_lex (y := m.year) (t₁ := m.month + n₁) (t₂ := m.month + n₂) (d := m.day)
          (by omega) (by omega) a5 (by omega)
        simp only
        omega
      · cases h₂
    · cases h₁
  · have hus : u.secs ≤ 86400 := by cases u <;> simp [TUnit.secs] at hu1 hu2 ⊢
    have hnn0 : 0 ≤ n₁ * u.secs := Int.mul_nonneg h0 (by omega)
    exact add_order hc hm hm rfl hus hus h0 (by omega) (by omega) (by omega) (by omega) h₁ h₂

example := C81_adding_more_partial (std .debug) (sane_std _) (at_ 2017 1 31 0 0 0) (at_ 2017 3 3 0 0 0) (at_ 2017 3 31 0 0 0) (by decide) .month 1 2
  (by decide) (by decide) (by decide) (by decide +kernel) (by decide +kernel)

/-- **C81 (partial), adding, across units.** Also of two amounts of different units up to days (23 hours
and one day) the longer one leads to the later moment. -/
theorem C81_adding_longer_partial (c : Cfg) (hc : Sane c) (m r₁ r₂ : Moment) (hm : m.Valid c) (u₁ u₂ : TUnit)
    (hu₁ : u₁.secs ≤ 86400) (hu₂ : u₂.secs ≤ 86400) (n₁ n₂ : Int) (h0 : 0 ≤ n₁) (h0' : 0 ≤ n₂)
    (hn : n₁ * u₁.secs < n₂ * u₂.secs) (hmax : n₂ * u₂.secs ≤ 133500000000000000)
    (h₁ : calculate c (.moment m + amt u₁ n₁) = .ok (.moment r₁))
    (h₂ : calculate c (.moment m + amt u₂ n₂) = .ok (.moment r₂)) : r₁.instant < r₂.instant :=
  add_order hc hm hm rfl hu₁ hu₂ h0 h0' (by omega) (by omega) (by omega) h₁ h₂

example := C81_adding_longer_partial (std .debug) (sane_std _) (at_ 2017 1 31 0 0 0) (at_ 2017 1 31 23 0 0) (at_ 2017 2 1 0 0 0) (by decide) .hour .day
  (by decide) (by decide) 23 1 (by decide) (by decide) (by decide) (by decide) (by decide +kernel) (by decide +kernel)

/-- One borrow step: a smaller component borrows more, or as much and is left smaller. -/
private theorem borrow_lex {b₁ b₂ low div top next : Int} (hdiv : 1 ≤ div) (hl : low = 0 ∨ low = 1) (h : b₁ < b₂) :
    (bP b₁ low div top next).1 < (bP b₂ low div top next).1 ∨
    ((bP b₁ low div top next).1 = (bP b₂ low div top next).1 ∧ (bP b₁ low div top next).2 < (bP b₂ low div top next).2) := by
  unfold bP
  by_cases h1 : b₁ < low
  · have q1 : 0 ≤ (-b₁) / div := Int.ediv_nonneg (by omega) (by omega)
    by_cases h2 : b₂ < low
    · have q2 : (-b₂) / div ≤ (-b₁) / div := Int.ediv_le_ediv (by omega) (by omega)
      rw [if_pos h1, if_pos h2]; simp only; omega
    · rw [if_pos h1, if_neg h2]; simp only; omega
  · rw [if_neg h1, if_neg (by omega)]; simp only [true_and]; omega

/-- `p` is lexicographically smaller than `q`. -/
private def Lex (p q : Parts) : Prop :=
  p.y < q.y ∨ p.y = q.y ∧ (p.mo < q.mo ∨ p.mo = q.mo ∧ (p.d < q.d ∨ p.d = q.d ∧
      (p.h < q.h ∨ p.h = q.h ∧ (p.mi < q.mi ∨ p.mi = q.mi ∧ p.s < q.s))))

private theorem lex_subP {m : Moment} (u : TUnit) {n₁ n₂ : Int} (h : n₁ < n₂) :
    Lex (subP (subComp m u n₂)) (subP (subComp m u n₁)) := by
  have lvl5 (a b y : Int) (h : a < b) : (bP a 1 13 12 y).1 < (bP b 1 13 12 y).1 ∨
      ((bP a 1 13 12 y).1 = (bP b 1 13 12 y).1 ∧ (bP a 1 13 12 y).2 < (bP b 1 13 12 y).2) :=
    borrow_lex (by decide) (.inr rfl) h
  have lvl4 (a b mo : Int) (h : a < b) : (bP a 1 32 31 mo).1 < (bP b 1 32 31 mo).1 ∨
      ((bP a 1 32 31 mo).1 = (bP b 1 32 31 mo).1 ∧ (bP a 1 32 31 mo).2 < (bP b 1 32 31 mo).2) :=
    borrow_lex (by decide) (.inr rfl) h
  have lvl3 (a b d : Int) (h : a < b) : (bP a 0 24 24 d).1 < (bP b 0 24 24 d).1 ∨
      ((bP a 0 24 24 d).1 = (bP b 0 24 24 d).1 ∧ (bP a 0 24 24 d).2 < (bP b 0 24 24 d).2) :=
    borrow_lex (by decide) (.inl rfl) h
  have lvl2 (a b x : Int) (h : a < b) : (bP a 0 60 60 x).1 < (bP b 0 60 60 x).1 ∨
      ((bP a 0 60 60 x).1 = (bP b 0 60 60 x).1 ∧ (bP a 0 60 60 x).2 < (bP b 0 60 60 x).2) :=
    borrow_lex (by decide) (.inl rfl) h
  -- from the level of months up, of days up, …
  have M (a b d h mi s d' h' mi' s' y : Int) (hab : a < b) :
      Lex ⟨(bP a 1 13 12 y).1, (bP a 1 13 12 y).2, d, h, mi, s⟩ ⟨(bP b 1 13 12 y).1, (bP b 1 13 12 y).2, d', h', mi', s'⟩ := by
    rcases lvl5 a b y hab with q | ⟨q1, q2⟩
    · exact .inl q
    · exact .inr ⟨q1, .inl q2⟩
  have D (a b h mi s h' mi' s' mo y : Int) (hab : a < b) :
      Lex ⟨(bP (bP a 1 32 31 mo).1 1 13 12 y).1, (bP (bP a 1 32 31 mo).1 1 13 12 y).2, (bP a 1 32 31 mo).2, h, mi, s⟩
        ⟨(bP (bP b 1 32 31 mo).1 1 13 12 y).1, (bP (bP b 1 32 31 mo).1 1 13 12 y).2, (bP b 1 32 31 mo).2, h', mi', s'⟩ := by
    rcases lvl4 a b mo hab with q | ⟨q1, q2⟩
    · exact M _ _ _ _ _ _ _ _ _ _ _ q
    · rw [q1]; exact .inr ⟨rfl, .inr ⟨rfl, .inl q2⟩⟩
  have H (a b mi s mi' s' d mo y : Int) (hab : a < b) :
      Lex ⟨(bP (bP (bP a 0 24 24 d).1 1 32 31 mo).1 1 13 12 y).1, (bP (bP (bP a 0 24 24 d).1 1 32 31 mo).1 1 13 12 y).2,
          (bP (bP a 0 24 24 d).1 1 32 31 mo).2, (bP a 0 24 24 d).2, mi, s⟩
        ⟨(bP (bP (bP b 0 24 24 d).1 1 32 31 mo).1 1 13 12 y).1, (bP (bP (bP b 0 24 24 d).1 1 32 31 mo).1 1 13 12 y).2,
          (bP (bP b 0 24 24 d).1 1 32 31 mo).2, (bP b 0 24 24 d).2, mi', s'⟩ := by
    rcases lvl3 a b d hab with q | ⟨q1, q2⟩
    · exact D _ _ _ _ _ _ _ _ _ _ q
    · rw [q1]; exact .inr ⟨rfl, .inr ⟨rfl, .inr ⟨rfl, .inl q2⟩⟩⟩
  cases u
  · -- seconds
    simp only [subComp, subP]
    rcases lvl2 (m.second - n₂) (m.second - n₁) m.minute (by omega) with q | ⟨q1, q2⟩
    · rcases lvl2 _ _ m.hour q with r | ⟨r1, r2⟩
      · exact H _ _ _ _ _ _ _ _ _ r
      · rw [r1]; exact .inr ⟨rfl, .inr ⟨rfl, .inr ⟨rfl, .inr ⟨rfl, .inl r2⟩⟩⟩⟩
    · rw [q1]; exact .inr ⟨rfl, .inr ⟨rfl, .inr ⟨rfl, .inr ⟨rfl, .inr ⟨rfl, q2⟩⟩⟩⟩⟩
  · -- minutes
    simp only [subComp, subP]
    have q : (bP m.second 0 60 60 (m.minute - n₂)).1 < (bP m.second 0 60 60 (m.minute - n₁)).1 := by
      unfold bP; split <;> simp only <;> omega
    rcases lvl2 _ _ m.hour q with r | ⟨r1, r2⟩
    · exact H _ _ _ _ _ _ _ _ _ r
    · rw [r1]; exact .inr ⟨rfl, .inr ⟨rfl, .inr ⟨rfl, .inr ⟨rfl, .inl r2⟩⟩⟩⟩
  · -- hours
    simp only [subComp, subP]
    refine H _ _ _ _ _ _ _ _ _ ?_
    generalize (bP m.second 0 60 60 m.minute).1 = b
    unfold bP; split <;> simp only <;> omega
  · -- days
    simp only [subComp, subP]
    refine D _ _ _ _ _ _ _ _ _ _ ?_
    generalize (bP (bP m.second 0 60 60 m.minute).1 0 60 60 m.hour).1 = b
    unfold bP; split <;> simp only <;> omega
  · -- months
    simp only [subComp, subP]
    refine M _ _ _ _ _ _ _ _ _ _ _ ?_
    generalize (bP (bP (bP m.second 0 60 60 m.minute).1 0 60 60 m.hour).1 0 24 24 m.day).1 = b
    unfold bP; split <;> simp only <;> omega
  · -- years
    simp only [subComp, subP]
    refine .inl ?_
    generalize (bP (bP (bP (bP m.second 0 60 60 m.minute).1 0 60 60 m.hour).1 0 24 24 m.day).1 1 32 31 m.month).1 = b
    simp only
    unfold bP; split <;> simp only <;> omega

private theorem borrow_bounds {base low div top next : Int} (hdiv : 13 ≤ div) (hl : low = 0 ∨ low = 1) (ht : 0 ≤ top ∧ top ≤ 60)
    (hb : -4294967200 ≤ base ∧ base ≤ 4294967290) :
    next - 330382093 ≤ (bP base low div top next).1 ∧ (bP base low div top next).1 ≤ next ∧
    -4294967200 ≤ (bP base low div top next).2 ∧ (bP base low div top next).2 ≤ 4294967290 ∧
    (low ≤ base → (bP base low div top next).1 = next) := by
  have q : base ≤ 0 → (-base) / div ≤ 330382092 := fun hb0 => by
    have q0 := Int.ediv_nonneg (a := -base) (b := div) (by omega) (by omega)
    have q1 := Int.ediv_mul_le (-base) (b := div) (by omega)
    have q2 := Int.mul_le_mul_of_nonneg_left hdiv q0
    omega
  have q' : base ≤ 0 → 0 ≤ (-base) / div := fun hb0 => Int.ediv_nonneg (by omega) (by omega)
  unfold bP
  by_cases h : base < low
  · have := q (by omega); have := q' (by omega)
    rw [if_pos h]; simp only; omega
  · rw [if_neg h]; simp only [implies_true, and_true]; omega

/-- Below 2^32 nothing is lost when the borrowed parts are cast to the types chrono takes. -/
private theorem sub_result {c : Cfg} (hc : Sane c) {m r : Moment} (hm : m.Valid c) (u : TUnit) (n : Int)
    (hb : -4294967200 ≤ n ∧ n ≤ 4294967200) (hy : u = .year → -2000000000 ≤ n ∧ n ≤ 2000000000)
    (h : calculate c (.moment m - amt u n) = .ok (.moment r)) :
    r.Valid c ∧ subP (subComp m u n) = ⟨r.year, r.month, r.day, r.hour, r.minute, r.second⟩ := by
  rw [sub_closed c hc hm u n (by omega) (by omega)] at h
  obtain ⟨r', e1, e2, hv⟩ := buildMoment_ok h
  cases e1
  refine ⟨hv.1, ?_⟩
  obtain ⟨-, -, ⟨v1, v2, v3, v4⟩, ⟨w1, w2, w3, w4, w5, w6⟩, -⟩ := hv.1
  have rl := Cal.monthLen_bounds (y := r.year) v1 v2
  unfold Sane at hc
  obtain ⟨a1, a2, ⟨a3, a4, a5, a6⟩, ⟨t1, t2, t3, t4, t5, t6⟩, a7⟩ := hm
  have ml := Cal.monthLen_bounds (y := m.year) a3 a4
  have key : ∀ p : Parts, p = subP (subComp m u n) →
      (-2147483648 ≤ p.y ∧ p.y ≤ 2147483647) ∧ (-4294967200 ≤ p.mo ∧ p.mo ≤ 4294967290) ∧
      (-4294967200 ≤ p.d ∧ p.d ≤ 4294967290) ∧ (-4294967200 ≤ p.h ∧ p.h ≤ 4294967290) ∧
      (-4294967200 ≤ p.mi ∧ p.mi ≤ 4294967290) ∧ (-4294967200 ≤ p.s ∧ p.s ≤ 4294967290) := by
    rintro p rfl
    have start : ∀ q : Parts, q = subComp m u n → (-4294967200 ≤ q.s ∧ q.s ≤ 4294967290) ∧
        (-4294967200 ≤ q.mi ∧ q.mi ≤ 4294967290) ∧ (-4294967200 ≤ q.h ∧ q.h ≤ 4294967290) ∧
        (-4294967200 ≤ q.d ∧ q.d ≤ 4294967290) ∧ (-4294967200 ≤ q.mo ∧ q.mo ≤ 4294967290) ∧
        (-2001000000 ≤ q.y ∧ q.y ≤ 2001000000) ∧
        (0 ≤ q.s ∨ 0 ≤ q.mi) ∧ (0 ≤ q.s ∧ 0 ≤ q.mi ∨ 0 ≤ q.h) ∧ (0 ≤ q.s ∧ 0 ≤ q.mi ∧ 0 ≤ q.h ∨ 1 ≤ q.d) ∧
        (0 ≤ q.s ∧ 0 ≤ q.mi ∧ 0 ≤ q.h ∧ 1 ≤ q.d ∨ 1 ≤ q.mo) ∧
        (0 ≤ q.s ∧ 0 ≤ q.mi ∧ 0 ≤ q.h ∧ 1 ≤ q.d ∧ 1 ≤ q.mo ∨ -1000000 ≤ q.y) := by
      rintro q rfl
      cases u <;> simp only [subComp] <;> first | omega | (have := hy rfl; omega)
    obtain ⟨s1, s2, s3, s4, s5, s6, o1, o2, o3, o4, o5⟩ := start _ rfl
    generalize subComp m u n = q at *
    unfold subP
    simp only
    have b1 := borrow_bounds (base := q.s) (low := 0) (div := 60) (top := 60) (next := q.mi) (by decide) (.inl rfl) (by decide) s1
    generalize bP q.s 0 60 60 q.mi = x1 at *
    have b2 := borrow_bounds (base := x1.1) (low := 0) (div := 60) (top := 60) (next := q.h) (by decide) (.inl rfl) (by decide) (by omega)
    generalize bP x1.1 0 60 60 q.h = x2 at *
    have b3 := borrow_bounds (base := x2.1) (low := 0) (div := 24) (top := 24) (next := q.d) (by decide) (.inl rfl) (by decide) (by omega)
    generalize bP x2.1 0 24 24 q.d = x3 at *
    have b4 := borrow_bounds (base := x3.1) (low := 1) (div := 32) (top := 31) (next := q.mo) (by decide) (.inr rfl) (by decide) (by omega)
    generalize bP x3.1 1 32 31 q.mo = x4 at *
    have b5 := borrow_bounds (base := x4.1) (low := 1) (div := 13) (top := 12) (next := q.y) (by decide) (.inr rfl) (by decide) (by omega)
    generalize bP x4.1 1 13 12 q.y = x5 at *
    omega
  generalize subP (subComp m u n) = p at *
  obtain ⟨k1, k2, k3, k4, k5, k6⟩ := key p rfl
  obtain ⟨y, mo, d, h', mi, s⟩ := p
  simp only at *
  rw [e2] at v1 v2 v3 v4 w1 w2 w3 w4 w5 w6 rl ⊢
  simp only at *
  have f (x : Int) (hx : -4294967200 ≤ x ∧ x ≤ 4294967290) (hx' : asU32 x ≤ 60) : asU32 x = x := by
    unfold asU32 at *; omega
  rw [f mo k2 (by omega), f d k3 (by omega), f h' k4 (by omega), f mi k5 (by omega), f s k6 (by omega), asI32_id k1.1 k1.2]

/-- **C81 (partial), subtracting.** Of two amounts of the same unit, of either sign, the larger one leads
to the earlier moment, if both can be subtracted. Any unit, amounts below 2^32 (years: 2·10^9).
Missing: larger amounts, see `C81_refuted`. -/
theorem C81_subtracting_more_partial (c : Cfg) (hc : Sane c) (m r₁ r₂ : Moment) (hm : m.Valid c) (u : TUnit) (n₁ n₂ : Int)
    (hn : n₁ < n₂) (hb : -4294967200 ≤ n₁ ∧ n₂ ≤ 4294967200)
    (hy : u = .year → -2000000000 ≤ n₁ ∧ n₂ ≤ 2000000000)
    (h₁ : calculate c (.moment m - amt u n₁) = .ok (.moment r₁))
    (h₂ : calculate c (.moment m - amt u n₂) = .ok (.moment r₂)) : r₂.instant < r₁.instant := by
  obtain ⟨v1, e1⟩ := sub_result hc hm u n₁ (by omega) (fun h => by have := hy h; omega) h₁
  obtain ⟨v2, e2⟩ := sub_result hc hm u n₂ (by omega) (fun h => by have := hy h; omega) h₂
  have l := lex_subP (m := m) u hn
  rw [e1, e2] at l
  exact later v2 v1 l

example := C81_subtracting_more_partial (std .debug) (sane_std _) (at_ 2017 3 5 0 0 0) (at_ 2017 3 2 0 0 0) (at_ 2017 2 28 0 0 0) (by decide) .day 3 8
  (by decide) (by decide) (by decide) (by decide +kernel) (by decide +kernel)

/-- **C81 refuted** for huge amounts: 2^32 years more or less makes no difference. -/
theorem C81_refuted (p : Profile) :
    calculate (std p) (.moment (at_ 2017 6 15 12 0 0) + .years 1) = .ok (.moment (at_ 2018 6 15 12 0 0)) ∧
    calculate (std p) (.moment (at_ 2017 6 15 12 0 0) + .years 4294967296) = .ok (.moment (at_ 2017 6 15 12 0 0)) ∧
    calculate (std p) (.moment (at_ 2017 6 15 12 0 0) - .years 1) = .ok (.moment (at_ 2016 6 15 12 0 0)) ∧
    calculate (std p) (.moment (at_ 2017 6 15 12 0 0) - .years 4294967296) = .ok (.moment (at_ 2017 6 15 12 0 0)) := by
  cases p <;> decide +kernel

/-- Both ways through the turn of a year, and where the result is not exact. -/
example : calculate (std .debug) (.moment (at_ 2017 7 1 0 0 0) - amt .day 2) = .ok (.moment (at_ 2017 6 30 0 0 0)) ∧
    calculate (std .debug) (.moment (at_ 2017 7 1 0 0 0) - amt .day 3) = .ok (.moment (at_ 2017 6 29 0 0 0)) ∧
    calculate (std .debug) (.moment (at_ 2017 7 1 0 0 0) + amt .day 400) = .ok (.moment (at_ 2018 8 7 0 0 0)) ∧
    calculate (std .debug) (.moment (at_ 2017 7 1 0 0 0) + amt .day 401) = .ok (.moment (at_ 2018 8 8 0 0 0)) ∧
    401 * TUnit.secs .day ≤ 133500000000000000 := by decide +kernel

/-! ## C82 -/

/-- **C82 (partial), short steps.** Adding the same number of seconds, minutes, hours or days, up to 30
days, to two moments keeps their order. -/
theorem C82_short_steps_partial (c : Cfg) (hc : Sane c) (m₁ m₂ r₁ r₂ : Moment) (h1 : m₁.Valid c) (h2 : m₂.Valid c)
    (u : TUnit) (hu : u = .second ∨ u = .minute ∨ u = .hour ∨ u = .day) (n : Int) (hn : 0 ≤ n)
    (hmax : n * u.secs ≤ 30 * 86400) (h : m₁.instant < m₂.instant)
    (e₁ : calculate c (.moment m₁ + amt u n) = .ok (.moment r₁))
    (e₂ : calculate c (.moment m₂ + amt u n) = .ok (.moment r₂)) : r₁.instant < r₂.instant := by
  have exact (m r : Moment) (hm : m.Valid c) (e : calculate c (.moment m + amt u n) = .ok (.moment r)) :
      r.instant = m.instant + n * u.secs := by
    have h0 : 0 ≤ n * u.secs := Int.mul_nonneg hn (by cases u <;> decide)
    by_cases hl : m.instant + n * u.secs < Cal.instant (c.maxYear + 1) 1 1 0 0 0
    · obtain ⟨r', v', z', i'⟩ := moment_exists hm (m.instant + n * u.secs) (by omega) hl
      rw [C16_up_to_30_days_partial c hc m r' hm v' z' u hu n hn hmax i'] at e
      rw [← ok_moment_inj e]; exact i'
    · obtain ⟨Y, M, D, H, MI, S, he⟩ := C16_past_the_end_partial c hc m hm u hu n hn (by omega) (by omega)
      rw [he] at e; cases e
  have := exact m₁ r₁ h1 e₁
  have := exact m₂ r₂ h2 e₂
  omega

example := C82_short_steps_partial (std .debug) (sane_std _) (at_ 2016 12 31 0 0 0) (at_ 2017 1 1 0 0 0) (at_ 2017 1 30 0 0 0) (at_ 2017 1 31 0 0 0)
  (by decide) (by decide) .day (by decide) 30 (by decide) (by decide) (by decide) (by decide +kernel) (by decide +kernel)

/-- **C82 (partial), moments of one year:** any amount of seconds, minutes, hours or days up to 4.29 billion
years. -/
theorem C82_same_year_partial (c : Cfg) (hc : Sane c) (m₁ m₂ r₁ r₂ : Moment) (h1 : m₁.Valid c) (h2 : m₂.Valid c)
    (hyear : m₁.year = m₂.year) (u : TUnit) (hu : u = .second ∨ u = .minute ∨ u = .hour ∨ u = .day) (n : Int) (hn : 0 ≤ n)
    (hmax : n * u.secs ≤ 133500000000000000) (h : m₁.instant < m₂.instant)
    (e₁ : calculate c (.moment m₁ + amt u n) = .ok (.moment r₁))
    (e₂ : calculate c (.moment m₂ + amt u n) = .ok (.moment r₂)) : r₁.instant < r₂.instant :=
  have hu' : u.secs ≤ 86400 := by rcases hu with rfl | rfl | rfl | rfl <;> decide
  add_order hc h1 h2 hyear.symm hu' hu' hn hn hmax hmax (by omega) e₁ e₂

example := C82_same_year_partial (std .debug) (sane_std _) (at_ 2017 2 15 0 0 0) (at_ 2017 2 16 0 0 0) (at_ 2018 2 16 0 0 0) (at_ 2018 2 17 0 0 0)
  (by decide) (by decide) rfl .day (by decide) 365 (by decide) (by decide) (by decide) (by decide +kernel) (by decide +kernel)

/-- **C82 refuted** for days: 400 days after New Year's Eve 2016 are later than 400 days after New Year 2017. -/
theorem C82_refuted_days :
    (at_ 2016 12 31 0 0 0).instant < (at_ 2017 1 1 0 0 0).instant ∧
    calculate (std .debug) (.moment (at_ 2016 12 31 0 0 0) + .days 400) = .ok (.moment (at_ 2018 2 10 0 0 0)) ∧
    calculate (std .debug) (.moment (at_ 2017 1 1 0 0 0) + .days 400) = .ok (.moment (at_ 2018 2 6 0 0 0)) := by
  decide +kernel

/-- **C82 (partial), months.** The same for months and two moments on days up to the 28th. -/
theorem C82_months_partial (c : Cfg) (hc : Sane c) (m₁ m₂ r₁ r₂ : Moment) (h1 : m₁.Valid c) (h2 : m₂.Valid c)
    (hd₁ : m₁.day ≤ 28) (hd₂ : m₂.day ≤ 28) (n : Int) (hn : 0 ≤ n) (hmax : n ≤ 24000000000) (h : m₁.instant < m₂.instant)
    (e₁ : calculate c (.moment m₁ + .months n) = .ok (.moment r₁))
    (e₂ : calculate c (.moment m₂ + .months n) = .ok (.moment r₂)) : r₁.instant < r₂.instant := by
  have v₁ := added_valid (u := .month) e₁
  have v₂ := added_valid (u := .month) e₂
  have idx (m r : Moment) (hm : m.Valid c) (hd : m.day ≤ 28) (e : calculate c (.moment m + .months n) = .ok (.moment r)) :
      Cal.monthIndex r.year r.month = Cal.monthIndex m.year m.month + n ∧ r.day = m.day ∧ r.hour = m.hour ∧
        r.minute = m.minute ∧ r.second = m.second := by
    have hi : ∃ Y M : Int, 1 ≤ M ∧ M ≤ 12 ∧ Cal.monthIndex Y M = Cal.monthIndex m.year m.month + n :=
      ⟨(Cal.monthIndex m.year m.month + n) / 12, (Cal.monthIndex m.year m.month + n) % 12 + 1, by omega, by omega,
        by unfold Cal.monthIndex; omega⟩
    obtain ⟨Y, M, q1, q2, q3⟩ := hi
    rw [C17_up_to_28th_partial c hc m hm hd n hn hmax Y M ⟨q1, q2⟩ q3] at e
    split at e
    · rw [← ok_moment_inj e]; exact ⟨q3, rfl, rfl, rfl, rfl⟩
    · cases e
  obtain ⟨i1, d1, f1, f2, f3⟩ := idx m₁ r₁ h1 hd₁ e₁
  obtain ⟨i2, d2, g1, g2, g3⟩ := idx m₂ r₂ h2 hd₂ e₂
  have nl : ¬ (m₂.year < m₁.year ∨ m₂.year = m₁.year ∧ (m₂.month < m₁.month ∨ m₂.month = m₁.month ∧ (m₂.day < m₁.day ∨
      m₂.day = m₁.day ∧ (m₂.hour < m₁.hour ∨ m₂.hour = m₁.hour ∧ (m₂.minute < m₁.minute ∨ m₂.minute = m₁.minute ∧
        m₂.second < m₁.second))))) := fun hl => by have := later h2 h1 hl; omega
  have ne : ¬ (m₁.year = m₂.year ∧ m₁.month = m₂.month ∧ m₁.day = m₂.day ∧ m₁.hour = m₂.hour ∧ m₁.minute = m₂.minute ∧
      m₁.second = m₂.second) := by
    rintro ⟨q1, q2, q3, q4, q5, q6⟩
    unfold Moment.instant at h
    rw [q1, q2, q3, q4, q5, q6] at h
    omega
  have := v₁.2.2.1.1; have := v₁.2.2.1.2.1; have := v₂.2.2.1.1; have := v₂.2.2.1.2.1
  have := h1.2.2.1.1; have := h1.2.2.1.2.1; have := h2.2.2.1.1; have := h2.2.2.1.2.1
  unfold Cal.monthIndex at i1 i2
  refine later v₁ v₂ ?_
  rw [d1, d2, f1, f2, f3, g1, g2, g3]
  omega

example := C82_months_partial (std .debug) (sane_std _) (at_ 2017 2 27 0 0 0) (at_ 2017 2 28 0 0 0) (at_ 2018 2 27 0 0 0) (at_ 2018 2 28 0 0 0)
  (by decide) (by decide) (by decide) (by decide) 12 (by decide) (by decide) (by decide) (by decide +kernel) (by decide +kernel)

/-- **C82 refuted** for months. A month after 31 January 2017 is after a month after 1 February 2017. -/
theorem C82_refuted :
    (at_ 2017 1 31 0 0 0).instant < (at_ 2017 2 1 0 0 0).instant ∧
    calculate (std .debug) (.moment (at_ 2017 1 31 0 0 0) + .months 1) = .ok (.moment (at_ 2017 3 3 0 0 0)) ∧
    calculate (std .debug) (.moment (at_ 2017 2 1 0 0 0) + .months 1) = .ok (.moment (at_ 2017 3 1 0 0 0)) := by
  decide +kernel

/-- **C82 refuted** for years, in general. On any 29 February, any number of years whose end is a common year
within chrono's range, the sum is later than that of every moment before the same time of day on the
next day, 1 March. -/
theorem C82_refuted_years (c : Cfg) (hc : Sane c) (m m' : Moment) (hm : m.Valid c) (hm' : m'.Valid c)
    (h29 : m.month = 2 ∧ m.day = 29) (h1 : m'.year = m.year ∧ m'.month = 3 ∧ m'.day = 1)
    (hlt : m'.instant < m.instant + 86400) (n : Int)
    (hr : c.minYear ≤ m.year + n ∧ m.year + n ≤ c.maxYear) (hl : Cal.isLeap (m.year + n) = false) :
    m.instant < m'.instant ∧ ∃ r r', calculate c (.moment m + .years n) = .ok (.moment r) ∧
      calculate c (.moment m' + .years n) = .ok (.moment r') ∧ r'.instant < r.instant := by
  unfold Sane at hc
  refine ⟨later hm hm' (by omega), { m with year := m.year + n, month := 3, day := 1, nano := 0 },
    { m' with year := m.year + n, month := 3, day := 1, nano := 0 }, ?_, ?_, ?_⟩
  · rw [C18_adding_years_partial c m hm n (by omega) (by omega), if_neg (by omega), if_pos ⟨h29.1, h29.2, hl⟩]
  · rw [C18_adding_years_partial c m' hm' n (by omega) (by omega), if_neg (by omega), if_neg (by omega), h1.1, h1.2.1, h1.2.2]
  · have l : Cal.isLeap m.year = true := by
      have a6 := hm.2.2.1.2.2.2
      rw [h29.1, h29.2] at a6
      cases h : Cal.isLeap m.year
      · simp [Cal.monthLen, h] at a6
      · rfl
    unfold Moment.instant Cal.instant at *
    rw [h29.1, h29.2, h1.1, h1.2.1, h1.2.2] at hlt
    unfold Cal.dayNumber at *
    simp [Cal.daysBeforeMonth, l] at hlt
    simp only
    omega

example : (at_ 2016 2 29 12 0 0).Valid (std .debug) ∧ (at_ 2016 3 1 10 0 0).Valid (std .debug) ∧
    (at_ 2016 3 1 10 0 0).instant < (at_ 2016 2 29 12 0 0).instant + 86400 ∧ Cal.isLeap (2016 + 1) = false ∧
    calculate (std .debug) (.moment (at_ 2016 2 29 12 0 0) + .years 1) = .ok (.moment (at_ 2017 3 1 12 0 0)) ∧
    calculate (std .debug) (.moment (at_ 2016 3 1 10 0 0) + .years 1) = .ok (.moment (at_ 2017 3 1 10 0 0)) := by
  decide +kernel

example : (at_ 2016 1 28 12 0 0).instant < (at_ 2016 2 1 0 0 0).instant ∧
    calculate (std .debug) (.moment (at_ 2016 1 28 12 0 0) + .months 30) = .ok (.moment (at_ 2018 7 28 12 0 0)) ∧
    calculate (std .debug) (.moment (at_ 2016 2 1 0 0 0) + .months 30) = .ok (.moment (at_ 2018 8 1 0 0 0)) ∧
    calculate (std .debug) (.moment (at_ 2016 1 28 12 0 0) + amt .hour 100) = .ok (.moment (at_ 2016 2 1 16 0 0)) := by
  decide +kernel

end Props
