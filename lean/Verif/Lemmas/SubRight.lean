import Verif.Lemmas.SubExact
import Verif.Spec.SubRight

/-! When `moment - amount` is the date-time that many units earlier. -/

namespace Kairos
open Spec

/-- A valid date one day before the first of a month is the last day of the month before. -/
theorem last_of_prev {y mo y' mo' d' : Int} (h1 : 1 ≤ mo) (h2 : mo ≤ 12) (hv : Cal.ValidDate y' mo' d')
    (he : Cal.dayNumber y' mo' d' = Cal.dayNumber y mo 1 - 1) :
    y' = (prevMonth y mo).1 ∧ mo' = (prevMonth y mo).2 ∧
      d' = Cal.monthLen (prevMonth y mo).1 (prevMonth y mo).2 := by
  have pv := prevMonth_valid (y := y) h1 h2
  have ml := Cal.monthLen_bounds (y := (prevMonth y mo).1) pv.1 pv.2.1
  have dn := dayNumber_prevMonth (y := y) h1 h2 (Cal.monthLen (prevMonth y mo).1 (prevMonth y mo).2)
  refine Cal.dayNumber_inj hv ⟨pv.1, pv.2.1, by omega, Int.le_refl _⟩ ?_
  rw [he, dn]; unfold Cal.dayNumber; omega

theorem prev_ne {y mo : Int} : (prevMonth y mo).2 ≠ mo := by
  unfold prevMonth; split <;> simp only <;> omega

theorem prev_index {y mo : Int} :
    Cal.monthIndex (prevMonth y mo).1 (prevMonth y mo).2 = Cal.monthIndex y mo - 1 := by
  unfold prevMonth Cal.monthIndex; split <;> simp only <;> omega

/-- `SubRight` for seconds, minutes and hours in one formula. -/
theorem subRight_time {m m' : Moment} {n : Int} {u : TUnit} (hu : u = .second ∨ u = .minute ∨ u = .hour) :
    SubRight m m' n u ↔ (n < comp m u + base u ∧ (m'.month = m.month ∨ m'.day = 31)) ∨
      (u = .hour ∧ n = comp m u + base u ∧ m.day = 1 ∧ m'.day = 30) := by
  rcases hu with rfl | rfl | rfl <;> simp [SubRight, comp, base]

theorem ok_moment_inj {m m' : Moment} (h : (OutE.ok (.moment m) : Out TT) = .ok (.moment m')) : m = m' := by
  injection h with h; injection h

theorem sub_time_exact_iff (c : Cfg) (hc : Sane c) (m m' : Moment) (hm : m.Valid c) (hm' : m'.Valid c)
    (hz : m'.nano = 0) (u : TUnit) (hu : u = .second ∨ u = .minute ∨ u = .hour)
    (n : Int) (hn : 0 ≤ n) (hb : n < 4294967296) (hi : m'.instant = m.instant - n * u.secs) :
    calculate c (.moment m - amt u n) = .ok (.moment m') ↔ SubRight m m' n u := by
  rw [subRight_time hu]
  have hc' := hc
  unfold Sane at hc'
  obtain ⟨k, h, mi, s, y', mo', d', hd', k0, r1, r2, r3, e⟩ := sub_time c hc hm u hu n hn hb
  obtain ⟨a1, a2, a3, t, a7⟩ := hm
  obtain ⟨b1, b2, b3, t', b7⟩ := hm'
  have a3' := a3
  obtain ⟨v1, v2, v3, v4⟩ := a3'
  have pv := prevMonth_valid (y := m.year) v1 v2
  have ml := Cal.monthLen_bounds (y := (prevMonth m.year m.month).1) pv.1 pv.2.1
  have tt := t; have tt' := t'
  unfold Cal.ValidTime at tt tt'
  have hpos : 0 < base u * u.secs := by rcases hu with rfl | rfl | rfl <;> decide
  rw [e]
  -- equality with m' from equality of instants
  have key : Cal.ValidDate y' mo' d' → Cal.ValidTime h mi s → Cal.instant y' mo' d' h mi s = m'.instant →
      (⟨y', mo', d', h, mi, s, 0⟩ : Moment) = m' := by
    intro p q r
    obtain ⟨e1, e2, e3, e4, e5, e6⟩ := Cal.instant_inj p b3 q t' r
    cases m'; simp only at *; subst_vars; rfl
  have hinst : ∀ r : Moment, r = m' → Cal.instant r.year r.month r.day r.hour r.minute r.second = m'.instant := by
    rintro r rfl; rfl
  unfold Moment.instant Cal.instant at hi
  rcases Int.lt_trichotomy n (comp m u + base u) with hlt | heq | hgt
  · obtain ⟨vt, k1, te⟩ := r1 hlt
    have vt' := vt
    unfold Cal.ValidTime at vt'
    rcases dateP_cases a3 k0 with ⟨c1, c2, c3, c4⟩ | ⟨c1, c2, c3, c4, c5⟩ | ⟨c1, -⟩
    · rw [c2] at hd'; cases hd'
      have := key c3 vt (by unfold Moment.instant Cal.instant; omega)
      rw [if_pos ⟨a1, a2, c3, vt⟩, this]
      refine ⟨fun _ => .inl ⟨hlt, .inl (by rw [← this])⟩, fun _ => rfl⟩
    · have hk : k = 1 := by omega
      have hd1 : m.day = 1 := by omega
      subst hk
      rw [c3] at hd'; cases hd'
      by_cases hL : Cal.monthLen (prevMonth m.year m.month).1 (prevMonth m.year m.month).2 = 31
      · have := key (c4.2 (by omega)) vt (by unfold Moment.instant Cal.instant; omega)
        have yr : (prevMonth m.year m.month).1 = m'.year := by rw [← this]
        rw [if_pos ⟨by omega, by omega, c4.2 (by omega), vt⟩, this]
        refine ⟨fun _ => .inl ⟨hlt, .inr ?_⟩, fun _ => rfl⟩
        rw [← this]; simp only; omega
      · rw [if_neg (by rw [c4]; omega)]
        refine ⟨fun h => (by cases h), ?_⟩
        obtain ⟨l1, l2, l3⟩ := last_of_prev (y := m.year) v1 v2 b3 (by rw [← hd1]; omega)
        have := prev_ne (y := m.year) (mo := m.month)
        rintro (⟨-, h | h⟩ | ⟨-, h, -⟩)
        · omega
        · omega
        · omega
    · omega
  · obtain ⟨vt, k1, kh, knh, te⟩ := r2 heq
    have vt' := vt
    unfold Cal.ValidTime at vt'
    rcases dateP_cases a3 k0 with ⟨c1, c2, c3, c4⟩ | ⟨c1, c2, c3, c4, c5⟩ | ⟨c1, -⟩
    · rw [c2] at hd'; cases hd'
      rw [if_pos ⟨a1, a2, c3, vt⟩]
      refine ⟨fun h => ?_, ?_⟩
      · have := hinst _ (ok_moment_inj h)
        unfold Moment.instant Cal.instant at this
        simp only at this; omega
      · rintro (⟨h, -⟩ | ⟨h, -, h', -⟩)
        · omega
        · have := kh h; omega
    · rw [c3] at hd'; cases hd'
      by_cases hu' : u = .hour
      · subst hu'
        have hk := kh rfl
        subst hk
        have l := last_of_prev (y := m.year) (y' := m'.year) (mo' := m'.month) (d' := m'.day) v1 v2 b3
        simp only [TUnit.secs, base, comp] at *
        refine ⟨fun h' => .inr ?_, ?_⟩
        · split at h'
          · rename_i hv
            have hmm := ok_moment_inj h'
            have := hinst _ hmm
            unfold Moment.instant Cal.instant at this
            simp only at this
            have hle := c4.1 hv.2.2.1
            have hd1 : m.day = 1 := by omega
            refine ⟨trivial, heq, hd1, ?_⟩
            rw [← hmm]; simp only; omega
          · cases h'
        · rintro (⟨h', -⟩ | ⟨-, -, hd1, hd30⟩)
          · omega
          · obtain ⟨l1, l2, l3⟩ := l (by rw [← hd1]; omega)
            have := key (c4.2 (by omega)) vt (by unfold Moment.instant Cal.instant; omega)
            rw [if_pos ⟨by omega, by omega, c4.2 (by omega), vt⟩, this]
      · have := knh hu'
        have hk : k = 1 := by omega
        subst hk
        refine ⟨fun h' => ?_, ?_⟩
        · exfalso
          split at h'
          · rename_i hv
            have := hinst _ (ok_moment_inj h')
            unfold Moment.instant Cal.instant at this
            simp only at this
            have hle := c4.1 hv.2.2.1
            omega
          · cases h'
        · rintro (⟨h', -⟩ | ⟨h', -⟩)
          · omega
          · exact absurd h' hu'
    · omega
  · have nv := r3 hgt
    rw [if_neg (fun h => nv h.2.2.2)]
    refine ⟨fun h => (by cases h), ?_⟩
    rintro (⟨h, -⟩ | ⟨-, h, -⟩) <;> omega

theorem sub_days_exact_iff (c : Cfg) (hc : Sane c) (m m' : Moment) (hm : m.Valid c) (hm' : m'.Valid c)
    (hz : m'.nano = 0) (n : Int) (hn : 0 ≤ n) (hb : n < 4294967296) (hi : m'.instant = m.instant - n * 86400) :
    calculate c (.moment m - amt .day n) = .ok (.moment m') ↔ SubRight m m' n .day := by
  obtain ⟨y', mo', d', hd', e⟩ := sub_days c hc hm n hn hb
  obtain ⟨a1, a2, a3, t, a7⟩ := hm
  obtain ⟨b1, b2, b3, t', b7⟩ := hm'
  have a3' := a3
  obtain ⟨v1, v2, v3, v4⟩ := a3'
  have b3' := b3
  obtain ⟨w1, w2, w3, w4⟩ := b3'
  have pv := prevMonth_valid (y := m.year) v1 v2
  have pi := prev_index (y := m.year) (mo := m.month)
  have ml := Cal.monthLen_bounds (y := (prevMonth m.year m.month).1) pv.1 pv.2.1
  have tt := t; have tt' := t'
  unfold Cal.ValidTime at tt tt'
  rw [e]
  have hinst : ∀ r : Moment, r = m' → Cal.instant r.year r.month r.day r.hour r.minute r.second = m'.instant := by
    rintro r rfl; rfl
  unfold Moment.instant Cal.instant at hi
  have hdn : Cal.dayNumber m'.year m'.month m'.day = Cal.dayNumber m.year m.month m.day - n := by omega
  have hh : m'.hour = m.hour := by omega
  have hmi : m'.minute = m.minute := by omega
  have hs : m'.second = m.second := by omega
  have mk : ∀ {y mo d}, y = m'.year → mo = m'.month → d = m'.day →
      (⟨y, mo, d, m.hour, m.minute, m.second, 0⟩ : Moment) = m' := by
    rintro _ _ _ rfl rfl rfl
    rw [← hh, ← hmi, ← hs, ← hz]
  unfold SubRight Cal.monthIndex
  unfold Cal.monthIndex at pi
  rcases dateP_cases a3 hn with ⟨c1, c2, c3, c4⟩ | ⟨c1, c2, c3, c4, c5⟩ | ⟨c1, c2⟩
  · rw [c2] at hd'; cases hd'
    obtain ⟨e1, e2, e3⟩ := Cal.dayNumber_inj b3 c3 (by omega)
    rw [if_pos ⟨a1, a2, c3⟩, mk e1.symm e2.symm e3.symm]
    exact ⟨fun _ => .inl ⟨e1, e2⟩, fun _ => rfl⟩
  · rw [c3] at hd'; cases hd'
    refine ⟨fun h => ?_, ?_⟩
    · split at h
      · rename_i hv
        have hmm := ok_moment_inj h
        have := hinst _ hmm
        unfold Moment.instant Cal.instant at this
        simp only at this
        have e1 : (prevMonth m.year m.month).1 = m'.year := by rw [← hmm]
        have e2 : (prevMonth m.year m.month).2 = m'.month := by rw [← hmm]
        right
        rw [← e1, ← e2]
        omega
      · cases h
    · rintro (⟨h1, h2⟩ | ⟨h1, h2⟩)
      · exfalso
        rw [h1, h2] at hdn
        unfold Cal.dayNumber at hdn; omega
      · have e1 : (prevMonth m.year m.month).1 = m'.year := by omega
        have e2 : (prevMonth m.year m.month).2 = m'.month := by omega
        have e3 : 31 + m.day - n = m'.day := by
          have := dayNumber_prevMonth (y := m.year) v1 v2 m'.day
          rw [e1, e2] at this
          unfold Cal.dayNumber at this hdn; omega
        rw [if_pos ⟨by omega, by omega, c4.2 (by rw [e1, e2]; omega)⟩, mk e1 e2 e3]
  · rw [if_neg (by intro h; rw [show d' = (dateP m.year m.month (m.day - n)).2.2 by rw [← hd']] at h; exact c2 _ _ h.2.2)]
    refine ⟨fun h => (by cases h), ?_⟩
    rintro (⟨h1, h2⟩ | ⟨h1, h2⟩)
    · rw [h1, h2] at hdn; unfold Cal.dayNumber at hdn; omega
    · have e1 : (prevMonth m.year m.month).1 = m'.year := by omega
      have e2 : (prevMonth m.year m.month).2 = m'.month := by omega
      have := dayNumber_prevMonth (y := m.year) v1 v2 m'.day
      rw [e1, e2] at this
      unfold Cal.dayNumber at this hdn; omega

end Kairos
