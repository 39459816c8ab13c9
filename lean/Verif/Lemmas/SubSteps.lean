import Verif.Lemmas.SubRight

/-! `SubRight` in terms of instants. -/

namespace Kairos
open Spec

theorem inst_eq (q : Moment) : q.instant = Cal.dayNumber q.year q.month q.day * 86400 + (q.hour * 3600 + q.minute * 60 + q.second) := by
  unfold Moment.instant Cal.instant; omega

/-- Where an earlier moment lies in relation to the month of a later one. -/
theorem month_of_earlier {c : Cfg} {m m' : Moment} (hm : m.Valid c) (hm' : m'.Valid c) (hle : m'.instant ≤ m.instant)
    (start plen : Int) (hstart : start = Cal.instant m.year m.month 1 0 0 0)
    (hplen : plen = Cal.monthLen (prevMonth m.year m.month).1 (prevMonth m.year m.month).2) :
    (start ≤ m'.instant ↔ m'.year = m.year ∧ m'.month = m.month) ∧
    (start - plen * 86400 ≤ m'.instant ∧ m'.instant < start ↔
      m'.year = (prevMonth m.year m.month).1 ∧ m'.month = (prevMonth m.year m.month).2) ∧
    (start - plen * 86400 ≤ m'.instant → m'.instant < start →
      m'.day = Cal.dayNumber m'.year m'.month m'.day - Cal.dayNumber m.year m.month 1 + plen + 1) := by
  obtain ⟨a1, a2, a3, t, a7⟩ := hm
  obtain ⟨b1, b2, b3, t', b7⟩ := hm'
  have a3' := a3
  obtain ⟨v1, v2, v3, v4⟩ := a3'
  have b3' := b3
  obtain ⟨w1, w2, w3, w4⟩ := b3'
  have pv := prevMonth_valid (y := m.year) v1 v2
  have ml := Cal.monthLen_bounds (y := (prevMonth m.year m.month).1) pv.1 pv.2.1
  have dn := dayNumber_prevMonth (y := m.year) v1 v2
  rw [← hplen] at ml dn
  have i1 := inst_eq m
  have i2 := inst_eq m'
  have hs : start = Cal.dayNumber m.year m.month 1 * 86400 := by rw [hstart]; unfold Cal.instant; omega
  have off : ∀ y mo d, Cal.dayNumber y mo d = Cal.dayNumber y mo 1 + (d - 1) := by
    intro y mo d; unfold Cal.dayNumber; omega
  unfold Cal.ValidTime at t t'
  have o1 := off m.year m.month m.day
  have o2 := off m'.year m'.month m'.day
  have A : start ≤ m'.instant → m'.year = m.year ∧ m'.month = m.month := by
    intro h
    have := Cal.dayNumber_inj (y := m'.year) (m := m'.month) (d := m'.day) (y' := m.year) (m' := m.month)
      (d' := Cal.dayNumber m'.year m'.month m'.day - Cal.dayNumber m.year m.month 1 + 1) b3 ⟨v1, v2, by omega, by omega⟩ (by
        rw [off m.year m.month]; omega)
    exact ⟨this.1, this.2.1⟩
  have B : start - plen * 86400 ≤ m'.instant → m'.instant < start →
      m'.year = (prevMonth m.year m.month).1 ∧ m'.month = (prevMonth m.year m.month).2 ∧
      m'.day = Cal.dayNumber m'.year m'.month m'.day - Cal.dayNumber m.year m.month 1 + plen + 1 := by
    intro h1 h2
    exact Cal.dayNumber_inj (y := m'.year) (m := m'.month) (d := m'.day)
      (d' := Cal.dayNumber m'.year m'.month m'.day - Cal.dayNumber m.year m.month 1 + plen + 1) b3 ⟨pv.1, pv.2.1, by omega, by omega⟩ (by
        rw [dn, off m.year m.month]; omega)
  refine ⟨⟨A, ?_⟩, ⟨fun h => ⟨(B h.1 h.2).1, (B h.1 h.2).2.1⟩, ?_⟩, fun h1 h2 => (B h1 h2).2.2⟩
  · rintro ⟨h1, h2⟩
    rw [h1, h2] at o2 i2
    omega
  · rintro ⟨h1, h2⟩
    rw [h1, h2] at o2 i2 w4
    have := dn 1
    omega

/-- `SubRight` by instants, apart from the coincidence with hours. -/
theorem subRight_instants {c : Cfg} {m m' : Moment} (hm : m.Valid c) (hm' : m'.Valid c) (u : TUnit)
    (hu : u = .second ∨ u = .minute ∨ u = .hour ∨ u = .day) (n : Int) (hn : 0 ≤ n) (hi : m'.instant = m.instant - n * u.secs)
    (hx : u ≠ .hour ∨ n ≠ m.hour + 24)
    (start plen : Int) (hstart : start = Cal.instant m.year m.month 1 0 0 0)
    (hplen : plen = Cal.monthLen (prevMonth m.year m.month).1 (prevMonth m.year m.month).2) :
    SubRight m m' n u ↔ (u = .day ∨ n < comp m u + base u) ∧
      (start ≤ m'.instant ∨ (plen = 31 ∧ start - 31 * 86400 ≤ m'.instant)) := by
  have hnn : 0 ≤ n * u.secs := Int.mul_nonneg hn (by cases u <;> decide)
  obtain ⟨A, B, C⟩ := month_of_earlier hm hm' (by omega) start plen hstart hplen
  obtain ⟨a1, a2, a3, t, a7⟩ := hm
  obtain ⟨b1, b2, b3, t', b7⟩ := hm'
  obtain ⟨v1, v2, v3, v4⟩ := a3
  obtain ⟨w1, w2, w3, w4⟩ := b3
  have pv := prevMonth_valid (y := m.year) v1 v2
  have ml := Cal.monthLen_bounds (y := (prevMonth m.year m.month).1) pv.1 pv.2.1
  rw [← hplen] at ml
  have pn := prev_ne (y := m.year) (mo := m.month)
  have pi := prev_index (y := m.year) (mo := m.month)
  have i1 := inst_eq m
  have i2 := inst_eq m'
  have hs : start = Cal.dayNumber m.year m.month 1 * 86400 := by rw [hstart]; unfold Cal.instant; omega
  have o1 : Cal.dayNumber m.year m.month m.day = Cal.dayNumber m.year m.month 1 + (m.day - 1) := by
    unfold Cal.dayNumber; omega
  unfold Cal.ValidTime at t t'
  have time : (u = .second ∨ u = .minute ∨ u = .hour) →
      (SubRight m m' n u ↔ (u = .day ∨ n < comp m u + base u) ∧
      (start ≤ m'.instant ∨ (plen = 31 ∧ start - 31 * 86400 ≤ m'.instant))) := by
    intro hu'
    have hd : u ≠ .day := by rcases hu' with rfl | rfl | rfl <;> decide
    rw [subRight_time hu']
    have back : n < comp m u + base u → start - 86400 ≤ m'.instant := by
      rcases hu' with rfl | rfl | rfl <;> simp only [comp, base, TUnit.secs] at hi ⊢ <;> omega
    constructor
    · rintro (⟨h1, h2⟩ | ⟨rfl, h2, h3, h4⟩)
      · refine ⟨.inr h1, ?_⟩
        by_cases hge : start ≤ m'.instant
        · exact .inl hge
        · have bk := back h1
          obtain ⟨q1, q2⟩ := B.1 ⟨by omega, by omega⟩
          rcases h2 with h2 | h2
          · exact absurd (q2.symm.trans h2) pn
          · rw [q1, q2, h2] at w4
            exact .inr ⟨by omega, by omega⟩
      · exact absurd h2 (by simp only [comp, base]; rcases hx with hx | hx <;> simp_all)
    · rintro ⟨h1, h2⟩
      have h1 : n < comp m u + base u := h1.resolve_left hd
      refine .inl ⟨h1, ?_⟩
      by_cases hge : start ≤ m'.instant
      · exact .inl (A.1 hge).2
      · have bk := back h1
        have cc := C (by omega) (by omega)
        exact .inr (by omega)
  rcases hu with rfl | rfl | rfl | rfl
  · exact time (by simp)
  · exact time (by simp)
  · exact time (by simp)
  · simp only [SubRight, true_or, true_and]
    constructor
    · rintro (⟨h1, h2⟩ | ⟨h1, h2⟩)
      · exact .inl (A.2 ⟨h1, h2⟩)
      · have e : m'.year = (prevMonth m.year m.month).1 ∧ m'.month = (prevMonth m.year m.month).2 := by
          unfold Cal.monthIndex at h1 pi
          omega
        have b := B.2 e
        rw [e.1, e.2] at h2
        exact .inr ⟨by omega, by omega⟩
    · rintro (h | ⟨h1, h2⟩)
      · exact .inl (A.1 h)
      · by_cases hge : start ≤ m'.instant
        · exact .inl (A.1 hge)
        · obtain ⟨q1, q2⟩ := B.1 ⟨by omega, by omega⟩
          rw [q1, q2]
          exact .inr ⟨pi, by omega⟩

end Kairos
