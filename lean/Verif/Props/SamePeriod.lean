import Verif.Props.EndOf
import Verif.Lemmas.Order

/-!
# C103: end-of markers tell periods apart and keep the order
-/

namespace Props
open Kairos Spec

private theorem ends_in_order {c : Cfg} {x y : TT} {m m' : Moment} (h : EvalsTo c x m) (h' : EvalsTo c y m') (k : EndKind) :
    ∃ r r' : Moment, (do let v ← calculate c x; endVal c k v) = .ok (.moment r) ∧ (do let v ← calculate c y; endVal c k v) = .ok (.moment r') ∧
      (m.instant ≤ m'.instant → r.instant ≤ r'.instant) := by
  obtain ⟨r, hr, vr, y1, mo1, n1, d1, h1, mi1, s1⟩ := h.endOf k
  obtain ⟨r', hr', vr', y2, mo2, n2, d2, h2, mi2, s2⟩ := h'.endOf k
  refine ⟨r, r', hr, hr', fun hle => ?_⟩
  apply Int.not_lt.mp
  intro hlt
  have hlex := Moment.cmp_lt.1 ((Moment.cmp_lt_instant vr' vr).2 (.inl hlt))
  have hm : ¬ m'.cmp m = .lt ∨ (m'.instant = m.instant) := by
    by_cases e : m'.instant = m.instant
    · exact .inr e
    · left
      rw [Moment.cmp_lt_instant h'.valid h.valid]
      omega
  have key : (m'.year < m.year ∨ (m'.year = m.year ∧ (m'.month < m.month ∨ (m'.month = m.month ∧
      (m'.day < m.day ∨ (m'.day = m.day ∧ (m'.hour < m.hour ∨ (m'.hour = m.hour ∧ m'.minute < m.minute)))))))) := by
    cases k
    all_goals simp at mo1 d1 h1 mi1 s1 mo2 d2 h2 mi2 s2
    · omega
    · by_cases e : m.year = m'.year ∧ m.month = m'.month
      · rw [e.1, e.2, ← d2] at d1
        omega
      · omega
    · omega
    · omega
    · omega
  rcases hm with hm | hm
  · exact hm (Moment.cmp_lt.2 (by omega))
  · have h0 : { m' with nano := 0 }.cmp { m with nano := 0 } = .lt := Moment.cmp_lt.2 (by simp only; omega)
    have v0 : ∀ a : Moment, a.Valid c → ({ a with nano := 0 } : Moment).Valid c := by
      rintro a ⟨a1, a2, a3, a4, -⟩
      exact ⟨a1, a2, a3, a4, by simp⟩
    have := (Moment.cmp_lt_instant (v0 _ h'.valid) (v0 _ h.valid)).1 h0
    simp only [Moment.instant] at this hm
    omega

/-- **C103 (order).** Of two moments, the end of the year (month, day, hour, minute) of the earlier one is not after that of the later one. -/
theorem C103_keeps_order (c : Cfg) (x y : TT) (m m' : Moment) (h : EvalsTo c x m) (h' : EvalsTo c y m') (hle : m.instant ≤ m'.instant)
    (E : TT → TT) (hE : E = .endOfYear ∨ E = .endOfMonth ∨ E = .endOfDay ∨ E = .endOfHour ∨ E = .endOfMinute) :
    ∃ r r', calculate c (E x) = .ok (.moment r) ∧ calculate c (E y) = .ok (.moment r') ∧ r.instant ≤ r'.instant := by
  have key (k : EndKind) : ∃ r r', calculate c (k.app x) = .ok (.moment r) ∧ calculate c (k.app y) = .ok (.moment r') ∧ r.instant ≤ r'.instant := by
    obtain ⟨r, r', h1, h2, h3⟩ := ends_in_order h h' k
    exact ⟨r, r', by rw [calculate_endOf]; exact h1, by rw [calculate_endOf]; exact h2, h3 hle⟩
  rcases hE with rfl | rfl | rfl | rfl | rfl
  · exact key .year
  · exact key .month
  · exact key .day
  · exact key .hour
  · exact key .minute

example := C103_keeps_order (std .debug) (.moment (at_ 2017 6 15 7 8 9)) (.moment (at_ 2017 6 15 7 8 9) + .months 8) (at_ 2017 6 15 7 8 9) (at_ 2018 2 15 7 8 9)
  ⟨by decide, by decide +kernel, by decide⟩ ⟨by decide, by decide +kernel, by decide⟩ (by decide) .endOfMonth (.inr (.inl rfl))

/-- **C103 (same period).** Two moments have the same end of the year, month, day, hour or minute exactly if they lie in the same one. -/
theorem C103_same_period (c : Cfg) (x y : TT) (m m' : Moment) (h : EvalsTo c x m) (h' : EvalsTo c y m') :
    (calculate c (.endOfYear x) = calculate c (.endOfYear y) ↔ m.year = m'.year) ∧
    (calculate c (.endOfMonth x) = calculate c (.endOfMonth y) ↔ m.year = m'.year ∧ m.month = m'.month) ∧
    (calculate c (.endOfDay x) = calculate c (.endOfDay y) ↔ m.year = m'.year ∧ m.month = m'.month ∧ m.day = m'.day) ∧
    (calculate c (.endOfHour x) = calculate c (.endOfHour y) ↔
      m.year = m'.year ∧ m.month = m'.month ∧ m.day = m'.day ∧ m.hour = m'.hour) ∧
    (calculate c (.endOfMinute x) = calculate c (.endOfMinute y) ↔
      m.year = m'.year ∧ m.month = m'.month ∧ m.day = m'.day ∧ m.hour = m'.hour ∧ m.minute = m'.minute) := by
  obtain ⟨a1, a2, a3⟩ := C12_end_of_day_hour_minute c x m h
  obtain ⟨b1, b2, b3⟩ := C12_end_of_day_hour_minute c y m' h'
  obtain ⟨l, p1, p2, p3⟩ := C11_end_of_month c x m h
  obtain ⟨l', q1, q2, q3⟩ := C11_end_of_month c y m' h'
  rw [C10_end_of_year c x m h, C10_end_of_year c y m' h', a1, a2, a3, b1, b2, b3, p1, q1]
  refine ⟨by simp [at_], ?_, by simp [at_], by simp [at_], by simp [at_]⟩
  simp only [at_, OutE.ok.injEq, TT.moment.injEq, Moment.mk.injEq, and_true]
  refine ⟨fun h => ⟨h.1, h.2.1⟩, fun h => ⟨h.1, h.2, ?_⟩⟩
  have e1 := p3 l' (by rw [h.1, h.2]; exact q2)
  have e2 := q3 l (by rw [← h.1, ← h.2]; exact p2)
  omega

/-- Two moments of February 2016 on different days. -/
example : EvalsTo (std .debug) (.moment (at_ 2016 2 3 4 5 6)) (at_ 2016 2 3 4 5 6) ∧
    EvalsTo (std .debug) (.moment (at_ 2016 1 31 7 8 9) + .days 29) (at_ 2016 2 29 7 8 9) ∧
    calculate (std .debug) (.endOfMonth (.moment (at_ 2016 2 3 4 5 6))) =
      calculate (std .debug) (.endOfMonth (.moment (at_ 2016 1 31 7 8 9) + .days 29)) ∧
    calculate (std .debug) (.endOfDay (.moment (at_ 2016 2 3 4 5 6))) ≠
      calculate (std .debug) (.endOfDay (.moment (at_ 2016 1 31 7 8 9) + .days 29)) :=
  ⟨⟨by decide +kernel, by decide +kernel, by decide +kernel⟩, ⟨by decide +kernel, by decide +kernel, by decide +kernel⟩,
    by decide +kernel, by decide +kernel⟩

end Props
