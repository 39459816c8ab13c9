import Verif.Props.Weekdays
import Verif.Props.Values

/-!
# C133: the first, second, third, fourth and fifth of a weekday in a month
-/

namespace Props
open Kairos Spec

/-- `K` days after the 1st, still in that month. -/
private theorem in_month {c : Cfg} {m r : Moment} {K : Int} (hm : m.Valid c) (hr : r.Valid c) (h1 : m.day = 1) (hK : 0 ≤ K) (hl : K < Cal.monthLen m.year m.month)
    (h : DaysLater m r K) : r.year = m.year ∧ r.month = m.month ∧ r.day = K + 1 := by
  obtain ⟨-, -, ⟨a1, a2, -, -⟩, -⟩ := hm
  have e := h.1
  rw [h1] at e
  exact Cal.dayNumber_inj hr.2.2.1 (y' := m.year) (m' := m.month) (d' := K + 1) ⟨a1, a2, by omega, by omega⟩ (by
    rw [e]; unfold Cal.dayNumber; omega)

/-- **C133.** From the 1st of a month (at any time of day), the first four dates of `daily(1).every(day)` are in that month: the one at position `q` is on one of the days
`7 q + 1` to `7 q + 7`, and it is the only one of these with that weekday. So it is the first, second, third or fourth of the month. There always are four. -/
theorem C133_nth (c : Cfg) (hc : Sane c) (m : Moment) (hm : m.Valid c) (h1 : m.day = 1) (d : Day) (it : Iter) (hit : Ext.daily (.moment m) 1 = .ok it)
    (fuel : Nat) (hf : 7 ≤ fuel) (q : Nat) (hq : q < 4) :
    ∃ r, nth (filterNext (Iter.next c) d.matches fuel) q it = some (.ok (.moment r)) ∧ r.Valid c ∧ r.year = m.year ∧ r.month = m.month ∧
      7 * q + 1 ≤ r.day ∧ r.day ≤ 7 * q + 7 ∧ (r.hour, r.minute, r.second) = (m.hour, m.minute, m.second) ∧ (TT.moment r).isA d = .ok true ∧
      ∀ r' : Moment, r'.Valid c → r'.year = m.year → r'.month = m.month → 7 * q + 1 ≤ r'.day → r'.day ≤ 7 * q + 7 → (TT.moment r').isA d = .ok true → r'.day = r.day := by
  have hml := Cal.monthLen_bounds (y := m.year) hm.2.2.1.1 hm.2.2.1.2.1
  rcases C67_daily_every c hc m hm d it hit fuel hf q with ⟨r, e, v, ha, hl⟩ | ⟨hi, -⟩
  · obtain ⟨e1, e2, e3⟩ := in_month hm v h1 (by omega) (by omega) hl
    refine ⟨r, e, v, e1, e2, by omega, by omega, by rw [hl.2.1, hl.2.2.1, hl.2.2.2], ha, ?_⟩
    intro r' v' f1 f2 f3 f4 ha'
    have w : r.weekday = d.into := by simpa [TT.isA] using ha
    have w' : r'.weekday = d.into := by simpa [TT.isA] using ha'
    rw [← w'] at w
    unfold Moment.weekday Cal.weekday at w
    rw [e1, e2, f1, f2] at w
    unfold Cal.dayNumber at w
    omega
  · exfalso
    -- the last day of the month is in range
    have hlast : ({ m with day := Cal.monthLen m.year m.month } : Moment).Valid c :=
      ⟨hm.1, hm.2.1, ⟨hm.2.2.1.1, hm.2.2.1.2.1, by simp only; omega, Int.le_refl _⟩, hm.2.2.2⟩
    have := moment_lt_end hlast
    have e : ({ m with day := Cal.monthLen m.year m.month } : Moment).instant = m.instant + (Cal.monthLen m.year m.month - 1) * 86400 := by
      unfold Moment.instant Cal.instant Cal.dayNumber
      simp only [h1]
      omega
    omega

/-- The third Thursday of June 2017 is the 15th. -/
example : ∃ r, nth (filterNext (Iter.next (std .debug)) (Day.matches .thursday) 7) 2 ⟨.moment (at_ 2017 6 1 9 0 0), .days 1, false⟩ = some (.ok (.moment r)) ∧
    r.year = 2017 ∧ r.month = 6 ∧ 15 ≤ r.day ∧ r.day ≤ 21 := by
  obtain ⟨r, h, -, h1, h2, h3, h4, -⟩ := C133_nth (std .debug) (sane_std _) (at_ 2017 6 1 9 0 0) (by decide) rfl .thursday _ rfl 7 (by decide) 2 (by decide)
  exact ⟨r, h, h1, h2, by omega, by omega⟩

/-- **C133 (the fifth).** The next date, at position 4, is in the month of the 1st if and only if the weekday is that of one of the first days of the month, as many as the month has more
than 28; then it is one of the last days of the month. -/
theorem C133_fifth (c : Cfg) (hc : Sane c) (m r : Moment) (hm : m.Valid c) (h1 : m.day = 1) (d : Day) (it : Iter) (hit : Ext.daily (.moment m) 1 = .ok it)
    (fuel : Nat) (hf : 7 ≤ fuel) (h : nth (filterNext (Iter.next c) d.matches fuel) 4 it = some (.ok (.moment r))) :
    ((r.year = m.year ∧ r.month = m.month) ↔ (d.into - m.weekday) % 7 < Cal.monthLen m.year m.month - 28) ∧
    (r.year = m.year ∧ r.month = m.month → r.day = 29 + (d.into - m.weekday) % 7) := by
  rcases C67_daily_every c hc m hm d it hit fuel hf 4 with ⟨r', e, v, ha, hl⟩ | ⟨-, _, _, _, _, _, _, e⟩
  · rw [h] at e
    cases e
    have key : r.year = m.year ∧ r.month = m.month → r.day = 29 + (d.into - m.weekday) % 7 := by
      rintro ⟨e1, e2⟩
      have := hl.1
      unfold Cal.dayNumber at this
      rw [e1, e2, h1] at this
      omega
    refine ⟨⟨fun he => ?_, fun hlt => ?_⟩, key⟩
    · have := key he
      have := v.2.2.1.2.2.2
      rw [he.1, he.2] at this
      omega
    · have := in_month hm v h1 (by omega) (by omega) hl
      exact ⟨this.1, this.2.1⟩
  · rw [h] at e; cases e

/-- June 2017 has a fifth Friday, the 30th, but no fifth Saturday. -/
example : nth (filterNext (Iter.next (std .debug)) (Day.matches .friday) 7) 4 ⟨.moment (at_ 2017 6 1 9 0 0), .days 1, false⟩ = some (.ok (.moment (at_ 2017 6 30 9 0 0))) ∧
    nth (filterNext (Iter.next (std .debug)) (Day.matches .saturday) 7) 4 ⟨.moment (at_ 2017 6 1 9 0 0), .days 1, false⟩ = some (.ok (.moment (at_ 2017 7 1 9 0 0))) := by
  decide +kernel

end Props
