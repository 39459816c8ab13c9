import Verif.Props.FindAll
import Verif.Props.Rollback

/-!
# C129: two iterators side by side
-/

namespace Props
open Kairos Spec

/-- **C129 (distance).** Two iterators with the same step of seconds, minutes, hours or days (up to 30 days): their items at the same position are as far apart
as their starts. -/
theorem C129_distance (c : Cfg) (hc : Sane c) (m m' : Moment) (hm : m.Valid c) (hm' : m'.Valid c) (u : TUnit)
    (hu : u = .second ∨ u = .minute ∨ u = .hour ∨ u = .day) (n : Int) (hn : 0 ≤ n) (hmax : n * u.secs ≤ 30 * 86400) (it it' : Iter)
    (hit : Iter.build m (amt u n) = .ok it) (hit' : Iter.build m' (amt u n) = .ok it') (k : Nat) (r r' : Moment)
    (h : nth (Iter.next c) k it = some (.ok (.moment r))) (h' : nth (Iter.next c) k it' = some (.ok (.moment r'))) :
    r'.instant - r.instant = m'.instant - m.instant := by
  rcases C34_kth_item c hc m hm u hu n hn hmax it hit k with ⟨q, hq, -, e, -⟩ | ⟨-, _, _, _, _, _, _, hq⟩
  · rcases C34_kth_item c hc m' hm' u hu n hn hmax it' hit' k with ⟨q', hq', -, e', -⟩ | ⟨-, _, _, _, _, _, _, hq'⟩
    · rw [hq] at h; rw [hq'] at h'; cases h; cases h'; omega
    · rw [hq'] at h'; cases h'
  · rw [hq] at h; cases h

/-- Reminders an hour and a half before each of the meetings, every two weeks. -/
example : Iter.build (at_ 2017 6 1 10 0 0) (amt .day 14) = .ok ⟨.moment (at_ 2017 6 1 10 0 0), .days 14, false⟩ ∧
    Iter.build (at_ 2017 6 1 8 30 0) (amt .day 14) = .ok ⟨.moment (at_ 2017 6 1 8 30 0), .days 14, false⟩ ∧
    nth (Iter.next (std .debug)) 3 ⟨.moment (at_ 2017 6 1 10 0 0), .days 14, false⟩ = some (.ok (.moment (at_ 2017 7 13 10 0 0))) ∧
    nth (Iter.next (std .debug)) 3 ⟨.moment (at_ 2017 6 1 8 30 0), .days 14, false⟩ = some (.ok (.moment (at_ 2017 7 13 8 30 0))) :=
  ⟨rfl, rfl, by decide +kernel, by decide +kernel⟩

/-- **C129 (months).** The same with months, from days up to the 28th: the items at the same position are as many months apart as the starts, and the day and time
of each are those of its start. -/
theorem C129_months (c : Cfg) (hc : Sane c) (m m' : Moment) (hm : m.Valid c) (hm' : m'.Valid c) (hd : m.day ≤ 28) (hd' : m'.day ≤ 28)
    (n : Int) (hn : 0 ≤ n) (hmax : n ≤ 24000000000) (it it' : Iter)
    (hit : Iter.build m (.months n) = .ok it) (hit' : Iter.build m' (.months n) = .ok it') (k : Nat) (r r' : Moment)
    (h : nth (Iter.next c) k it = some (.ok (.moment r))) (h' : nth (Iter.next c) k it' = some (.ok (.moment r'))) :
    Cal.monthIndex r'.year r'.month - Cal.monthIndex r.year r.month = Cal.monthIndex m'.year m'.month - Cal.monthIndex m.year m.month ∧
    (r.day, r.hour, r.minute, r.second) = (m.day, m.hour, m.minute, m.second) ∧
    (r'.day, r'.hour, r'.minute, r'.second) = (m'.day, m'.hour, m'.minute, m'.second) := by
  obtain ⟨Y, M, -, -, e, ⟨-, hq⟩ | ⟨-, _, _, _, _, _, _, hq⟩⟩ := C35_monthly c hc m hm hd n hn hmax it hit k
  · obtain ⟨Y', M', -, -, e', ⟨-, hq'⟩ | ⟨-, _, _, _, _, _, _, hq'⟩⟩ := C35_monthly c hc m' hm' hd' n hn hmax it' hit' k
    · rw [hq] at h; rw [hq'] at h'; cases h; cases h'
      refine ⟨?_, rfl, rfl⟩
      show Cal.monthIndex Y' M' - Cal.monthIndex Y M = _
      rw [e, e']; omega
    · rw [hq'] at h'; cases h'
  · rw [hq] at h; cases h

/-- The 3rd and the 17th of every second month, one month apart. -/
example : Iter.build (at_ 2017 1 3 0 0 0) (.months 2) = .ok ⟨.moment (at_ 2017 1 3 0 0 0), .months 2, false⟩ ∧
    Iter.build (at_ 2017 2 17 8 0 0) (.months 2) = .ok ⟨.moment (at_ 2017 2 17 8 0 0), .months 2, false⟩ ∧
    nth (Iter.next (std .debug)) 6 ⟨.moment (at_ 2017 1 3 0 0 0), .months 2, false⟩ = some (.ok (.moment (at_ 2018 1 3 0 0 0))) ∧
    nth (Iter.next (std .debug)) 6 ⟨.moment (at_ 2017 2 17 8 0 0), .months 2, false⟩ = some (.ok (.moment (at_ 2018 2 17 8 0 0))) :=
  ⟨rfl, rfl, by decide +kernel, by decide +kernel⟩

/-- **C129 (the same step).** Two iterators with the same step, starting on whole seconds, have a date in common if and only if their starts are a whole number of
steps apart. -/
theorem C129_same_step (c : Cfg) (hc : Sane c) (m m' : Moment) (hm : m.Valid c) (hm' : m'.Valid c) (hz : m.nano = 0) (hz' : m'.nano = 0) (u : TUnit)
    (hu : u = .second ∨ u = .minute ∨ u = .hour ∨ u = .day) (n : Int) (hn : 0 < n) (hmax : n * u.secs ≤ 30 * 86400) (it it' : Iter)
    (hit : Iter.build m (amt u n) = .ok it) (hit' : Iter.build m' (amt u n) = .ok it') :
    (∃ (k k' : Nat) (r : Moment), nth (Iter.next c) k it = some (.ok (.moment r)) ∧ nth (Iter.next c) k' it' = some (.ok (.moment r))) ↔
      ∃ j : Int, m'.instant = m.instant + j * (n * u.secs) := by
  have hs : 0 < n * u.secs := by
    have : 0 < u.secs := by rcases hu with rfl | rfl | rfl | rfl <;> decide
    exact Int.mul_pos hn this
  have V := C122_visited c hc m hm u hu n hn hmax it hit
  have V' := C122_visited c hc m' hm' u hu n hn hmax it' hit'
  constructor
  · rintro ⟨k, k', r, h, h'⟩
    obtain ⟨-, e, -⟩ := (V k r).1 h
    obtain ⟨-, e', -⟩ := (V' k' r).1 h'
    refine ⟨k - k', ?_⟩
    rw [Int.sub_mul]
    omega
  · rintro ⟨j, hj⟩
    by_cases hj0 : 0 ≤ j
    · refine ⟨j.toNat, 0, m', (V _ _).2 ⟨hm', ?_, ?_⟩, (V' _ _).2 ⟨hm', by simp, by simp⟩⟩
      · rw [hj, Int.toNat_of_nonneg hj0]
      · rw [hz']; split
        · exact hz.symm
        · rfl
    · refine ⟨0, (-j).toNat, m, (V _ _).2 ⟨hm, by simp, by simp⟩, (V' _ _).2 ⟨hm, ?_, ?_⟩⟩
      · rw [hj, Int.toNat_of_nonneg (by omega), Int.neg_mul]; omega
      · rw [hz]; split
        · exact hz'.symm
        · rfl

/-- Every 8 hours from 9:00 and from 1:00 three days later: 64 hours, a whole number of steps. Not so from 2:00. -/
example : (at_ 2017 6 4 1 0 0).instant = (at_ 2017 6 1 9 0 0).instant + 8 * (8 * TUnit.secs .hour) ∧
    ¬ ∃ j : Int, (at_ 2017 6 4 2 0 0).instant = (at_ 2017 6 1 9 0 0).instant + j * (8 * TUnit.secs .hour) := by
  refine ⟨by decide +kernel, ?_⟩
  rintro ⟨j, hj⟩
  have e1 : (at_ 2017 6 4 2 0 0).instant = (at_ 2017 6 1 9 0 0).instant + 234000 := by decide +kernel
  have e2 : TUnit.secs .hour = 3600 := rfl
  rw [e1, e2] at hj
  omega

/-- **C129 (the same start).** Two iterators from the same start with steps of different lengths: the item of one at position `k` is also an item of the other
if and only if the other gets there in a whole number of steps. So they meet at the common multiples of both steps. -/
theorem C129_same_start (c : Cfg) (hc : Sane c) (m : Moment) (hm : m.Valid c) (hz : m.nano = 0) (u u' : TUnit)
    (hu : u = .second ∨ u = .minute ∨ u = .hour ∨ u = .day) (hu' : u' = .second ∨ u' = .minute ∨ u' = .hour ∨ u' = .day)
    (n n' : Int) (hn : 0 < n) (hn' : 0 < n') (hmax : n * u.secs ≤ 30 * 86400) (hmax' : n' * u'.secs ≤ 30 * 86400) (it it' : Iter)
    (hit : Iter.build m (amt u n) = .ok it) (hit' : Iter.build m (amt u' n') = .ok it') (k : Nat) (r : Moment)
    (h : nth (Iter.next c) k it = some (.ok (.moment r))) :
    (∃ k' : Nat, nth (Iter.next c) k' it' = some (.ok (.moment r))) ↔ (n' * u'.secs) ∣ k * (n * u.secs) := by
  have hs : 0 < n * u.secs := by
    have : 0 < u.secs := by rcases hu with rfl | rfl | rfl | rfl <;> decide
    exact Int.mul_pos hn this
  have hs' : 0 < n' * u'.secs := by
    have : 0 < u'.secs := by rcases hu' with rfl | rfl | rfl | rfl <;> decide
    exact Int.mul_pos hn' this
  obtain ⟨hv, e, en⟩ := (C122_visited c hc m hm u hu n hn hmax it hit k r).1 h
  have V' := C122_visited c hc m hm u' hu' n' hn' hmax' it' hit'
  have hrn : r.nano = 0 := by rw [en, hz]; split <;> rfl
  constructor
  · rintro ⟨k', h'⟩
    obtain ⟨-, e', -⟩ := (V' k' r).1 h'
    refine ⟨k', ?_⟩
    rw [Int.mul_comm]; rw [Int.mul_comm] at e e'
    have e'' := e'
    rw [e] at e''
    rw [Int.mul_comm (n' * u'.secs) k'] at e'' ⊢
    omega
  · rintro ⟨j, hj⟩
    have hj0 : 0 ≤ j := by
      have h0 : 0 ≤ (k : Int) * (n * u.secs) := Int.mul_nonneg (by omega) (by omega)
      rw [hj] at h0
      by_cases hneg : 0 ≤ j
      · exact hneg
      · have := Int.mul_lt_mul_of_pos_left (show j < 0 by omega) hs'
        omega
    refine ⟨j.toNat, (V' _ _).2 ⟨hv, ?_, ?_⟩⟩
    · rw [e, Int.toNat_of_nonneg hj0, hj, Int.mul_comm]
    · rw [hrn, hz]; split <;> rfl

/-- Every 6 and every 4 hours: every second item of the former is one of the latter. -/
example : Iter.build (at_ 2017 6 1 0 0 0) (amt .hour 6) = .ok ⟨.moment (at_ 2017 6 1 0 0 0), .hours 6, false⟩ ∧
    Iter.build (at_ 2017 6 1 0 0 0) (amt .minute 240) = .ok ⟨.moment (at_ 2017 6 1 0 0 0), .minutes 240, false⟩ ∧
    nth (Iter.next (std .debug)) 4 ⟨.moment (at_ 2017 6 1 0 0 0), .hours 6, false⟩ = some (.ok (.moment (at_ 2017 6 2 0 0 0))) ∧
    (240 * TUnit.secs .minute) ∣ (4 : Nat) * (6 * TUnit.secs .hour) ∧ ¬ (240 * TUnit.secs .minute) ∣ (3 : Nat) * (6 * TUnit.secs .hour) :=
  ⟨rfl, rfl, by decide +kernel, ⟨6, rfl⟩, by decide⟩

end Props
