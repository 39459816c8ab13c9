import Verif.Props.HowFar

/-!
# C171: the times of a weekday

`hourly(1).every(Monday)` yields the hours of the Mondays.
-/

namespace Props
open Kairos Spec

/-- **C171.** An iterator with steps of `n` seconds, minutes, hours or days that are at most a day long and of which some fill six days, with `every(day)`. The first item is the
start itself if it has the weekday. After each item comes the one a step later if that is still the same day, and otherwise the one a step and six days later, which is the first
of the same weekday of the next week; past chrono's last year it is an OutOfBounds error. No call looks at more than `N + 1` items, if `N` steps are six days. -/
theorem C171_times (c : Cfg) (hc : Sane c) (m : Moment) (hm : m.Valid c) (u : TUnit) (hu : u = .second ∨ u = .minute ∨ u = .hour ∨ u = .day)
    (n : Int) (hn : 1 ≤ n) (hmax : n * u.secs ≤ 86400) (it : Iter) (hit : Iter.build m (amt u n) = .ok it) (d : Day)
    (N : Nat) (hN : (N : Int) * (n * u.secs) = 6 * 86400) (fuel : Nat) (hf : N < fuel) :
    (m.weekday = d.into → nth (filterNext (Iter.next c) d.matches fuel) 0 it = some (.ok (.moment m))) ∧
    ∀ (q : Nat) (r : Moment), nth (filterNext (Iter.next c) d.matches fuel) q it = some (.ok (.moment r)) →
      ∀ T, T = r.instant + n * u.secs + (if r.hour * 3600 + r.minute * 60 + r.second + n * u.secs < 86400 then 0 else 6 * 86400) →
        (T < Cal.instant (c.maxYear + 1) 1 1 0 0 0 →
          ∃ r' : Moment, nth (filterNext (Iter.next c) d.matches fuel) (q + 1) it = some (.ok (.moment r')) ∧ r'.Valid c ∧ r'.instant = T ∧ r'.nano = 0) ∧
        (Cal.instant (c.maxYear + 1) 1 1 0 0 0 ≤ T →
          ∃ Y M D H MI S, nth (filterNext (Iter.next c) d.matches fuel) (q + 1) it = some (.err (.outOfBounds Y M D H MI S))) := by
  have hs : 1 ≤ n * u.secs := by
    have : 1 * 1 ≤ n * u.secs := Int.mul_le_mul hn (by cases u <;> decide) (by decide) (by omega)
    omega
  obtain ⟨pos, -, hinc, hpos, hF⟩ := C168_weekday c hc m hm u hu n hn hmax it hit d N (by omega)
  have hF := hF fuel hf
  have item := C34_kth_item c hc m hm u hu n (by omega) (by omega) it hit
  generalize n * u.secs = s at hs hmax hN item ⊢
  have isA : ∀ r : Moment, (TT.moment r).isA d = .ok true ↔ r.weekday = d.into := fun r => by simp [TT.isA]
  have wd : ∀ r : Moment, r.Valid c → r.weekday = (r.instant / 86400 - 1) % 7 := by
    rintro r ⟨-, -, -, ⟨h1, h2, h3, h4, h5, h6⟩, -⟩
    unfold Moment.weekday Cal.weekday Moment.instant Cal.instant
    omega
  have inside : ∀ r : Moment, r.Valid c → r.instant < Cal.instant (c.maxYear + 1) 1 1 0 0 0 := by
    rintro r ⟨-, h, v, ⟨h1, h2, h3, h4, h5, h6⟩, -⟩
    have v1 : Cal.ValidDate (c.maxYear + 1) 1 1 := ⟨by decide, by decide, by decide, by have := Cal.monthLen_bounds (y := c.maxYear + 1) (m := 1) (by decide) (by decide); omega⟩
    have := (Cal.dayNumber_lt_iff v v1).2 (.inl (by omega))
    unfold Moment.instant Cal.instant
    omega
  have mono : ∀ q e, pos q + e ≤ pos (q + e) := by
    intro q e
    induction e with
    | zero => exact Nat.le_refl _
    | succ e ih =>
      have : pos (q + e) < pos (q + (e + 1)) := (hinc (q + e)).1
      omega
  refine ⟨fun h => ?_, fun q r hr T hT => ?_⟩
  · rw [hF]
    rcases item 0 with ⟨r, h1, v, i, e⟩ | ⟨i, -⟩
    · have hr : r = m := by
        obtain ⟨f1, f2, f3, f4, f5, f6⟩ := Cal.instant_inj v.2.2.1 hm.2.2.1 v.2.2.2.1 hm.2.2.2.1 (by unfold Moment.instant at i; simpa using i)
        obtain ⟨y, mm, dd, hh, mi, ss, nn⟩ := r
        simp only [if_true] at f1 f2 f3 f4 f5 f6 e
        rw [f1, f2, f3, f4, f5, f6, e]
      subst hr
      obtain ⟨q, hq⟩ := (hpos 0 _ h1).2 ((isA _).2 h)
      have := mono 0 q
      rw [Nat.zero_add] at this
      rw [show pos 0 = 0 by omega, h1]
    · have := inside m hm
      simp only [Int.natCast_zero, Int.zero_mul, Int.add_zero] at i
      omega
  · rw [hF] at hr
    rw [hF]
    have hrw := (isA r).1 ((hpos _ r hr).1 ⟨q, rfl⟩)
    rcases item (pos q) with ⟨r', h1, v, i, -⟩ | ⟨-, _, _, _, _, _, _, h1⟩ <;> rw [hr] at h1 <;> cases h1
    rw [wd r v] at hrw
    have tod : r.hour * 3600 + r.minute * 60 + r.second = r.instant % 86400 := by
      obtain ⟨h1, h2, h3, h4, h5, h6⟩ := v.2.2.2.1
      unfold Moment.instant Cal.instant
      omega
    rw [tod] at hT
    -- the item `j` steps on
    have at_ : ∀ j : Nat, m.instant + ((pos q + j : Nat) : Int) * s = r.instant + j * s := by
      intro j
      rw [i, Int.natCast_add, Int.add_mul, Int.add_assoc]
    obtain ⟨J, hJ1, hJ⟩ : ∃ J : Nat, 1 ≤ J ∧ T = r.instant + J * s := by
      by_cases h : r.instant % 86400 + s < 86400
      · exact ⟨1, by omega, by rw [hT, if_pos h]; simp⟩
      · refine ⟨N + 1, by omega, ?_⟩
        rw [hT, if_neg h, Int.natCast_add, Int.add_mul, hN]
        omega
    have hTw : (T / 86400 - 1) % 7 = d.into := by
      rw [hT]
      split <;> omega
    have least : ∀ j : Nat, 1 ≤ j → ((r.instant + j * s) / 86400 - 1) % 7 = d.into → T ≤ r.instant + j * s := by
      intro j hj hw
      have h1 : 1 * s ≤ j * s := Int.mul_le_mul_of_nonneg_right (by omega) (by omega)
      by_cases h : r.instant % 86400 + s < 86400
      · rw [hT, if_pos h]
        omega
      · rw [hT, if_neg h]
        rcases Nat.lt_or_ge N j with hjN | hjN
        · have h2 : (N + 1 : Int) * s ≤ j * s := Int.mul_le_mul_of_nonneg_right (by omega) (by omega)
          rw [Int.add_mul, hN] at h2
          omega
        · have h2 : (j : Int) * s ≤ N * s := Int.mul_le_mul_of_nonneg_right (by omega) (by omega)
          omega
    obtain ⟨j, hj⟩ : ∃ j : Nat, pos (q + 1) = pos q + j := ⟨pos (q + 1) - pos q, by have := (hinc q).1; omega⟩
    have hj1 : 1 ≤ j := by have := (hinc q).1; omega
    rw [hj]
    refine ⟨fun hin => ?_, fun hout => ?_⟩
    · have hjJ : j ≤ J := by
        rcases item (pos q + J) with ⟨r', g1, w, g2, -⟩ | ⟨g, -⟩
        · rw [at_, ← hJ] at g2
          obtain ⟨q', hq'⟩ := (hpos _ r' g1).2 ((isA r').2 (by rw [wd r' w, g2]; exact hTw))
          have hqq : q < q' := by
            apply Classical.byContradiction
            intro hh
            have := mono q' (q - q')
            rw [show q' + (q - q') = q by omega] at this
            omega
          have := mono (q + 1) (q' - (q + 1))
          rw [show q + 1 + (q' - (q + 1)) = q' by omega] at this
          omega
        · rw [at_, ← hJ] at g
          omega
      have hle : (j : Int) * s ≤ J * s := Int.mul_le_mul_of_nonneg_right (by omega) (by omega)
      rcases item (pos q + j) with ⟨r', g1, w, g2, g3⟩ | ⟨g, -⟩
      · rw [at_] at g2
        have hw := (isA r').1 ((hpos _ r' g1).1 ⟨q + 1, hj⟩)
        rw [wd r' w, g2] at hw
        have := least j hj1 hw
        exact ⟨r', g1, w, by omega, by rw [g3, if_neg (by omega)]⟩
      · rw [at_] at g
        omega
    · rcases item (pos q + j) with ⟨r', g1, w, g2, -⟩ | ⟨-, h⟩
      · rw [at_] at g2
        have hw := (isA r').1 ((hpos _ r' g1).1 ⟨q + 1, hj⟩)
        rw [wd r' w, g2] at hw
        have := least j hj1 hw
        have := inside r' w
        omega
      · exact h

/-- The hours of Mondays from Monday 19 June 2017 12:00 on: the twelfth is 23:00, the thirteenth 00:00 a week later. Steps of 90 minutes. Steps of five hours do not
fill six days: after Monday 22:00 comes Monday 04:00, not 03:00. -/
example := C171_times (std .debug) (sane_std _) (at_ 2017 6 19 12 0 0) (by decide) .hour (by decide) 1 (by decide) (by decide) _ rfl .monday 144 (by decide) 145 (by decide)
example : nth (filterNext (Iter.next (std .debug)) (Day.matches .monday) 145) 11 ⟨.moment (at_ 2017 6 19 12 0 0), .hours 1, false⟩ = some (.ok (.moment (at_ 2017 6 19 23 0 0))) ∧
    nth (filterNext (Iter.next (std .debug)) (Day.matches .monday) 145) 12 ⟨.moment (at_ 2017 6 19 12 0 0), .hours 1, false⟩ = some (.ok (.moment (at_ 2017 6 26 0 0 0))) := by
  decide +kernel
example := C171_times (std .debug) (sane_std _) (at_ 2017 6 19 12 0 0) (by decide) .minute (by decide) 90 (by decide) (by decide) _ rfl .monday 96 (by decide) 97 (by decide)
example : nth (filterNext (Iter.next (std .debug)) (Day.matches .monday) 31) 2 ⟨.moment (at_ 2017 6 19 12 0 0), .hours 5, false⟩ = some (.ok (.moment (at_ 2017 6 19 22 0 0))) ∧
    nth (filterNext (Iter.next (std .debug)) (Day.matches .monday) 31) 3 ⟨.moment (at_ 2017 6 19 12 0 0), .hours 5, false⟩ = some (.ok (.moment (at_ 2017 6 26 4 0 0))) := by
  decide +kernel

end Props
