import Verif.Lemmas.Negative
import Verif.Lemmas.SubExact
import Verif.Spec.Part

/-!
# C21, C60: subtracting amounts of any size
-/

namespace Props
open Kairos Spec

/-- **C60, every amount (partial).** Subtracting a negative number of seconds, minutes, hours, days or months, however large, changes nothing but
that component of the moment, which grows by that number, modulo 2^32: the result is the moment with that component if there is such a moment, and an
OutOfBounds error otherwise. So nothing is carried, and it is right exactly if the component stays in its range. Missing: amounts from -2^32 on
that happen to end up in the range again are wrong, see `C60_refuted`. -/
theorem C60_subtracting_negative_every_partial (c : Cfg) (hc : Sane c) (m : Moment) (hm : m.Valid c) (u : TUnit) (hu : u ≠ .year) (n : Int)
    (hn : n ≤ 0) (hb : -9223372036854775808 ≤ n) (hp : part m u - n ≤ 9223372036854775807) (r : Moment) (hr : r = withPart m u ((part m u - n) % 2 ^ 32)) :
    (r.Valid c → calculate c (.moment m - amt u n) = .ok (.moment r)) ∧
    (¬ r.Valid c → ∃ Y M D H MI S, calculate c (.moment m - amt u n) = .err (.outOfBounds Y M D H MI S)) := by
  have hpos : -9223372036854775808 ≤ part m u - n := by
    obtain ⟨a1, a2, ⟨a3, a4, a5, a6⟩, ⟨t1, t2, t3, t4, t5, t6⟩, -⟩ := hm
    cases u <;> simp only [part] <;> first | exact absurd rfl hu | omega
  rw [sub_closed_full c hc hm u n (by unfold InI64; omega) ⟨hpos, hp⟩]
  obtain ⟨a1, a2, ⟨a3, a4, a5, a6⟩, ⟨t1, t2, t3, t4, t5, t6⟩, -⟩ := hm
  have ml := Cal.monthLen_bounds (y := m.year) a3 a4
  unfold Sane at hc
  have key : Eval.buildMoment c (subP (subComp m u n)) =
      if r.Valid c then .ok (.moment r) else .err (.outOfBounds r.year r.month r.hour r.hour r.minute r.second) := by
    rw [subP_id (by cases u <;> simp only [subComp] <;> omega) (by cases u <;> simp only [subComp] <;> omega)
      (by cases u <;> simp only [subComp] <;> omega) (by cases u <;> simp only [subComp] <;> omega)
      (by cases u <;> simp only [subComp] <;> omega)]
    have hb : Eval.buildMoment c (subComp m u n) = Eval.buildMoment c ⟨r.year, r.month, r.day, r.hour, r.minute, r.second⟩ := by
      subst hr
      unfold Eval.buildMoment
      cases u <;> simp only [subComp, withPart, part, asU32, asI32, Int.reducePow, Int.emod_emod_of_dvd, Int.dvd_refl]
      exact absurd rfl hu
    rw [hb, build_in c (by subst hr; cases u <;> simp only [withPart, part] <;> first | exact absurd rfl hu | omega)
      (by subst hr; cases u <;> simp only [withPart, part] <;> first | exact absurd rfl hu | omega) (by subst hr; cases u <;> simp only [withPart, part] <;> first | exact absurd rfl hu | omega)
      (by subst hr; cases u <;> simp only [withPart, part] <;> first | exact absurd rfl hu | omega) (by subst hr; cases u <;> simp only [withPart, part] <;> first | exact absurd rfl hu | omega)
      (by subst hr; cases u <;> simp only [withPart, part] <;> first | exact absurd rfl hu | omega) (by subst hr; cases u <;> simp only [withPart, part] <;> first | exact absurd rfl hu | omega)]
    have hz : r.nano = 0 := by subst hr; cases u <;> rfl
    have hv : r.Valid c ↔ c.minYear ≤ r.year ∧ r.year ≤ c.maxYear ∧ Cal.ValidDate r.year r.month r.day ∧
        Cal.ValidTime r.hour r.minute r.second := by
      unfold Moment.Valid; simp [hz]
    simp only [hv]
    split
    · congr 2
      obtain ⟨y, mo, d, h, mi, s, nn⟩ := r
      simp only at hz
      simp [hz]
    · rfl
  rw [key]
  exact ⟨fun h => by rw [if_pos h], fun h => by rw [if_neg h]; exact ⟨_, _, _, _, _, _, rfl⟩⟩

/-- Half past eleven less -29 minutes, less -30 minutes, and less -(2^32 + 5) minutes. -/
example : calculate (std .debug) (.moment (at_ 2017 6 15 11 30 0) - .minutes (-29)) = .ok (.moment (at_ 2017 6 15 11 59 0)) ∧
    calculate (std .debug) (.moment (at_ 2017 6 15 11 30 0) - .minutes (-30)) = .err (.outOfBounds 2017 6 11 11 60 0) ∧
    calculate (std .debug) (.moment (at_ 2017 6 15 11 30 0) - .minutes (-4294967301)) = .ok (.moment (at_ 2017 6 15 11 35 0)) ∧
    withPart (at_ 2017 6 15 11 30 0) .minute ((part (at_ 2017 6 15 11 30 0) .minute - (-4294967301)) % 2 ^ 32) = at_ 2017 6 15 11 35 0 := by
  decide +kernel

/-- **C60 (partial).** In particular, exactly when it is right, down to -4294967200. -/
theorem C60_subtracting_negative_iff_partial (c : Cfg) (hc : Sane c) (m : Moment) (hm : m.Valid c) (u : TUnit) (hu : u ≠ .year)
    (n : Int) (hn : n ≤ 0) (hb : -4294967200 ≤ n) :
    calculate c (.moment m - amt u n) = .ok (.moment (withPart m u (part m u - n))) ↔ (withPart m u (part m u - n)).Valid c := by
  have hpos : 0 ≤ part m u ∧ part m u ≤ 60 := by
    obtain ⟨a1, a2, ⟨a3, a4, a5, a6⟩, ⟨t1, t2, t3, t4, t5, t6⟩, -⟩ := hm
    have ml := Cal.monthLen_bounds (y := m.year) a3 a4
    cases u <;> simp only [part] <;> first | exact absurd rfl hu | omega
  have h := C60_subtracting_negative_every_partial c hc m hm u hu n hn (by omega) (by omega) _ rfl
  rw [Int.emod_eq_of_lt (by omega) (by omega)] at h
  refine ⟨fun h' => ?_, h.1⟩
  by_cases hv : (withPart m u (part m u - n)).Valid c
  · exact hv
  · obtain ⟨_, _, _, _, _, _, e⟩ := h.2 hv
    rw [e] at h'
    cases h'

example := C60_subtracting_negative_iff_partial (std .debug) (sane_std _) (at_ 2017 1 28 0 0 0) (by decide) .day (by decide) (-3) (by decide) (by decide)

/-- How far back from the start of the unit above (minute, hour, day; the day before the first of the month counts as 0) the code can go: the values that
the component can have. -/
def window : TUnit → Int × Int
  | .second => (1, 60)
  | .minute => (1, 60)
  | .hour => (1, 24)
  | .day => (0, 30)
  | .month => (0, 11)
  | .year => (0, 0)

/-- **C21, any amount (partial).** Subtracting any number of seconds, minutes, hours or days that goes back before the start of the minute, hour, day
or month: it is an OutOfBounds error unless the distance `x` to that start is at most 60 (24 hours, 30 days) modulo 2^32, in which case the component
of the result is 60 (24, 31) minus that. So nearly everything beyond the unit above is rejected. Missing: what is right, see `C21_exact_iff_partial`. -/
theorem C21_window_partial (c : Cfg) (hc : Sane c) (m : Moment) (hm : m.Valid c) (u : TUnit)
    (hu : u = .second ∨ u = .minute ∨ u = .hour ∨ u = .day) (n x : Int) (hx : x = n - part m u)
    (hs : (if u = .day then 0 else 1) ≤ x) (hb : n ≤ 9223372036854775807) :
    (∃ r, calculate c (.moment m - amt u n) = .ok (.moment r) ∧ (window u).1 ≤ x % 2 ^ 32 ∧ x % 2 ^ 32 ≤ (window u).2 ∧
      part r u = (if u = .day then 31 else (window u).2) - x % 2 ^ 32) ∨
    (∃ Y M D H MI S, calculate c (.moment m - amt u n) = .err (.outOfBounds Y M D H MI S)) := by
  have hn : 0 ≤ n ∧ InI64 (part m u - n) := by
    obtain ⟨a1, a2, ⟨a3, a4, a5, a6⟩, ⟨t1, t2, t3, t4, t5, t6⟩, -⟩ := hm
    unfold InI64
    rcases hu with rfl | rfl | rfl | rfl <;> simp [part] at hx hs ⊢ <;> omega
  rw [sub_closed_full c hc hm u n (by unfold InI64; omega) hn.2]
  cases hr : Eval.buildMoment c (subP (subComp m u n)) with
  | ok v =>
    obtain ⟨r, rfl, er, ⟨-, -, ⟨v1, v2, v3, v4⟩, ⟨w1, w2, w3, w4, w5, w6⟩, -⟩, -⟩ := buildMoment_ok hr
    left
    refine ⟨r, rfl, ?_⟩
    obtain ⟨a1, a2, ⟨a3, a4, a5, a6⟩, ⟨t1, t2, t3, t4, t5, t6⟩, -⟩ := hm
    have ml := Cal.monthLen_bounds (y := r.year) v1 v2
    rcases hu with rfl | rfl | rfl | rfl
    · have hp : r.second = asU32 (60 + (m.second - n)) := by
        rw [er]
        simp only [subP, subComp, part] at *
        rcases bP_spec (m.second - n) 0 60 60 m.minute with ⟨-, -, h⟩ | ⟨h, -⟩
        · rw [h]
        · simp only [if_false, reduceCtorEq] at hs; omega
      simp only [part, window, asU32] at *
      simp only [if_false, reduceCtorEq] at *
      omega
    · have e1 : bP m.second 0 60 60 (m.minute - n) = (m.minute - n, m.second) := by unfold bP; rw [if_neg (by omega)]
      have hp : r.minute = asU32 (60 + (m.minute - n)) := by
        rw [er]
        simp only [subP, subComp, part, e1] at *
        rcases bP_spec (m.minute - n) 0 60 60 m.hour with ⟨-, -, h⟩ | ⟨h, -⟩
        · rw [h]
        · simp only [if_false, reduceCtorEq] at hs; omega
      simp only [part, window, asU32] at *
      simp only [if_false, reduceCtorEq] at *
      omega
    · have e1 : bP m.second 0 60 60 m.minute = (m.minute, m.second) := by unfold bP; rw [if_neg (by omega)]
      have e2 : bP m.minute 0 60 60 (m.hour - n) = (m.hour - n, m.minute) := by unfold bP; rw [if_neg (by omega)]
      have hp : r.hour = asU32 (24 + (m.hour - n)) := by
        rw [er]
        simp only [subP, subComp, part, e1, e2] at *
        rcases bP_spec (m.hour - n) 0 24 24 m.day with ⟨-, -, h⟩ | ⟨h, -⟩
        · rw [h]
        · simp only [if_false, reduceCtorEq] at hs; omega
      simp only [part, window, asU32] at *
      simp only [if_false, reduceCtorEq] at *
      omega
    · have e1 : bP m.second 0 60 60 m.minute = (m.minute, m.second) := by unfold bP; rw [if_neg (by omega)]
      have e2 : bP m.minute 0 60 60 m.hour = (m.hour, m.minute) := by unfold bP; rw [if_neg (by omega)]
      have e3 : bP m.hour 0 24 24 (m.day - n) = (m.day - n, m.hour) := by unfold bP; rw [if_neg (by omega)]
      have hp : r.day = asU32 (31 + (m.day - n)) := by
        rw [er]
        simp only [subP, subComp, part, e1, e2, e3] at *
        rcases bP_spec (m.day - n) 1 32 31 m.month with ⟨-, -, h⟩ | ⟨h, -⟩
        · rw [h]
        · simp only [if_true] at hs; omega
      simp only [part, window, asU32] at *
      simp only [if_true] at *
      omega
  | err e =>
    right
    unfold Eval.buildMoment at hr
    split at hr
    · cases hr
    · cases hr; exact ⟨_, _, _, _, _, _, rfl⟩
  | panic => exact absurd hr (by unfold Eval.buildMoment; split <;> simp)
  | oof => exact absurd hr (by unfold Eval.buildMoment; split <;> simp)

/-- 12:10 less 70 minutes (an hour too far), less 71 minutes and less 5 billion minutes. -/
example : calculate (std .debug) (.moment (at_ 2017 1 1 12 10 0) - .minutes 70) = .ok (.moment (at_ 2017 1 1 10 0 0)) ∧
    calculate (std .debug) (.moment (at_ 2017 1 1 12 10 0) - .minutes 71) = .err (.outOfBounds 2017 1 10 10 4294967295 0) ∧
    calculate (std .debug) (.moment (at_ 2017 1 1 12 10 0) - .minutes 5000000000) =
      .err (.outOfBounds (-6330) 4294858802 4211633998 4211633998 3589934662 0) := by
  decide +kernel

end Props
