import Verif.Props.BackAgain

/-!
# C113: exactly when subtracting the same seconds, minutes or hours keeps the order
-/

namespace Props
open Kairos Spec

/-- Subtracting `n` of the unit `u` (`b` of them make the unit above) from `m` leads one unit above too far back: `n` is the value of that component and `b` more.
Not so for hours on the first of a month after one of 30 days, where a second mistake cancels the first. -/
def TooFarBack (m : Moment) (u : TUnit) (b n : Int) : Prop :=
  n = part m u + b ∧ ¬ (u = .hour ∧ m.day = 1 ∧ (m.month = 5 ∨ m.month = 7 ∨ m.month = 10 ∨ m.month = 12))

/-- The shift of a successful subtraction: none, or one unit above too far back. -/
private theorem shift_of (c : Cfg) (hc : Sane c) (m r : Moment) (hm : m.Valid c) (u : TUnit) (b : Int)
    (hu : (u = .second ∧ b = 60) ∨ (u = .minute ∧ b = 60) ∨ (u = .hour ∧ b = 24))
    (n : Int) (hn : 0 ≤ n) (hb : n * u.secs ≤ 371085171523200) (Y M : Int) (hM : 1 ≤ M ∧ M ≤ 12)
    (hprev : Cal.monthIndex Y M = Cal.monthIndex m.year m.month - 1)
    (e : calculate c (.moment m - amt u n) = .ok (.moment r)) :
    (r.instant = m.instant - n * u.secs ∧
      (n ≠ part m u + b ∨ (u = .hour ∧ m.day = 1 ∧ Cal.monthLen Y M = 30))) ∨
    (r.instant = m.instant - n * u.secs - b * u.secs ∧ n = part m u + b ∧
      ¬ (u = .hour ∧ m.day = 1 ∧ Cal.monthLen Y M = 30) ∧ (u = .hour → m.day = 2 → Cal.monthLen Y M = 31)) := by
  have hn32 : n < 4294967296 := by
    by_cases hs : 63 * 86400 ≤ n * u.secs
    · obtain ⟨_, _, _, _, _, _, f⟩ := C21_two_months_rejected_partial c hc m hm u
        (by rcases hu with ⟨h, -⟩ | ⟨h, -⟩ | ⟨h, -⟩ <;> simp [h]) n hs hb
      rw [f] at e; cases e
    · rcases hu with ⟨rfl, -⟩ | ⟨rfl, -⟩ | ⟨rfl, -⟩ <;> simp only [TUnit.secs] at hs <;> omega
  obtain ⟨hle, hrv, -, hcase⟩ := (C21_time_partial c hc m r hm u b hu n hn hn32 Y M hM hprev _ _ rfl rfl).1.1 e
  have hL := @Cal.monthLen_bounds Y M hM.1 hM.2
  have hday : m.instant = Cal.instant m.year m.month 1 0 0 0 + (m.day - 1) * 86400 + m.hour * 3600 + m.minute * 60 + m.second := by
    simp only [Moment.instant, Cal.instant, Cal.dayNumber]; omega
  obtain ⟨-, -, hv, ht, -⟩ := hm
  have hd1 : 1 ≤ m.day := hv.2.2.1
  obtain ⟨t1, t2, t3, t4, t5, t6⟩ := ht
  generalize Cal.instant m.year m.month 1 0 0 0 = st at *
  by_cases hx : n = part m u + b
  · rw [if_pos hx] at hcase
    rcases hu with ⟨rfl, rfl⟩ | ⟨rfl, rfl⟩ | ⟨rfl, rfl⟩ <;> simp only [TUnit.secs, part, reduceCtorEq, false_and, true_and, or_false, not_false_eq_true, false_implies, and_true, true_implies] at * <;> omega
  · rw [if_neg hx] at hcase
    rcases hu with ⟨rfl, rfl⟩ | ⟨rfl, rfl⟩ | ⟨rfl, rfl⟩ <;> simp only [TUnit.secs, part, reduceCtorEq, false_and, true_and, or_false, not_false_eq_true, false_implies, and_true, true_implies] at * <;> omega

/-- The month before. -/
private theorem prev_exists (m : Moment) (hm : 1 ≤ m.month ∧ m.month ≤ 12) : ∃ Y M, (1 ≤ M ∧ M ≤ 12) ∧
    Cal.monthIndex Y M = Cal.monthIndex m.year m.month - 1 ∧
    (Cal.monthLen Y M = 30 ↔ m.month = 5 ∨ m.month = 7 ∨ m.month = 10 ∨ m.month = 12) := by
  by_cases h : m.month = 1
  · refine ⟨m.year - 1, 12, by omega, by simp only [Cal.monthIndex]; omega, ?_⟩
    simp [Cal.monthLen, h]
  · refine ⟨m.year, m.month - 1, by omega, by simp only [Cal.monthIndex]; omega, ?_⟩
    have hr : m.month = 2 ∨ m.month = 3 ∨ m.month = 4 ∨ m.month = 5 ∨ m.month = 6 ∨ m.month = 7 ∨ m.month = 8 ∨ m.month = 9 ∨
      m.month = 10 ∨ m.month = 11 ∨ m.month = 12 := by omega
    rcases hr with e | e | e | e | e | e | e | e | e | e | e <;> rw [e] <;> simp [Cal.monthLen]
    split <;> decide

/-- The instant of a successful subtraction. -/
private theorem back_instant (c : Cfg) (hc : Sane c) (m r : Moment) (hm : m.Valid c) (u : TUnit) (b : Int)
    (hu : (u = .second ∧ b = 60) ∨ (u = .minute ∧ b = 60) ∨ (u = .hour ∧ b = 24))
    (n : Int) (hn : 0 ≤ n) (hb : n * u.secs ≤ 371085171523200)
    (e : calculate c (.moment m - amt u n) = .ok (.moment r)) :
    (¬ TooFarBack m u b n → r.instant = m.instant - n * u.secs) ∧
    (TooFarBack m u b n → r.instant = m.instant - n * u.secs - b * u.secs) := by
  obtain ⟨Y, M, hM, hp, hl⟩ := prev_exists m ⟨hm.2.2.1.1, hm.2.2.1.2.1⟩
  have hs := shift_of c hc m r hm u b hu n hn hb Y M hM hp e
  rw [hl] at hs
  unfold TooFarBack
  rcases hs with ⟨h1, h2⟩ | ⟨h1, h2, h3, -⟩
  · refine ⟨fun _ => h1, fun ⟨hx, hy⟩ => ?_⟩
    rcases h2 with h2 | h2
    · exact absurd hx h2
    · exact absurd h2 hy
  · exact ⟨fun h => absurd ⟨h2, h3⟩ h, fun _ => h1⟩

/-- **C113, seconds, minutes and hours, exactly when it holds (partial)**, up to eleven million years. If both subtractions succeed, the order is kept unless the later moment, and not the
earlier one, is taken one unit above too far back (`TooFarBack`) and the two moments are at most one unit above apart. -/
theorem C113_time_iff_partial (c : Cfg) (hc : Sane c) (m₁ m₂ r₁ r₂ : Moment) (h1 : m₁.Valid c) (h2 : m₂.Valid c)
    (u : TUnit) (b : Int) (hu : (u = .second ∧ b = 60) ∨ (u = .minute ∧ b = 60) ∨ (u = .hour ∧ b = 24))
    (n : Int) (hn : 0 ≤ n) (hb : n * u.secs ≤ 371085171523200)
    (h : m₁.instant < m₂.instant)
    (e₁ : calculate c (.moment m₁ - amt u n) = .ok (.moment r₁))
    (e₂ : calculate c (.moment m₂ - amt u n) = .ok (.moment r₂)) :
    r₁.instant < r₂.instant ↔ (TooFarBack m₂ u b n → ¬ TooFarBack m₁ u b n → b * u.secs < m₂.instant - m₁.instant) := by
  obtain ⟨a1, a2⟩ := back_instant c hc m₁ r₁ h1 u b hu n hn hb e₁
  obtain ⟨b1, b2⟩ := back_instant c hc m₂ r₂ h2 u b hu n hn hb e₂
  have hB : 0 ≤ b * u.secs := by rcases hu with ⟨rfl, rfl⟩ | ⟨rfl, rfl⟩ | ⟨rfl, rfl⟩ <;> decide
  generalize b * u.secs = B at *
  generalize n * u.secs = N at *
  by_cases f1 : TooFarBack m₁ u b n <;> by_cases f2 : TooFarBack m₂ u b n <;>
    simp only [f1, f2, not_true_eq_false, not_false_eq_true, true_implies, false_implies, iff_true] at * <;> omega

/-- 70 minutes before 12:10 goes wrong, before 11:50 not, and the two are 20 minutes apart; the order is kept for 10:50, which is 80 minutes apart. -/
example : calculate (std .debug) (.moment (at_ 2017 1 1 11 50 0) - .minutes 70) = .ok (.moment (at_ 2017 1 1 10 40 0)) ∧
    calculate (std .debug) (.moment (at_ 2017 1 1 12 10 0) - .minutes 70) = .ok (.moment (at_ 2017 1 1 10 0 0)) ∧
    TooFarBack (at_ 2017 1 1 12 10 0) .minute 60 70 ∧ ¬ TooFarBack (at_ 2017 1 1 11 50 0) .minute 60 70 := by
  refine ⟨by decide +kernel, by decide +kernel, ?_, ?_⟩ <;> unfold TooFarBack <;> decide +kernel

example : calculate (std .debug) (.moment (at_ 2017 1 1 10 50 0) - .minutes 70) = .ok (.moment (at_ 2017 1 1 9 40 0)) ∧
    calculate (std .debug) (.moment (at_ 2017 1 1 12 10 0) - .minutes 70) = .ok (.moment (at_ 2017 1 1 10 0 0)) := by decide +kernel

/-- 34 hours before 10:00 on 1 May are right. -/
example : calculate (std .debug) (.moment (at_ 2017 4 30 10 30 0) - .hours 34) = .ok (.moment (at_ 2017 4 28 0 30 0)) ∧
    calculate (std .debug) (.moment (at_ 2017 5 1 10 0 0) - .hours 34) = .ok (.moment (at_ 2017 4 30 0 0 0)) ∧
    TooFarBack (at_ 2017 4 30 10 30 0) .hour 24 34 ∧ ¬ TooFarBack (at_ 2017 5 1 10 0 0) .hour 24 34 := by
  refine ⟨by decide +kernel, by decide +kernel, ?_, ?_⟩ <;> unfold TooFarBack <;> decide +kernel

end Props
