import Verif.Props.Laws
import Verif.Props.NoCarry
import Verif.Lemmas.MonthAdd

/-!
# C83: amounts of the same length have the same effect
-/

namespace Props
open Kairos Spec

variable {c : Cfg}

theorem codeDate_unique {y N y₁ mo₁ d₁ y₂ mo₂ d₂ : Int} (h₁ : CodeDate y N y₁ mo₁ d₁) (h₂ : CodeDate y N y₂ mo₂ d₂) :
    y₁ = y₂ ∧ mo₁ = mo₂ ∧ d₁ = d₂ := by
  obtain ⟨a1, a2⟩ := h₁
  obtain ⟨b1, b2⟩ := h₂
  by_cases h : N ≤ Cal.yearLen y
  · obtain ⟨p1, p2, p3⟩ := a1 h
    obtain ⟨q1, q2, q3⟩ := b1 h
    have e : Cal.dayNumber y mo₁ d₁ = Cal.dayNumber y mo₂ d₂ := by
      rw [Cal.dayNumber_eq, Cal.dayNumber_eq, p3, q3]
    have := Cal.dayNumber_inj p2 q2 e
    exact ⟨by omega, this.2.1, this.2.2⟩
  · have := a2 (by omega)
    have := b2 (by omega)
    omega

/-- **C83** for adding seconds, minutes, hours and days, without any bound on the amounts but that of
the integer type (up to 100 below its end): two amounts of the same length, say 48 hours and 2 days,
have the same outcome, be it a moment or an error. -/
theorem C83_adding_same_length_partial (c : Cfg) (hc : Sane c) (m : Moment) (hm : m.Valid c) (u v : TUnit)
    (hu : u.secs ≤ 86400) (hv : v.secs ≤ 86400) (n k : Int) (hn : 0 ≤ n) (hn' : n ≤ 9223372036854775700)
    (hk' : k ≤ 9223372036854775700) (h : n * u.secs = k * v.secs) :
    calculate c (.moment m + amt u n) = calculate c (.moment m + amt v k) := by
  have hk : 0 ≤ k := by
    have : 0 ≤ n * u.secs := Int.mul_nonneg hn (by cases u <;> decide)
    rw [h] at this
    revert this
    cases v <;> simp only [TUnit.secs] <;> omega
  obtain ⟨y₁, mo₁, d₁, e₁, c₁⟩ := add_closed c hc hm u hu n hn hn'
  obtain ⟨y₂, mo₂, d₂, e₂, c₂⟩ := add_closed c hc hm v hv k hk hk'
  rw [h] at e₁ c₁
  obtain ⟨rfl, rfl, rfl⟩ := codeDate_unique c₁ c₂
  rw [e₁, e₂]

example : 48 * TUnit.secs .hour = 2 * TUnit.secs .day ∧
    calculate (std .debug) (.moment (at_ 2016 12 31 5 6 7) + amt .hour 48) = .ok (.moment (at_ 2017 1 2 5 6 7)) ∧
    calculate (std .debug) (.moment (at_ 2016 12 31 5 6 7) + amt .day 2) = .ok (.moment (at_ 2017 1 2 5 6 7)) := by
  decide +kernel

/-- **C83** for `weeks(n)`: it is the amount of `7 n` days, as far as that fits.
(Partial. Missing: the other units, see `C83_refuted_adding`.) -/
theorem C83_weeks_partial (c : Cfg) (n : Int) :
    (InI64 (n * 7) → TT.weeks c n = .ok (.days (n * 7))) ∧
    (¬ InI64 (n * 7) → c.profile = .debug → TT.weeks c n = .panic) := by
  unfold TT.weeks Cfg.mul Cfg.chk
  refine ⟨fun h => by rw [if_pos h]; rfl, fun h hp => by rw [if_neg h, hp]; rfl⟩

/-- **C83 (partial), months and years.** Adding `12 k` months or `k` years has the same outcome if the day
is at most the 30th and it is not 29 February. -/
theorem C83_adding_months_partial (c : Cfg) (hc : Sane c) (m : Moment) (hm : m.Valid c) (k : Int) (hk : 0 ≤ k)
    (hk' : k ≤ 2000000000) (hd : m.day ≤ 30) (hf : ¬ (m.month = 2 ∧ m.day = 29)) :
    calculate c (.moment m + .months (12 * k)) = calculate c (.moment m + .years k) := by
  have hc' := hc
  unfold Sane at hc'
  have hm' := hm
  obtain ⟨a1, a2, ⟨a3, a4, a5, a6⟩, t, a7⟩ := hm'
  rw [addMonths_closed c hc hm _ (by omega) (by omega), addYears_closed c hm k (by omega) (by omega)]
  have e : monthDate (m.year + k) m.month m.day = (m.year + k, m.month, m.day) := by
    unfold monthDate
    rw [if_pos a4, if_pos]
    revert a6
    unfold Cal.monthLen
    by_cases h2 : m.month = 2
    · rw [h2]; simp; split <;> split <;> omega
    · simp only [h2, if_false]; intro h; split <;> first | omega | (split at h <;> omega)
  rw [e]
  by_cases h0 : k = 0
  · subst h0
    simp only [Int.mul_zero, Int.add_zero] at e ⊢
    rw [e]
  · unfold monthDate
    rw [if_neg (show ¬ (m.month + 12 * k ≤ 12) by omega), if_pos hd]
    simp only
    rw [show m.year + (m.month + 12 * k - 1) / 12 = m.year + k by omega,
      show (m.month + 12 * k - 1) % 12 + 1 = m.month by omega]

example : calculate (std .debug) (.moment (at_ 2016 1 30 5 6 7) + .months (12 * 3)) = .ok (.moment (at_ 2019 1 30 5 6 7)) ∧
    calculate (std .debug) (.moment (at_ 2016 1 30 5 6 7) + .years 3) = .ok (.moment (at_ 2019 1 30 5 6 7)) := by
  decide +kernel

/-- **C83 refuted** for adding: twelve months from the 31st end up on the 1st of the next month, and twelve
months from 29 February in an error. -/
theorem C83_refuted_adding :
    calculate (std .debug) (.moment (at_ 2017 1 31 0 0 0) + .years 1) = .ok (.moment (at_ 2018 1 31 0 0 0)) ∧
    calculate (std .debug) (.moment (at_ 2017 1 31 0 0 0) + .months 12) = .ok (.moment (at_ 2018 2 1 0 0 0)) ∧
    calculate (std .debug) (.moment (at_ 2016 2 29 0 0 0) + .years 1) = .ok (.moment (at_ 2017 3 1 0 0 0)) ∧
    calculate (std .debug) (.moment (at_ 2016 2 29 0 0 0) + .months 12) = .err (.outOfBounds 2017 2 0 0 0 0) := by
  decide +kernel

/-- **C83, subtracting twelve months** is subtracting a year, for every moment.
(Partial. Missing: adding, and other numbers of months, see `C83_refuted_adding`.) -/
theorem C83_subtracting_12_months_partial (c : Cfg) (hc : Sane c) (m : Moment) (hm : m.Valid c) :
    calculate c (.moment m - .months 12) = calculate c (.moment m - .years 1) := by
  have e1 := sub_closed c hc hm .month 12 (by omega) (by omega)
  have e2 := sub_closed c hc hm .year 1 (by omega) (by omega)
  obtain ⟨a1, a2, ⟨a3, a4, a5, a6⟩, ⟨t1, t2, t3, t4, t5, t6⟩, a7⟩ := hm
  simp only [amt, subComp, subP] at e1 e2
  rw [e1, e2]
  simp only [bP, if_neg (show ¬ m.second < 0 by omega), if_neg (show ¬ m.minute < 0 by omega),
    if_neg (show ¬ m.hour < 0 by omega), if_neg (show ¬ m.day < 1 by omega), if_neg (show ¬ m.month < 1 by omega),
    if_pos (show m.month - 12 < 1 by omega)]
  rw [show -(m.month - 12) / 13 + 1 = 1 by omega, show 12 + (m.month - 12) = m.month by omega]

example := C83_subtracting_12_months_partial (std .debug) (sane_std _) (at_ 2016 2 29 0 0 0) (by decide)

/-- **C83 (partial), subtracting.** Subtracting 60 seconds is subtracting a minute if the moment is not on the
minute; 60 minutes are an hour if it is not on the hour; 24 hours are a day if it is not in the first hour. -/
theorem C83_subtracting_one_partial (c : Cfg) (hc : Sane c) (m : Moment) (hm : m.Valid c) :
    (m.second ≠ 0 → calculate c (.moment m - .seconds 60) = calculate c (.moment m - .minutes 1)) ∧
    (m.minute ≠ 0 → calculate c (.moment m - .minutes 60) = calculate c (.moment m - .hours 1)) ∧
    (m.hour ≠ 0 → calculate c (.moment m - .hours 24) = calculate c (.moment m - .days 1)) := by
  have e (u : TUnit) (n : Int) (h : 0 ≤ n ∧ n ≤ 100) := sub_closed c hc hm u n (by omega) (by omega)
  obtain ⟨a1, a2, ⟨a3, a4, a5, a6⟩, ⟨t1, t2, t3, t4, t5, t6⟩, a7⟩ := hm
  have s60 := e .second 60 (by omega)
  have mi1 := e .minute 1 (by omega)
  have mi60 := e .minute 60 (by omega)
  have h1 := e .hour 1 (by omega)
  have h24 := e .hour 24 (by omega)
  have d1 := e .day 1 (by omega)
  simp only [amt, subComp, subP] at *
  refine ⟨fun h => ?_, fun h => ?_, fun h => ?_⟩
  · rw [s60, mi1]
    have k1 : bP (m.second - 60) 0 60 60 m.minute = (m.minute - 1, m.second) := by
      unfold bP; rw [if_pos (by omega), show -(m.second - 60) / 60 + 1 = 1 by omega, show 60 + (m.second - 60) = m.second by omega]
    have k2 : bP m.second 0 60 60 (m.minute - 1) = (m.minute - 1, m.second) := by
      unfold bP; rw [if_neg (by omega)]
    rw [k1, k2]
  · rw [mi60, h1]
    have k0 (x : Int) : bP m.second 0 60 60 x = (x, m.second) := by
      unfold bP; rw [if_neg (by omega)]
    simp only [k0]
    have k1 : bP (m.minute - 60) 0 60 60 m.hour = (m.hour - 1, m.minute) := by
      unfold bP; rw [if_pos (by omega), show -(m.minute - 60) / 60 + 1 = 1 by omega, show 60 + (m.minute - 60) = m.minute by omega]
    have k2 : bP m.minute 0 60 60 (m.hour - 1) = (m.hour - 1, m.minute) := by
      unfold bP; rw [if_neg (by omega)]
    rw [k1, k2]
  · rw [h24, d1]
    have k0 (x : Int) : bP m.second 0 60 60 x = (x, m.second) := by
      unfold bP; rw [if_neg (by omega)]
    have k0' (x : Int) : bP m.minute 0 60 60 x = (x, m.minute) := by
      unfold bP; rw [if_neg (by omega)]
    simp only [k0, k0']
    have k1 : bP (m.hour - 24) 0 24 24 m.day = (m.day - 1, m.hour) := by
      unfold bP; rw [if_pos (by omega), show -(m.hour - 24) / 24 + 1 = 1 by omega, show 24 + (m.hour - 24) = m.hour by omega]
    have k2 : bP m.hour 0 24 24 (m.day - 1) = (m.day - 1, m.hour) := by
      unfold bP; rw [if_neg (by omega)]
    rw [k1, k2]

example := (C83_subtracting_one_partial (std .debug) (sane_std _) (at_ 2016 3 1 0 30 0) (by decide)).2.1 (by decide)

private theorem build_hour {p q : Parts} (h : Eval.buildMoment c p = Eval.buildMoment c q) :
    asU32 p.h = asU32 q.h ∧ asU32 p.mi = asU32 q.mi ∧ asU32 p.s = asU32 q.s := by
  cases e : Eval.buildMoment c p with
  | ok v =>
    obtain ⟨r, e1, e2, -⟩ := buildMoment_ok e
    obtain ⟨r', e3, e4, -⟩ := buildMoment_ok (h ▸ e)
    rw [e1] at e3
    have e5 : r = r' := by injection e3
    rw [e2, e4] at e5
    simp only [Moment.mk.injEq] at e5
    exact ⟨e5.2.2.2.1, e5.2.2.2.2.1, e5.2.2.2.2.2.1⟩
  | err x =>
    have e' := h ▸ e
    unfold Eval.buildMoment at e e'
    split at e
    · cases e
    · split at e'
      · cases e'
      · rw [← e] at e'
        injection e' with e'
        injection e'
        refine ⟨?_, ?_, ?_⟩ <;> (symm; assumption)
  | panic => unfold Eval.buildMoment at e; split at e <;> cases e
  | oof => unfold Eval.buildMoment at e; split at e <;> cases e

/-- **C83 refuted, in general**: at every full minute 60 seconds and one minute differ, and at every full hour 60
minutes and one hour. -/
theorem C83_refuted_everywhere (c : Cfg) (hc : Sane c) (m : Moment) (hm : m.Valid c) :
    (m.second = 0 → calculate c (.moment m - .seconds 60) ≠ calculate c (.moment m - .minutes 1)) ∧
    (m.minute = 0 → calculate c (.moment m - .minutes 60) ≠ calculate c (.moment m - .hours 1)) := by
  have e (u : TUnit) (n : Int) (h : 0 ≤ n ∧ n ≤ 100) := sub_closed c hc hm u n (by omega) (by omega)
  obtain ⟨a1, a2, ⟨a3, a4, a5, a6⟩, ⟨t1, t2, t3, t4, t5, t6⟩, a7⟩ := hm
  have s60 := e .second 60 (by omega)
  have mi1 := e .minute 1 (by omega)
  have mi60 := e .minute 60 (by omega)
  have h1 := e .hour 1 (by omega)
  simp only [amt, subComp, subP] at *
  refine ⟨fun h hh => ?_, fun h hh => ?_⟩
  · rw [s60, mi1] at hh
    have := (build_hour hh).2.1
    rw [h] at this
    have k1 : bP (0 - 60) 0 60 60 m.minute = (m.minute - 2, 0) := rfl
    have k2 : bP 0 0 60 60 (m.minute - 1) = (m.minute - 1, 0) := rfl
    simp only [k1, k2] at this
    unfold bP asU32 at this
    split at this <;> split at this <;> simp only at this <;> omega
  · rw [mi60, h1] at hh
    have := (build_hour hh).1
    rw [h] at this
    have k0 (x : Int) : bP m.second 0 60 60 x = (x, m.second) := by
      unfold bP; rw [if_neg (by omega)]
    simp only [k0] at this
    have k1 : bP (0 - 60) 0 60 60 m.hour = (m.hour - 2, 0) := rfl
    have k2 : bP 0 0 60 60 (m.hour - 1) = (m.hour - 1, 0) := rfl
    simp only [k1, k2] at this
    unfold bP asU32 at this
    split at this <;> split at this <;> simp only at this <;> omega

example := C83_refuted_everywhere (std .debug) (sane_std _) (at_ 2017 6 15 12 0 0) (by decide)

private theorem many_rejected (c : Cfg) (hc : Sane c) (m : Moment) (hm : m.Valid c) (u : TUnit) (f n : Int)
    (hu : u = .second ∧ f = 60 ∨ u = .minute ∧ f = 60 ∨ u = .hour ∧ f = 24) (h1 : 2 * f ≤ n) (h2 : n < 4294967296) :
    ∃ e, calculate c (.moment m - amt u n) = .err e := by
  have hp : 0 ≤ part m u ∧ part m u < f := by
    obtain ⟨-, -, -, ⟨t1, t2, t3, t4, t5, t6⟩, -⟩ := hm
    rcases hu with ⟨rfl, rfl⟩ | ⟨rfl, rfl⟩ | ⟨rfl, rfl⟩ <;> simp only [part] <;> omega
  have hu' : u = .second ∨ u = .minute ∨ u = .hour ∨ u = .day := by
    rcases hu with ⟨rfl, -⟩ | ⟨rfl, -⟩ | ⟨rfl, -⟩ <;> simp
  have hw : (window u).2 = f ∧ u ≠ .day := by
    rcases hu with ⟨rfl, rfl⟩ | ⟨rfl, rfl⟩ | ⟨rfl, rfl⟩ <;> simp [window]
  rcases C21_window_partial c hc m hm u hu' n _ rfl (by rw [if_neg hw.2]; omega) (by omega) with ⟨r, -, -, h', -⟩ | ⟨_, _, _, _, _, _, h⟩
  · rw [hw.1, Int.emod_eq_of_lt (by omega) (by omega)] at h'
    omega
  · exact ⟨_, h⟩

private theorem wrapped {f x k : Int} (hf : f = 60 ∨ f = 24) (h : 0 ≤ x ∧ x < f) (hk : 2 ≤ k) (hb : k < 67108864) : asU32 (f + (x - f * k)) ≠ asU32 x := by
  have b : f * k ≤ 4026531780 ∧ 2 * f ≤ f * k := by rcases hf with rfl | rfl <;> constructor <;> omega
  generalize f * k = g at b
  have hx : x < 60 := by rcases hf with rfl | rfl <;> omega
  unfold asU32
  rw [← Int.add_emod_right (f + (x - g)), Int.emod_eq_of_lt (by omega) (by omega), Int.emod_eq_of_lt (by omega) (by omega)]
  omega

/-- **C83 refuted, in general, for more than one unit**: 120 seconds, 180 seconds, ... are always an error and never the same as two minutes, three minutes,
...; likewise minutes and hours, hours and days. (`k` below 2^26; the smaller unit is rejected although the larger one may well be fine.) -/
theorem C83_refuted_many (c : Cfg) (hc : Sane c) (m : Moment) (hm : m.Valid c) (k : Int) (hk : 2 ≤ k) (hb : k < 67108864) :
    ((∃ e, calculate c (.moment m - .seconds (60 * k)) = .err e) ∧
      calculate c (.moment m - .seconds (60 * k)) ≠ calculate c (.moment m - .minutes k)) ∧
    ((∃ e, calculate c (.moment m - .minutes (60 * k)) = .err e) ∧
      calculate c (.moment m - .minutes (60 * k)) ≠ calculate c (.moment m - .hours k)) ∧
    ((∃ e, calculate c (.moment m - .hours (24 * k)) = .err e) ∧
      calculate c (.moment m - .hours (24 * k)) ≠ calculate c (.moment m - .days k)) := by
  have r1 := many_rejected c hc m hm .second 60 (60 * k) (by simp) (by omega) (by omega)
  have r2 := many_rejected c hc m hm .minute 60 (60 * k) (by simp) (by omega) (by omega)
  have r3 := many_rejected c hc m hm .hour 24 (24 * k) (by simp) (by omega) (by omega)
  have e (u : TUnit) (n : Int) (h : 0 ≤ n ∧ n ≤ 5000000000) := sub_closed c hc hm u n (by omega) (by omega)
  obtain ⟨-, -, -, ⟨t1, t2, t3, t4, t5, t6⟩, -⟩ := hm
  have low {x y z : Int} (h : 0 ≤ x) : bP x 0 y y z = (z, x) := by unfold bP; rw [if_neg (by omega)]
  have high {x y z : Int} (h : x < 0) : (bP x 0 y y z).2 = y + x := by unfold bP; rw [if_pos h]
  refine ⟨⟨r1, fun hh => ?_⟩, ⟨r2, fun hh => ?_⟩, ⟨r3, fun hh => ?_⟩⟩
  · have s60 := e .second (60 * k) (by omega)
    have mi1 := e .minute k (by omega)
    simp only [amt, subComp, subP] at s60 mi1
    rw [s60, mi1] at hh
    have := (build_hour hh).2.2
    dsimp only at this
    rw [high (by omega), low (by omega)] at this
    exact wrapped (by simp) (by omega) hk hb this
  · have mi60 := e .minute (60 * k) (by omega)
    have h1 := e .hour k (by omega)
    simp only [amt, subComp, subP] at mi60 h1
    rw [mi60, h1] at hh
    have := (build_hour hh).2.1
    simp only [low (show 0 ≤ m.second by omega)] at this
    rw [high (by omega), low (by omega)] at this
    exact wrapped (by simp) (by omega) hk hb this
  · have h24 := e .hour (24 * k) (by omega)
    have d1 := e .day k (by omega)
    simp only [amt, subComp, subP] at h24 d1
    rw [h24, d1] at hh
    have := (build_hour hh).1
    simp only [low (show 0 ≤ m.second by omega), low (show 0 ≤ m.minute by omega)] at this
    rw [high (by omega), low (by omega)] at this
    exact wrapped (by simp) (by omega) hk hb this

example := C83_refuted_many (std .debug) (sane_std _) (at_ 2017 6 15 12 30 10) (by decide) 2 (by decide) (by decide)

/-- **C83 refuted**, witnesses, the second for more than one unit. -/
theorem C83_refuted_subtracting :
    calculate (std .debug) (.moment (at_ 2017 6 15 12 0 0) - .hours 1) = .ok (.moment (at_ 2017 6 15 11 0 0)) ∧
    calculate (std .debug) (.moment (at_ 2017 6 15 12 0 0) - .minutes 60) = .ok (.moment (at_ 2017 6 15 10 0 0)) ∧
    calculate (std .debug) (.moment (at_ 2017 6 15 12 0 0) - .days 2) = .ok (.moment (at_ 2017 6 13 12 0 0)) ∧
    (∃ e, calculate (std .debug) (.moment (at_ 2017 6 15 12 0 0) - .hours 48) = .err e) := by
  refine ⟨by decide +kernel, by decide +kernel, by decide +kernel, ?_⟩
  exact ⟨_, by rfl⟩

/-- A moment in the middle of everything, and one at a full hour. -/
example : (at_ 2017 6 15 12 30 45).Valid (std .debug) ∧ (at_ 2017 6 15 12 0 0).Valid (std .debug) ∧
    calculate (std .debug) (.moment (at_ 2017 6 15 12 30 45) - .seconds 60) = .ok (.moment (at_ 2017 6 15 12 29 45)) ∧
    calculate (std .debug) (.moment (at_ 2017 6 15 12 30 45) - .minutes 1) = .ok (.moment (at_ 2017 6 15 12 29 45)) ∧
    calculate (std .debug) (.moment (at_ 2017 6 15 12 30 45) - .months 12) = .ok (.moment (at_ 2016 6 15 12 30 45)) ∧
    calculate (std .debug) (.moment (at_ 2017 6 15 12 0 0) - .seconds 60) = .ok (.moment (at_ 2017 6 15 11 58 0)) ∧
    calculate (std .debug) (.moment (at_ 2017 6 15 12 0 0) - .minutes 1) = .ok (.moment (at_ 2017 6 15 11 59 0)) := by
  decide +kernel

end Props
