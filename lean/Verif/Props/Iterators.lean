import Verif.Props.Laws
import Verif.Lemmas.Iter

/-!
# C33–C39: the plain iterator
-/

namespace Props
open Kairos Spec

/-! ## C33 -/

/-- **C33.** `Iter::build` accepts a base date and exactly the plain amounts as increment. -/
theorem C33_build (m : Moment) (inc : TT) :
    ((∃ u n, inc = amt u n) → Iter.build m inc = .ok ⟨.moment m, inc, false⟩) ∧
    ((¬ ∃ u n, inc = amt u n) → Iter.build m inc = .err (.argumentErrorNotAnAmount inc)) := by
  constructor
  · rintro ⟨u, n, rfl⟩; cases u <;> rfl
  · intro h
    have : inc.isAAmount = false := by
      cases hb : inc.isAAmount with
      | false => rfl
      | true => exact absurd (amount_cases hb) h
    simp [Iter.build, this]

/-- **C33.** `every` accepts exactly plain moments as base and plain amounts as increment. -/
theorem C33_every (t inc : TT) :
    (∀ m, t = .moment m → Ext.every t inc = Iter.build m inc) ∧
    ((¬ ∃ m, t = .moment m) → Ext.every t inc = .err (.argumentErrorNotAnAmount t)) := by
  constructor
  · rintro m rfl; rfl
  · intro h; cases t <;> first | rfl | exact absurd ⟨_, rfl⟩ h

/-- **C33.** The named constructors are `every` with the corresponding amount, on any base value; `weekly(n)`
is every `7 n` days as long as `7 n` is a 64-bit number (otherwise the checked build panics, but
only for a moment base). -/
theorem C33_named (c : Cfg) (t : TT) (n : Int) :
    Ext.minutely t n = Ext.every t (.minutes n) ∧ Ext.hourly t n = Ext.every t (.hours n) ∧
    Ext.daily t n = Ext.every t (.days n) ∧ Ext.monthly t n = Ext.every t (.months n) ∧
    Ext.yearly t n = Ext.every t (.years n) ∧
    (-9223372036854775808 ≤ 7 * n ∧ 7 * n ≤ 9223372036854775807 → Ext.weekly c t n = Ext.every t (.days (7 * n))) ∧
    (c.profile = .debug → ¬ (-9223372036854775808 ≤ 7 * n ∧ 7 * n ≤ 9223372036854775807) →
      ∀ m, t = .moment m → Ext.weekly c t n = .panic) := by
  refine ⟨?_, ?_, ?_, ?_, ?_, ?_, ?_⟩
  · cases t <;> rfl
  · cases t <;> rfl
  · cases t <;> rfl
  · cases t <;> rfl
  · cases t <;> rfl
  · intro h
    have e : (c.mul n 7 : Out Int) = .ok (7 * n) := by
      unfold Cfg.mul Cfg.chk
      rw [Int.mul_comm]; exact if_pos h
    cases t <;> first | rfl | (simp only [Ext.weekly, e]; rfl)
  · rintro hd h m rfl
    have e : (c.mul n 7 : Out Int) = .panic := by
      unfold Cfg.mul Cfg.chk
      rw [Int.mul_comm, hd]; exact if_neg h
    simp only [Ext.weekly, e]; rfl

/-- **C33.** The first item is the base itself. -/
theorem C33_first_item (c : Cfg) (m : Moment) (inc : TT) (it : Iter) (h : Iter.build m inc = .ok it) :
    nth (Iter.next c) 0 it = some (.ok (.moment m)) := by
  unfold Iter.build at h
  split at h
  · cases h
  · cases h; rfl

example : Ext.weekly (std .debug) (.moment (at_ 2017 1 1 0 0 0)) 2 =
    .ok ⟨.moment (at_ 2017 1 1 0 0 0), .days 14, false⟩ := by decide +kernel

/-! ## C34 -/

/-- **C34.** Increment of `n` seconds, minutes, hours or days, up to 30 days: the item at position `k`
is exactly `k` increments after the base (later items have whole seconds); or, if that lies past
chrono's last year, an OutOfBounds error. For every `k`. -/
theorem C34_kth_item (c : Cfg) (hc : Sane c) (m : Moment) (hm : m.Valid c) (u : TUnit)
    (hu : u = .second ∨ u = .minute ∨ u = .hour ∨ u = .day) (n : Int) (hn : 0 ≤ n)
    (hmax : n * u.secs ≤ 30 * 86400) (it : Iter) (hit : Iter.build m (amt u n) = .ok it) (k : Nat) :
    (∃ r : Moment, nth (Iter.next c) k it = some (.ok (.moment r)) ∧ r.Valid c ∧
      r.instant = m.instant + k * (n * u.secs) ∧ r.nano = if k = 0 then m.nano else 0) ∨
    (Cal.instant (c.maxYear + 1) 1 1 0 0 0 ≤ m.instant + k * (n * u.secs) ∧
      ∃ Y M D H MI S, nth (Iter.next c) k it = some (.err (.outOfBounds Y M D H MI S))) := by
  rw [(C33_build m (amt u n)).1 ⟨u, n, rfl⟩] at hit
  cases hit
  have h0 : 0 ≤ n * u.secs := Int.mul_nonneg hn (by cases u <;> decide)
  have hstep : ∀ k : Nat, ((k + 1 : Nat) : Int) * (n * u.secs) = k * (n * u.secs) + n * u.secs := by
    intro k; rw [Int.natCast_add, Int.add_mul]; simp
  refine (run_shape (c := c) (amt_isAAmount u n)
    (fun k r => r.Valid c ∧ r.instant = m.instant + k * (n * u.secs) ∧ r.nano = if k = 0 then m.nano else 0)
    (fun k e => Cal.instant (c.maxYear + 1) 1 1 0 0 0 ≤ m.instant + k * (n * u.secs) ∧
      ∃ Y M D H MI S, e = .outOfBounds Y M D H MI S)
    ?_ ?_ m ⟨hm, by simp, by simp⟩ k).elim ?_ ?_
  case refine_3 => rintro ⟨r, ⟨g1, g2, g3⟩, -, h⟩; exact .inl ⟨r, h, g1, g2, g3⟩
  case refine_4 => rintro ⟨e, ⟨b1, Y, M, D, H, MI, S, rfl⟩, -, h⟩; exact .inr ⟨b1, Y, M, D, H, MI, S, h⟩
  · rintro k r ⟨g1, g2, -⟩
    have hs := hstep k
    by_cases hlt : m.instant + ((k + 1 : Nat) : Int) * (n * u.secs) < Cal.instant (c.maxYear + 1) 1 1 0 0 0
    · obtain ⟨r', v', z', i'⟩ := moment_exists g1 (m.instant + ((k + 1 : Nat) : Int) * (n * u.secs)) (by omega) hlt
      exact .inl ⟨r', C16_up_to_30_days_partial c hc r r' g1 v' z' u hu n hn hmax (by omega), v', i', by
        rw [z', if_neg (by omega)]⟩
    · obtain ⟨Y, M, D, H, MI, S, he⟩ := C16_past_the_end_partial c hc r g1 u hu n hn (by omega) (by omega)
      exact .inr ⟨_, he, by omega, Y, M, D, H, MI, S, rfl⟩
  · rintro k e ⟨b1, b2⟩
    exact ⟨by have := hstep k; omega, b2⟩

/-- Across the end of a leap-year February and the turn of the year. -/
example : nth (Iter.next (std .debug)) 400 ⟨.moment (at_ 2015 12 30 23 59 59), .hours 24, false⟩ =
    some (.ok (.moment (at_ 2017 2 2 23 59 59))) := by decide +kernel

/-! ## C35 -/

/-- **C35 (monthly).** Base on day 1 to 28, increment of `n` months: the item at position `k` is
exactly `k * n` calendar months after the base with day and time unchanged, or an OutOfBounds error if
that is past chrono's last year. For every `k`. -/
theorem C35_monthly (c : Cfg) (hc : Sane c) (m : Moment) (hm : m.Valid c) (hd : m.day ≤ 28)
    (n : Int) (hn : 0 ≤ n) (hmax : n ≤ 24000000000) (it : Iter) (hit : Iter.build m (.months n) = .ok it) (k : Nat) :
    ∃ Y M : Int, 1 ≤ M ∧ M ≤ 12 ∧ Cal.monthIndex Y M = Cal.monthIndex m.year m.month + k * n ∧
      ((Y ≤ c.maxYear ∧ nth (Iter.next c) k it =
          some (.ok (.moment { m with year := Y, month := M, nano := if k = 0 then m.nano else 0 }))) ∨
       (c.maxYear < Y ∧ ∃ Y' M' D H MI S, nth (Iter.next c) k it = some (.err (.outOfBounds Y' M' D H MI S)))) := by
  rw [(C33_build m (.months n)).1 ⟨.month, n, rfl⟩] at hit
  cases hit
  have hstep : ∀ k : Nat, ((k + 1 : Nat) : Int) * n = k * n + n := by
    intro k; rw [Int.natCast_add, Int.add_mul]; simp
  have hc' := hc
  unfold Sane at hc'
  obtain ⟨a1, a2, ⟨a3, a4, a5, a6⟩, t, a7⟩ := id hm
  -- the year and month of an index
  have split : ∀ i : Int, ∃ Y M : Int, 1 ≤ M ∧ M ≤ 12 ∧ Cal.monthIndex Y M = i :=
    fun i => ⟨i / 12, i % 12 + 1, by omega, by omega, by unfold Cal.monthIndex; omega⟩
  have valid : ∀ (Y M z : Int), 1 ≤ M → M ≤ 12 → m.year ≤ Y → Y ≤ c.maxYear → 0 ≤ z → z < 2000000000 →
      ({ m with year := Y, month := M, nano := z } : Moment).Valid c := by
    intro Y M z h1 h2 h3 h4 h5 h6
    have := Cal.monthLen_bounds (y := Y) h1 h2
    exact ⟨by simp only; omega, h4, ⟨h1, h2, a5, by simp only; omega⟩, t, h5, h6⟩
  have hkn : ∀ k : Nat, 0 ≤ (k : Int) * n := fun k => Int.mul_nonneg (by omega) hn
  refine (run_shape (c := c) (inc := .months n) rfl
    (fun k r => ∃ Y M, 1 ≤ M ∧ M ≤ 12 ∧ Cal.monthIndex Y M = Cal.monthIndex m.year m.month + k * n ∧ Y ≤ c.maxYear ∧
      r = { m with year := Y, month := M, nano := if k = 0 then m.nano else 0 })
    (fun k e => ∃ Y M, 1 ≤ M ∧ M ≤ 12 ∧ Cal.monthIndex Y M = Cal.monthIndex m.year m.month + k * n ∧ c.maxYear < Y ∧
      ∃ Y' M' D H MI S, e = .outOfBounds Y' M' D H MI S)
    ?_ ?_ m ⟨m.year, m.month, a3, a4, by simp, a2, by simp⟩ k).elim ?_ ?_
  case refine_3 => rintro ⟨r, ⟨Y, M, g1, g2, g3, g4, rfl⟩, -, h⟩; exact ⟨Y, M, g1, g2, g3, .inl ⟨g4, h⟩⟩
  case refine_4 =>
    rintro ⟨e, ⟨Y, M, g1, g2, g3, g4, Y', M', D, H, MI, S, rfl⟩, -, h⟩
    exact ⟨Y, M, g1, g2, g3, .inr ⟨g4, Y', M', D, H, MI, S, h⟩⟩
  · rintro k r ⟨Y, M, g1, g2, g3, g4, rfl⟩
    have hs := hstep k
    have hk := hkn k
    obtain ⟨Y', M', q1, q2, q3⟩ := split (Cal.monthIndex m.year m.month + ((k + 1 : Nat) : Int) * n)
    have hz : 0 ≤ (if k = 0 then m.nano else 0) ∧ (if k = 0 then m.nano else 0) < 2000000000 := by
      split <;> omega
    have hY : m.year ≤ Y := by unfold Cal.monthIndex at g3; omega
    have hv := valid Y M (if k = 0 then m.nano else 0) g1 g2 hY g4 hz.1 hz.2
    have := C17_up_to_28th_partial c hc _ hv hd n hn hmax Y' M' ⟨q1, q2⟩ (by
      simp only; omega)
    by_cases hle : Y' ≤ c.maxYear
    · rw [if_pos hle] at this
      exact .inl ⟨_, this, Y', M', q1, q2, q3, hle, by simp⟩
    · rw [if_neg hle] at this
      exact .inr ⟨_, this, Y', M', q1, q2, q3, by omega, _, _, _, _, _, _, rfl⟩
  · rintro k e ⟨Y, M, g1, g2, g3, g4, g5⟩
    obtain ⟨Y', M', q1, q2, q3⟩ := split (Cal.monthIndex m.year m.month + ((k + 1 : Nat) : Int) * n)
    refine ⟨Y', M', q1, q2, q3, ?_, g5⟩
    have hs := hstep k
    unfold Cal.monthIndex at g3 q3
    omega

example (k : Nat) := C35_monthly (std .debug) (sane_std _) (at_ 2017 1 28 0 0 0) (by decide) (by decide) 7 (by decide) (by decide)
  ⟨.moment (at_ 2017 1 28 0 0 0), .months 7, false⟩ rfl k

/-- **C35 (yearly).** Base not on 29 February, increment of `n` years, forward or backward: the
item at position `k` is `k * n` years away on the same date and time, as long as all items so far are in
range; after that the OutOfBounds error. For every `k`. -/
theorem C35_yearly (c : Cfg) (hc : Sane c) (m : Moment) (hm : m.Valid c) (hd : ¬ (m.month = 2 ∧ m.day = 29))
    (n : Int) (hn : -2000000000 ≤ n ∧ n ≤ 2000000000) (it : Iter) (hit : Iter.build m (.years n) = .ok it) (k : Nat) :
    (c.minYear ≤ m.year + k * n ∧ m.year + k * n ≤ c.maxYear ∧ nth (Iter.next c) k it =
      some (.ok (.moment { m with year := m.year + k * n, nano := if k = 0 then m.nano else 0 }))) ∨
    ((m.year + k * n < c.minYear ∨ c.maxYear < m.year + k * n) ∧
      ∃ Y M D H MI S, nth (Iter.next c) k it = some (.err (.outOfBounds Y M D H MI S))) := by
  rw [(C33_build m (.years n)).1 ⟨.year, n, rfl⟩] at hit
  cases hit
  have hstep : ∀ k : Nat, ((k + 1 : Nat) : Int) * n = k * n + n := by
    intro k; rw [Int.natCast_add, Int.add_mul]; simp
  have hc' := hc
  unfold Sane at hc'
  obtain ⟨a1, a2, ⟨a3, a4, a5, a6⟩, t, a7⟩ := id hm
  have valid : ∀ (Y z : Int), c.minYear ≤ Y → Y ≤ c.maxYear → 0 ≤ z → z < 2000000000 →
      ({ m with year := Y, nano := z } : Moment).Valid c := by
    intro Y z h3 h4 h5 h6
    refine ⟨h3, h4, ⟨a3, a4, a5, ?_⟩, t, h5, h6⟩
    simp only
    rcases Cal.month_cases a3 a4 with h | h | h | h | h | h | h | h | h | h | h | h <;> rw [h] at a6 hd ⊢ <;>
      simp [Cal.monthLen] at a6 hd ⊢ <;> (try split at a6) <;> (try split) <;> omega
  refine (run_shape (c := c) (inc := .years n) rfl
    (fun k r => c.minYear ≤ m.year + k * n ∧ m.year + k * n ≤ c.maxYear ∧
      r = { m with year := m.year + k * n, nano := if k = 0 then m.nano else 0 })
    (fun k e => (m.year + k * n < c.minYear ∨ c.maxYear < m.year + k * n) ∧
      ∃ Y' M' D H MI S, e = .outOfBounds Y' M' D H MI S)
    ?_ ?_ m ⟨by simp; omega, by simp; omega, by simp⟩ k).elim ?_ ?_
  case refine_3 => rintro ⟨r, ⟨g1, g2, rfl⟩, -, h⟩; exact .inl ⟨g1, g2, h⟩
  case refine_4 =>
    rintro ⟨e, ⟨g1, Y', M', D, H, MI, S, rfl⟩, -, h⟩
    exact .inr ⟨g1, Y', M', D, H, MI, S, h⟩
  · rintro k r ⟨g1, g2, rfl⟩
    have hs := hstep k
    have hz : 0 ≤ (if k = 0 then m.nano else 0) ∧ (if k = 0 then m.nano else 0) < 2000000000 := by
      split <;> omega
    have hv := valid (m.year + k * n) (if k = 0 then m.nano else 0) g1 g2 hz.1 hz.2
    have e := C18_adding_years_partial c _ hv n (by simp only; omega) (by simp only; omega)
    simp only at e
    have hf : ¬ (m.month = 2 ∧ m.day = 29 ∧ Cal.isLeap (m.year + k * n + n) = false) := fun h => hd ⟨h.1, h.2.1⟩
    simp only [if_neg hf] at e
    by_cases hout : m.year + k * n + n < c.minYear ∨ c.maxYear < m.year + k * n + n
    · rw [if_pos hout] at e
      exact .inr ⟨_, e, by omega, _, _, _, _, _, _, rfl⟩
    · rw [if_neg hout] at e
      refine .inl ⟨_, e, by omega, by omega, ?_⟩
      rw [hs, ← Int.add_assoc, if_neg (Nat.succ_ne_zero k)]
  · rintro k e ⟨g1, g2⟩
    refine ⟨?_, g2⟩
    have hs := hstep k
    by_cases h0 : 0 ≤ n
    · have : 0 ≤ (k : Int) * n := Int.mul_nonneg (by omega) h0
      omega
    · have : (k : Int) * n ≤ 0 := Int.mul_nonpos_of_nonneg_of_nonpos (by omega) (by omega)
      omega

example : nth (Iter.next (std .debug)) 30 ⟨.moment (at_ 2016 1 28 1 2 3), .months 5, false⟩ =
    some (.ok (.moment (at_ 2028 7 28 1 2 3))) ∧
    Cal.monthIndex 2028 7 = Cal.monthIndex 2016 1 + 30 * 5 := by decide +kernel

/-- The hypothesis on the day matters: monthly from the 31st skips months and drifts. -/
example : nth (Iter.next (std .debug)) 1 ⟨.moment (at_ 2017 1 31 0 0 0), .months 1, false⟩ =
    some (.ok (.moment (at_ 2017 3 3 0 0 0))) := by decide +kernel

end Props
