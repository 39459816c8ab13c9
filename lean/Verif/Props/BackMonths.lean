import Verif.Props.NegEvery

/-!
# C85: iterators that go back in months or years, or in very large steps
-/

namespace Props
open Kairos Spec

private theorem step_succ (k : Nat) (n : Int) : ((k + 1 : Nat) : Int) * n = k * n + n := by
  rw [Int.natCast_add, Int.add_mul]; simp

/-- **C85, months (partial).** From one of the first 28 days of a month, in steps of up to 2^32 - 13 months back: the items are the
same day and time that many months earlier as long as this is in the year of the base, and from then on there are only errors. -/
theorem C85_months_partial (c : Cfg) (hc : Sane c) (m : Moment) (hm : m.Valid c) (hd : m.day ≤ 28) (n : Int) (hn : 1 ≤ n)
    (hb : n ≤ 4294967283) (it : Iter) (hit : Iter.build m (.months (-n)) = .ok it) (k : Nat) :
    (k * n < m.month → nth (Iter.next c) k it =
      some (.ok (.moment { m with month := m.month - k * n, nano := if k = 0 then m.nano else 0 }))) ∧
    (m.month ≤ k * n → ∃ Y M D H MI S, nth (Iter.next c) k it = some (.err (.outOfBounds Y M D H MI S))) := by
  rw [(C33_build m (.months (-n))).1 ⟨.month, -n, rfl⟩] at hit
  cases hit
  have hkn : ∀ k : Nat, 0 ≤ (k : Int) * n := fun k => Int.mul_nonneg (by omega) (by omega)
  obtain ⟨m1, m2, ⟨m3, m4, m5, m6⟩, t, m7⟩ := id hm
  let at' (k : Nat) : Moment := { m with month := m.month - k * n, nano := if k = 0 then m.nano else 0 }
  have hval : ∀ k : Nat, k * n < m.month → (at' k).Valid c := by
    intro k hk
    have := hkn k
    have ml := Cal.monthLen_bounds (y := m.year) (m := m.month - k * n) (by omega) (by omega)
    have hnano : 0 ≤ (if k = 0 then m.nano else 0) ∧ (if k = 0 then m.nano else 0) < 2000000000 := by
      split <;> omega
    exact ⟨m1, m2, ⟨by simp only [at']; omega, by simp only [at']; omega, m5, by simp only [at']; omega⟩, t, hnano⟩
  have hadd : ∀ (k : Nat), k * n < m.month → ∀ Y M, 1 ≤ M → M ≤ 12 →
      Cal.monthIndex Y M = Cal.monthIndex m.year (m.month - k * n) + -n →
      calculate c (.moment (at' k) + .months (-n)) =
        if Y = m.year then .ok (.moment { at' k with year := Y, month := M, nano := 0 })
        else .err (.outOfBounds m.year (m.month - k * n + -n + 2 ^ 32 * (if m.month - k * n + -n < 0 then 1 else 0)) m.hour m.hour
          m.minute m.second) :=
    fun k hk Y M h1 h2 hi => C95_months_exact_or_error_partial c hc (at' k) (hval k hk) hd (-n) Y M (by omega) (by omega) ⟨h1, h2⟩ hi
  refine (run_shape (c := c) (inc := .months (-n)) rfl (fun k r => k * n < m.month ∧ r = at' k)
    (fun k e => m.month ≤ k * n ∧ ∃ Y M D H MI S, e = .outOfBounds Y M D H MI S)
    ?_ ?_ m ⟨by simp; omega, by simp [at']⟩ k).elim ?_ ?_
  · rintro k r ⟨h, rfl⟩
    have hs := step_succ k n
    have := hkn k
    by_cases hk : ((k + 1 : Nat) : Int) * n < m.month
    · refine .inl ⟨at' (k + 1), ?_, hk, rfl⟩
      rw [hadd k h m.year (m.month - (k + 1 : Nat) * n) (by omega) (by omega) (by unfold Cal.monthIndex; omega), if_pos rfl]
      simp only [at', if_neg (show ¬ k + 1 = 0 by omega)]
    · obtain ⟨Y, M, h1, h2, hi⟩ : ∃ Y M, 1 ≤ M ∧ M ≤ 12 ∧ Cal.monthIndex Y M = Cal.monthIndex m.year (m.month - k * n) + -n := by
        refine ⟨(Cal.monthIndex m.year (m.month - k * n) + -n) / 12, (Cal.monthIndex m.year (m.month - k * n) + -n) % 12 + 1,
          by omega, by omega, ?_⟩
        unfold Cal.monthIndex
        omega
      have e := hadd k h Y M h1 h2 hi
      rw [if_neg (by unfold Cal.monthIndex at hi; omega)] at e
      exact .inr ⟨_, e, by omega, _, _, _, _, _, _, rfl⟩
  · rintro k e ⟨h, h'⟩
    have := step_succ k n
    exact ⟨by omega, h'⟩
  · rintro ⟨r, ⟨h, rfl⟩, -, e⟩
    exact ⟨fun _ => e, fun h' => by omega⟩
  · rintro ⟨e, ⟨h, Y, M, D, H, MI, S, rfl⟩, -, e⟩
    exact ⟨fun h' => by omega, fun _ => ⟨Y, M, D, H, MI, S, e⟩⟩

/-- Quarterly back from 15 August: May, February, and then errors. -/
example (it : Iter) (hit : Iter.build (at_ 2017 8 15 12 0 0) (.months (-3)) = .ok it) :
    nth (Iter.next (std .debug)) 2 it = some (.ok (.moment (at_ 2017 2 15 12 0 0))) ∧
    ∃ Y M D H MI S, nth (Iter.next (std .debug)) 3 it = some (.err (.outOfBounds Y M D H MI S)) :=
  have h := C85_months_partial (std .debug) (sane_std _) (at_ 2017 8 15 12 0 0) (by decide +kernel) (by decide) 3 (by decide) (by decide) it hit
  ⟨(h 2).1 (by decide), (h 3).2 (by decide)⟩

/-- **C85, years (partial).** From any day but 29 February, in steps of up to two billion years back: the items are the same day and
time in the years before, down to the first year chrono can represent, and from then on there are only errors. -/
theorem C85_years_partial (c : Cfg) (hc : Sane c) (m : Moment) (hm : m.Valid c) (hl : ¬ (m.month = 2 ∧ m.day = 29)) (n : Int) (hn : 1 ≤ n)
    (hb : n ≤ 2000000000) (it : Iter) (hit : Iter.build m (.years (-n)) = .ok it) (k : Nat) :
    (c.minYear ≤ m.year - k * n → nth (Iter.next c) k it =
      some (.ok (.moment { m with year := m.year - k * n, nano := if k = 0 then m.nano else 0 }))) ∧
    (m.year - k * n < c.minYear → ∃ Y M D H MI S, nth (Iter.next c) k it = some (.err (.outOfBounds Y M D H MI S))) := by
  rw [(C33_build m (.years (-n))).1 ⟨.year, -n, rfl⟩] at hit
  cases hit
  have hkn : ∀ k : Nat, 0 ≤ (k : Int) * n := fun k => Int.mul_nonneg (by omega) (by omega)
  obtain ⟨m1, m2, hdate, t, m7⟩ := id hm
  let at' (k : Nat) : Moment := { m with year := m.year - k * n, nano := if k = 0 then m.nano else 0 }
  have hval : ∀ k : Nat, c.minYear ≤ m.year - k * n → (at' k).Valid c := by
    intro k hk
    have := hkn k
    have hnano : 0 ≤ (if k = 0 then m.nano else 0) ∧ (if k = 0 then m.nano else 0) < 2000000000 := by
      split <;> omega
    refine ⟨hk, by simp only [at']; omega, ⟨hdate.1, hdate.2.1, hdate.2.2.1, ?_⟩, t, hnano⟩
    have h := hdate.2.2.2
    simp only [at']
    by_cases h2 : m.month = 2
    · have : m.day ≠ 29 := fun h => hl ⟨h2, h⟩
      have e2 : ∀ y, Cal.monthLen y 2 = if Cal.isLeap y then 29 else 28 := fun y => by
        unfold Cal.monthLen; rw [if_neg (by decide), if_pos rfl]
      rw [h2, e2] at h ⊢
      revert h
      split <;> split <;> omega
    · have e : Cal.monthLen (m.year - k * n) m.month = Cal.monthLen m.year m.month := by
        unfold Cal.monthLen
        rw [if_neg h2, if_neg h2]
      rw [e]
      exact h
  refine (run_shape (c := c) (inc := .years (-n)) rfl (fun k r => c.minYear ≤ m.year - k * n ∧ r = at' k)
    (fun k e => m.year - k * n < c.minYear ∧ ∃ Y M D H MI S, e = .outOfBounds Y M D H MI S)
    ?_ ?_ m ⟨by simp; omega, by simp [at']⟩ k).elim ?_ ?_
  · rintro k r ⟨h, rfl⟩
    have hs := step_succ k n
    obtain ⟨c1, c2, -⟩ := C95_years_partial c hc (at' k) (hval k h) (-n) (by omega) (by omega)
    have e0 : (at' k).year + -n = m.year - (k + 1 : Nat) * n := by simp only [at']; omega
    rw [e0] at c1 c2
    by_cases hk : c.minYear ≤ m.year - (k + 1 : Nat) * n
    · refine .inl ⟨at' (k + 1), ?_, hk, rfl⟩
      rw [c2 hk (fun h => hl ⟨h.1, h.2.1⟩)]
      simp only [at', if_neg (show ¬ k + 1 = 0 by omega)]
    · obtain ⟨M, D, H, MI, S, e⟩ := c1 (by omega)
      exact .inr ⟨_, e, by omega, _, M, D, H, MI, S, rfl⟩
  · rintro k e ⟨h, h'⟩
    have := step_succ k n
    exact ⟨by omega, h'⟩
  · rintro ⟨r, ⟨h, rfl⟩, -, e⟩
    exact ⟨fun _ => e, fun h' => by omega⟩
  · rintro ⟨e, ⟨h, Y, M, D, H, MI, S, rfl⟩, -, e⟩
    exact ⟨fun h' => by omega, fun _ => ⟨Y, M, D, H, MI, S, e⟩⟩

/-- A century at a time back from 2017: 1717, and the year -262083, and then errors. -/
example (it : Iter) (hit : Iter.build (at_ 2017 8 31 12 0 0) (.years (-100)) = .ok it) :
    nth (Iter.next (std .debug)) 3 it = some (.ok (.moment (at_ 1717 8 31 12 0 0))) ∧
    nth (Iter.next (std .debug)) 2641 it = some (.ok (.moment (at_ (-262083) 8 31 12 0 0))) ∧
    ∃ Y M D H MI S, nth (Iter.next (std .debug)) 2642 it = some (.err (.outOfBounds Y M D H MI S)) :=
  have h := C85_years_partial (std .debug) (sane_std _) (at_ 2017 8 31 12 0 0) (by decide +kernel) (by decide) 100 (by decide) (by decide) it hit
  ⟨(h 3).1 (by decide), (h 2641).1 (by decide), (h 2642).2 (by decide)⟩

/-- **C85 refuted for very large steps.** In steps of 2^32 days (or any multiple of it) back, every item is the base itself, for every base. -/
theorem C85_refuted_far (c : Cfg) (hc : Sane c) (m : Moment) (hm : m.Valid c) (j : Int) (hj : 1 ≤ j) (hb : j ≤ 2 ^ 31)
    (it : Iter) (hit : Iter.build m (.days (-(j * 2 ^ 32))) = .ok it) (k : Nat) :
    nth (Iter.next c) k it = some (.ok (.moment { m with nano := if k = 0 then m.nano else 0 })) := by
  rw [(C33_build m (.days (-(j * 2 ^ 32)))).1 ⟨.day, -(j * 2 ^ 32), rfl⟩] at hit
  cases hit
  rw [show (2 : Int) ^ 31 = 2147483648 by decide] at hb
  obtain ⟨m1, m2, hdate, t, m7⟩ := id hm
  let at' (k : Nat) : Moment := { m with nano := if k = 0 then m.nano else 0 }
  have hval : ∀ k, (at' k).Valid c := by
    intro k
    have hnano : 0 ≤ (if k = 0 then m.nano else 0) ∧ (if k = 0 then m.nano else 0) < 2000000000 := by
      split <;> omega
    exact ⟨m1, m2, hdate, t, hnano⟩
  have hlen := Cal.monthLen_bounds (y := m.year) hdate.1 hdate.2.1
  obtain ⟨-, -, d1, d2⟩ := hdate
  have hmod : (m.day + -(j * 2 ^ 32)) % 2 ^ 32 = m.day := by
    rw [show (2 : Int) ^ 32 = 4294967296 by decide]; omega
  refine (run_shape (c := c) (inc := .days (-(j * 2 ^ 32))) rfl (fun k r => r = at' k) (fun _ _ => False)
    ?_ (fun _ _ h => h) m (by simp [at']) k).elim ?_ ?_
  · rintro k r rfl
    refine .inl ⟨at' (k + 1), ?_, rfl⟩
    have h := (C60_adding_negative_every_partial c hc (at' k) (hval k) .day (.inr (.inr (.inr rfl))) (-(j * 2 ^ 32))
      (by rw [show (2 : Int) ^ 32 = 4294967296 by decide]; omega) (by rw [show (2 : Int) ^ 32 = 4294967296 by decide]; omega)
      (m.day + -(j * 2 ^ 32)) m.hour m.minute m.second t
      (by simp only [at', Moment.instant, Cal.instant, Cal.dayNumber, TUnit.secs]; omega)).1
      ⟨⟨⟨rfl, rfl⟩, trivial⟩, by rw [hmod]; omega, by rw [hmod]; exact d2⟩
    rw [hmod] at h
    have e : at' (k + 1) = ⟨m.year, m.month, m.day, m.hour, m.minute, m.second, 0⟩ := by
      simp only [at', if_neg (show ¬ k + 1 = 0 by omega)]
    rw [e]
    exact h
  · rintro ⟨r, rfl, -, e⟩; exact e
  · rintro ⟨e, h, -⟩; exact h.elim

example (it : Iter) (hit : Iter.build (at_ 2017 8 31 12 0 0) (.days (-4294967296)) = .ok it) :
    nth (Iter.next (std .debug)) 7 it = some (.ok (.moment (at_ 2017 8 31 12 0 0))) :=
  C85_refuted_far (std .debug) (sane_std _) (at_ 2017 8 31 12 0 0) (by decide +kernel) 1 (by decide) (by decide) it hit 7

end Props
