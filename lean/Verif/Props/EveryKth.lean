import Verif.Spec.EveryKth
import Verif.Props.LateDays
import Verif.Props.LongSteps
import Verif.Props.Rollback

/-!
# C159: every k-th item of an iterator

The items of `step_by(k)` are those at the positions 0, k, 2 k, …
-/

namespace Props
open Kairos Spec

private theorem mul_assoc' (j k : Nat) (x : Int) : ((j * k : Nat) : Int) * x = j * (k * x) := by
  rw [Int.natCast_mul, Int.mul_assoc]

/-- **C159, seconds to days (partial).** If `k` steps are not longer than 30 days, the item at position `j * k` of an iterator is that at position `j` of the
iterator with `k` times the step; beyond chrono's last year both are errors. Missing: longer steps, see `C159_iff_partial`. -/
theorem C159_up_to_30_days_partial (c : Cfg) (hc : Sane c) (m : Moment) (hm : m.Valid c) (u : TUnit)
    (hu : u = .second ∨ u = .minute ∨ u = .hour ∨ u = .day) (n : Int) (hn : 0 ≤ n) (k : Nat) (hk : 1 ≤ k)
    (hmax : k * n * u.secs ≤ 30 * 86400) (it itk : Iter)
    (hit : Iter.build m (amt u n) = .ok it) (hitk : Iter.build m (amt u (k * n)) = .ok itk) (j : Nat) :
    SameDate (nth (Iter.next c) (j * k) it) (nth (Iter.next c) j itk) := by
  have hs : 0 ≤ n * u.secs := Int.mul_nonneg hn (by cases u <;> decide)
  have h1 : n * u.secs ≤ 30 * 86400 := by
    have := Int.mul_le_mul_of_nonneg_right (show (1 : Int) ≤ k by omega) hs
    rw [Int.mul_assoc] at hmax; omega
  have e : ((j * k : Nat) : Int) * (n * u.secs) = j * (k * n * u.secs) := by rw [mul_assoc', Int.mul_assoc (k : Int)]
  have ez : j * k = 0 ↔ j = 0 := by rw [Nat.mul_eq_zero]; omega
  have a := C34_kth_item c hc m hm u hu n hn h1 it hit (j * k)
  have b := C34_kth_item c hc m hm u hu (k * n) (Int.mul_nonneg (by omega) hn) hmax itk hitk j
  rw [e] at a
  rcases a with ⟨r, a1, a2, a3, a4⟩ | ⟨a1, a2⟩ <;> rcases b with ⟨q, b1, b2, b3, b4⟩ | ⟨b1, b2⟩
  · refine .inl ⟨r, a1, ?_⟩
    rw [b1, moment_eq b2 a2 (by omega) (by rw [a4, b4]; simp only [ez])]
  · have := moment_lt_end a2; omega
  · have := moment_lt_end b2; omega
  · exact .inr ⟨a2, b2⟩

/-- **C159, exactly when it holds (partial)**, for any `k`, and steps of up to 30 days. `e j` is the date exactly `j * k` steps after the base, all up to `K` in
chrono's range. The items at the positions 0, k, …, K k of the iterator are the first items of the iterator with `k` times the step, if and only if each of those dates
can be reached from the one before it (it lies in the same year, or in the year after on 1–30 January, 1–30 March of a leap year or
1 April – 30 May of a common year). -/
theorem C159_iff_partial (c : Cfg) (hc : Sane c) (m : Moment) (u : TUnit)
    (hu : u = .second ∨ u = .minute ∨ u = .hour ∨ u = .day) (n : Int) (hn : 0 ≤ n) (h30 : n * u.secs ≤ 30 * 86400) (k : Nat) (hk : 1 ≤ k)
    (it itk : Iter) (hit : Iter.build m (amt u n) = .ok it) (hitk : Iter.build m (amt u (k * n)) = .ok itk)
    (K : Nat) (e : Nat → Moment) (h0 : e 0 = m)
    (he : ∀ j, j ≤ K → (e j).Valid c ∧ (j ≠ 0 → (e j).nano = 0) ∧ (e j).instant = m.instant + j * (k * n * u.secs)) :
    (∀ j, j ≤ K → nth (Iter.next c) j itk = nth (Iter.next c) (j * k) it) ↔ ∀ j, j < K → AddRight (e j) (e (j + 1)) := by
  have hm : m.Valid c := by rw [← h0]; exact (he 0 (by omega)).1
  rw [← C134_exact_iff_partial c hc m u hu (k * n) (Int.mul_nonneg (by omega) hn) itk hitk K e h0 he]
  have fine : ∀ j, j ≤ K → nth (Iter.next c) (j * k) it = some (.ok (.moment (e j))) := by
    intro j hj
    obtain ⟨v, z, i⟩ := he j hj
    have eq : ((j * k : Nat) : Int) * (n * u.secs) = j * (k * n * u.secs) := by rw [mul_assoc', Int.mul_assoc (k : Int)]
    have a := C34_kth_item c hc m hm u hu n hn h30 it hit (j * k)
    rw [eq] at a
    rcases a with ⟨r, a1, a2, a3, a4⟩ | ⟨a1, a2⟩
    · rw [a1, moment_eq a2 v (by omega) ?_]
      rw [a4]
      by_cases hj0 : j = 0
      · subst hj0; rw [h0]; simp
      · have : j * k ≠ 0 := by rw [Ne, Nat.mul_eq_zero]; omega
        rw [if_neg this, z hj0]
    · have := moment_lt_end v; omega
  exact ⟨fun h j hj => (h j hj).trans (fine j hj), fun h j hj => (h j hj).trans (fine j hj).symm⟩

/-- **C159, months (partial).** From days up to the 28th. Missing: the other days, see `C159_months_kept_partial`, `C159_months_lost_partial` and `C159_refuted_months`. -/
theorem C159_months_partial (c : Cfg) (hc : Sane c) (m : Moment) (hm : m.Valid c) (hd : m.day ≤ 28) (n : Int) (hn : 0 ≤ n) (k : Nat) (hk : 1 ≤ k)
    (hmax : k * n ≤ 24000000000) (it itk : Iter)
    (hit : Iter.build m (.months n) = .ok it) (hitk : Iter.build m (.months (k * n)) = .ok itk) (j : Nat) :
    SameDate (nth (Iter.next c) (j * k) it) (nth (Iter.next c) j itk) := by
  have h1 : n ≤ 24000000000 := by
    have := Int.mul_le_mul_of_nonneg_right (show (1 : Int) ≤ k by omega) hn
    omega
  have e : ((j * k : Nat) : Int) * n = j * (k * n) := mul_assoc' j k n
  have ez : j * k = 0 ↔ j = 0 := by rw [Nat.mul_eq_zero]; omega
  obtain ⟨Y, M, hM, hM', hi, a⟩ := C35_monthly c hc m hm hd n hn h1 it hit (j * k)
  obtain ⟨Y', M', hN, hN', hi', b⟩ := C35_monthly c hc m hm hd (k * n) (Int.mul_nonneg (by omega) hn) hmax itk hitk j
  rw [e] at hi
  unfold Cal.monthIndex at hi hi'
  obtain ⟨rfl, rfl⟩ : Y = Y' ∧ M = M' := by omega
  rcases a with ⟨a1, a2⟩ | ⟨a1, a2⟩ <;> rcases b with ⟨b1, b2⟩ | ⟨b1, b2⟩
  · refine .inl ⟨_, a2, ?_⟩
    rw [b2]; simp only [ez]
  · omega
  · omega
  · exact .inr ⟨a2, b2⟩

/-- **C159, years (partial)**, forward or backward, but from 29 February (`C159_29_february_iff_partial`, `C159_refuted_years`). -/
theorem C159_years_partial (c : Cfg) (hc : Sane c) (m : Moment) (hm : m.Valid c) (hd : ¬ (m.month = 2 ∧ m.day = 29)) (n : Int) (k : Nat) (hk : 1 ≤ k)
    (hmax : -2000000000 ≤ k * n ∧ k * n ≤ 2000000000) (it itk : Iter)
    (hit : Iter.build m (.years n) = .ok it) (hitk : Iter.build m (.years (k * n)) = .ok itk) (j : Nat) :
    SameDate (nth (Iter.next c) (j * k) it) (nth (Iter.next c) j itk) := by
  have h1 : -2000000000 ≤ n ∧ n ≤ 2000000000 := by
    by_cases hn : 0 ≤ n
    · have := Int.mul_le_mul_of_nonneg_right (show (1 : Int) ≤ k by omega) hn
      omega
    · have := Int.mul_le_mul_of_nonneg_right (show (1 : Int) ≤ k by omega) (show 0 ≤ -n by omega)
      rw [Int.mul_neg, Int.mul_neg] at this
      omega
  have e : ((j * k : Nat) : Int) * n = j * (k * n) := mul_assoc' j k n
  have ez : j * k = 0 ↔ j = 0 := by rw [Nat.mul_eq_zero]; omega
  have a := C35_yearly c hc m hm hd n h1 it hit (j * k)
  have b := C35_yearly c hc m hm hd (k * n) hmax itk hitk j
  rw [e] at a
  rcases a with ⟨a1, a1', a2⟩ | ⟨a1, a2⟩ <;> rcases b with ⟨b1, b1', b2⟩ | ⟨b1, b2⟩
  · refine .inl ⟨_, a2, ?_⟩
    rw [b2]; simp only [ez]
  · omega
  · omega
  · exact .inr ⟨a2, b2⟩

/-- **C159 refuted for years**, in general: from any 29 February four years before a leap year, the fourth item of `yearly(1)` is on 1 March, the first of
`yearly(4)` on 29 February. -/
theorem C159_refuted_years (c : Cfg) (hc : Sane c) (m : Moment) (hm : m.Valid c) (hd : m.month = 2 ∧ m.day = 29)
    (hl : Cal.isLeap (m.year + 4) = true) (hy : m.year + 4 ≤ c.maxYear) (it itk : Iter)
    (hit : Ext.yearly (.moment m) 1 = .ok it) (hitk : Ext.yearly (.moment m) 4 = .ok itk) :
    nth (Iter.next c) (1 * 4) it = some (.ok (.moment { m with year := m.year + 4, month := 3, day := 1, nano := 0 })) ∧
    nth (Iter.next c) 1 itk = some (.ok (.moment { m with year := m.year + 4, nano := 0 })) := by
  have leap : ∀ y, Cal.isLeap y = true → Cal.isLeap (y + 1) = false := by
    intro y h
    unfold Cal.isLeap at *
    simp at h ⊢
    omega
  have l0 : Cal.isLeap m.year = true := by
    have a6 := hm.2.2.1.2.2.2
    rw [hd.1, hd.2] at a6
    cases h : Cal.isLeap m.year
    · simp [Cal.monthLen, h] at a6
    · rfl
  have y1 := hm.1
  constructor
  · rcases C80_from_29_february_partial c hc m hm hd 1 (by decide) it hit (1 * 4) with ⟨-, -, -, h⟩ | ⟨h, -⟩
    · exact h ⟨1, by omega, leap _ l0⟩
    · omega
  · rcases C80_from_29_february_partial c hc m hm hd 4 (by decide) itk hitk 1 with ⟨-, -, h, -⟩ | ⟨h, -⟩
    · refine h fun j hj => ?_
      obtain rfl | rfl : j = 0 ∨ j = 1 := by omega
      · simpa using l0
      · simpa using hl
    · omega

/-- **C159 refuted for months.** From 31 January, every second item of `monthly(1)` is not `monthly(2)`. -/
theorem C159_refuted_months (p : Profile) :
    nth (Iter.next (std p)) (1 * 2) ⟨.moment (at_ 2017 1 31 0 0 0), .months 1, false⟩ = some (.ok (.moment (at_ 2017 4 3 0 0 0))) ∧
    nth (Iter.next (std p)) 1 ⟨.moment (at_ 2017 1 31 0 0 0), .months 2, false⟩ = some (.ok (.moment (at_ 2017 3 31 0 0 0))) := by
  cases p <;> decide +kernel

/-- **C159 refuted for days.** Every 31st item of `daily(1)` is not `daily(31)`, over New Year. -/
theorem C159_refuted_days (p : Profile) :
    nth (Iter.next (std p)) (1 * 31) ⟨.moment (at_ 2017 12 31 0 0 0), .days 1, false⟩ = some (.ok (.moment (at_ 2018 1 31 0 0 0))) ∧
    nth (Iter.next (std p)) 1 ⟨.moment (at_ 2017 12 31 0 0 0), .days 31, false⟩ = some (.ok (.moment (at_ 2018 2 1 0 0 0))) := by
  cases p <;> decide +kernel

/-! ### cases -/

/-- Every 8th item of `hourly(3)` is `hourly(24)`; every third month, every fifth year. -/
example (j : Nat) := C159_up_to_30_days_partial (std .debug) (sane_std _) (at_ 2017 12 31 5 0 0) (by decide) .hour (by decide) 3 (by decide) 8 (by decide)
  (by decide) _ _ rfl rfl j

example (j : Nat) := C159_months_partial (std .debug) (sane_std _) (at_ 2017 12 28 5 0 0) (by decide) (by decide) 1 (by decide) 3 (by decide)
  (by decide) _ _ rfl rfl j

example (j : Nat) := C159_years_partial (std .debug) (sane_std _) (at_ 2017 12 31 5 0 0) (by decide) (by decide) 1 5 (by decide) (by decide) _ _ rfl rfl j

example := C159_refuted_years (std .debug) (sane_std _) (at_ 2016 2 29 0 0 0) (by decide) (by decide) (by decide) (by decide) _ _ rfl rfl

/-- Every 100th item of `daily(1)` from 10 January 2017 is `daily(100)` within that year. -/
example := (C159_iff_partial (std .debug) (sane_std _) (at_ 2017 1 10 0 0 0) .day (by decide) 1 (by decide) (by decide) 100 (by decide) _ _ rfl rfl 2
    (fun j => [at_ 2017 1 10 0 0 0, at_ 2017 4 20 0 0 0, at_ 2017 7 29 0 0 0].getD j (at_ 2017 1 10 0 0 0)) rfl (by decide +kernel)).mpr (by decide +kernel)

end Props
