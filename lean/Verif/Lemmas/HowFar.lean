import Verif.Lemmas.Friday13
import Verif.Lemmas.CalExists

/-!
# How many steps it is to the next day with a weekday, or in a month
-/

/-- With steps of at most `len` from `T`, one hits a stretch of length `len` from `X` on; `n` steps are enough if they are that long. -/
theorem step_into (T X s len : Int) (n : Nat) (hs : 1 ≤ s) (hlen : s ≤ len) (hX : T ≤ X) (hn : X - T ≤ (n : Int) * s) :
    ∃ k : Nat, k ≤ n ∧ X ≤ T + k * s ∧ T + k * s < X + len := by
  have h1 : 0 ≤ (X - T + s - 1) / s := Int.ediv_nonneg (by omega) (by omega)
  have h2 := Int.mul_ediv_self_le (x := X - T + s - 1) (k := s) (by omega)
  have h3 := Int.lt_mul_ediv_self_add (x := X - T + s - 1) (k := s) (by omega)
  have h4 : (X - T + s - 1) / s < n + 1 := Int.ediv_lt_of_lt_mul (by omega) (by rw [Int.add_mul]; omega)
  generalize hk : (X - T + s - 1) / s = K at *
  rw [Int.mul_comm] at h2 h3
  refine ⟨K.toNat, by omega, ?_, ?_⟩ <;> rw [show (K.toNat : Int) = K by omega] <;> omega

namespace Cal

/-- The next day with weekday `w` (day number `N` has the weekday `(N - 1) % 7`). -/
theorem next_weekday (T w s : Int) (n : Nat) (hw : 0 ≤ w ∧ w < 7) (hs : 1 ≤ s ∧ s ≤ 86400) (hn : 6 * 86400 ≤ (n : Int) * s) :
    ∃ k : Nat, k ≤ n ∧ ((T + k * s) / 86400 - 1) % 7 = w := by
  by_cases h : (w - (T / 86400 - 1)) % 7 = 0
  · exact ⟨0, by omega, by simp; omega⟩
  · obtain ⟨k, h1, h2, h3⟩ := step_into T ((T / 86400 + (w - (T / 86400 - 1)) % 7) * 86400) s 86400 n hs.1 hs.2 (by omega) (by omega)
    exact ⟨k, h1, by omega⟩

/-- From one month to the beginning of a later one, less than a year on, it is at most 337 days. Leap year or not (twice), and the two months. -/
theorem offset_less : ∀ l l' : Bool, ∀ a, a < 12 → ∀ k, k < 12 → a + k < 24 → offset l l' (a + k) ≤ offset l l' a + 337 := by
  decide +kernel

/-- Day number `N` is in a month number `mo`. -/
def InMonth (mo N : Int) : Prop := ∃ y d, ValidDate y mo d ∧ dayNumber y mo d = N

theorem inMonth_iff {y m d mo : Int} (v : ValidDate y m d) : InMonth mo (dayNumber y m d) ↔ m = mo := by
  constructor
  · rintro ⟨y', d', v', e⟩
    exact (dayNumber_inj v v' e.symm).2.1
  · rintro rfl
    exact ⟨y, d, v, rfl⟩

theorem next_month (T mo s : Int) (n : Nat) (hmo : 1 ≤ mo ∧ mo ≤ 12) (hs : 1 ≤ s ∧ s ≤ 28 * 86400) (hn : 337 * 86400 ≤ (n : Int) * s) :
    ∃ k : Nat, k ≤ n ∧ InMonth mo ((T + k * s) / 86400) := by
  obtain ⟨y, m, d, v, e⟩ := date_exists (T / 86400)
  by_cases h : m = mo
  · subst h
    exact ⟨0, by omega, y, d, v, by simp [e]⟩
  · obtain ⟨v1, v2, v3, v4⟩ := v
    have hj : (m - 1).toNat + ((mo - m) % 12).toNat < 24 := by omega
    have h1 := offset_less (isLeap y) (isLeap (y + 1)) (m - 1).toNat (by omega) ((mo - m) % 12).toNat (by omega) hj
    have h2 := dayNumber_offset y 1 hj
    have h3 := dayNumber_offset y d (show (m - 1).toNat < 24 by omega)
    rw [show (12 * y + (((m - 1).toNat : Nat) : Int)) / 12 = y by omega, show (12 * y + (((m - 1).toNat : Nat) : Int)) % 12 + 1 = m by omega] at h3
    rw [show (12 * y + (((m - 1).toNat + ((mo - m) % 12).toNat : Nat) : Int)) % 12 + 1 = mo by omega] at h2
    generalize hY : (12 * y + (((m - 1).toNat + ((mo - m) % 12).toNat : Nat) : Int)) / 12 = Y at h2
    have ml := monthLen_bounds (y := Y) hmo.1 hmo.2
    have v' : ValidDate Y mo 1 := ⟨hmo.1, hmo.2, by omega, by omega⟩
    have lt : dayNumber y m d < dayNumber Y mo 1 := dayNumber_lt ⟨v1, v2, v3, v4⟩ v' (by
      by_cases g : m < mo
      · exact .inr ⟨by omega, .inl g⟩
      · exact .inl (by omega))
    obtain ⟨k, g1, g2, g3⟩ := step_into T (dayNumber Y mo 1 * 86400) s (28 * 86400) n hs.1 hs.2 (by omega) (by omega)
    refine ⟨k, g1, Y, (T + k * s) / 86400 - dayNumber Y mo 1 + 1, ⟨hmo.1, hmo.2, by omega, by omega⟩, ?_⟩
    unfold dayNumber at g2 g3 ⊢
    omega

end Cal

namespace Cal

/-- The next day with another weekday. -/
theorem next_not_weekday (T w s : Int) (n : Nat) (hs : 1 ≤ s ∧ s ≤ 6 * 86400) (hn : 86400 ≤ (n : Int) * s) :
    ∃ k : Nat, k ≤ n ∧ ((T + k * s) / 86400 - 1) % 7 ≠ w := by
  by_cases h : (T / 86400 - 1) % 7 = w
  · obtain ⟨k, h1, h2, h3⟩ := step_into T ((T / 86400 + 1) * 86400) s (6 * 86400) n hs.1 hs.2 (by omega) (by omega)
    exact ⟨k, h1, by omega⟩
  · exact ⟨0, by omega, by simpa using h⟩

/-- The next day in another month. -/
theorem next_not_month (T mo s : Int) (n : Nat) (hs : 1 ≤ s ∧ s ≤ 28 * 86400) (hn : 31 * 86400 ≤ (n : Int) * s) :
    ∃ k : Nat, k ≤ n ∧ ¬ InMonth mo ((T + k * s) / 86400) := by
  obtain ⟨y, m, d, v, e⟩ := date_exists (T / 86400)
  by_cases h : m = mo
  · subst h
    obtain ⟨v1, v2, v3, v4⟩ := v
    have ml := monthLen_bounds (y := y) v1 v2
    obtain ⟨k, g1, g2, g3⟩ := step_into T ((dayNumber y m (monthLen y m) + 1) * 86400) s (28 * 86400) n hs.1 hs.2
      (by unfold dayNumber at e ⊢; omega) (by unfold dayNumber at e ⊢; omega)
    refine ⟨k, g1, ?_⟩
    rintro ⟨y', d', v', e'⟩
    -- 28 days on, it is at most the 28th of the next month
    obtain ⟨Y, M, hY, hne⟩ : ∃ Y M, nextDay y m (monthLen y m) = (Y, M, 1) ∧ (M ≠ m ∧ 1 ≤ M ∧ M ≤ 12) := by
      unfold nextDay
      by_cases h12 : m < 12
      · exact ⟨y, m + 1, by simp [h12], by omega⟩
      · exact ⟨y + 1, 1, by simp [h12], by omega⟩
    have hd := dayNumber_nextDay (y := y) (m := m) (d := monthLen y m) ⟨v1, v2, by omega, by omega⟩
    rw [hY] at hd
    simp only at hd
    have ml' := monthLen_bounds (y := Y) hne.2.1 hne.2.2
    have : m = M := (dayNumber_inj (y' := Y) (m' := M) (d' := (T + k * s) / 86400 - dayNumber Y M 1 + 1) v'
      ⟨hne.2.1, hne.2.2, by omega, by omega⟩ (by rw [e']; unfold dayNumber; omega)).2.1
    omega
  · refine ⟨0, by omega, ?_⟩
    simp only [Int.natCast_zero, Int.zero_mul, Int.add_zero, ← e]
    rw [inMonth_iff v]
    exact h

end Cal
