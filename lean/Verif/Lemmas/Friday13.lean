import Verif.Lemmas.Calendar

/-!
# On which weekdays a day of the month falls
-/

namespace Cal

/-- Days before month number `j` of two years, of which the first is or is not a leap year, and the second. -/
def offset (l l' : Bool) (j : Nat) : Nat :=
  if j < 12 then (if j < 2 then 0 else if l then 1 else 0) + [0, 31, 59, 90, 120, 151, 181, 212, 243, 273, 304, 334].getD j 0
  else 365 + (if l then 1 else 0) + (if j - 12 < 2 then 0 else if l' then 1 else 0) + [0, 31, 59, 90, 120, 151, 181, 212, 243, 273, 304, 334].getD (j - 12) 0

/-- In any fourteen months in a row each day of the month falls on each weekday. The table is complete: leap year or not (twice), month and weekday. -/
theorem offset_window : ∀ l l' : Bool, (l && l') = false → ∀ a, a < 12 → ∀ t, t < 7 → ∃ k, k < 14 ∧ a + k < 24 ∧ offset l l' (a + k) % 7 = t := by
  decide +kernel

/-- In a year each day of the month falls on each weekday, … -/
theorem offset_year : ∀ l : Bool, ∀ t, t < 7 → ∃ k, k < 12 ∧ offset l false k % 7 = t := by
  decide +kernel

set_option synthInstance.maxSize 1000 in
set_option synthInstance.maxHeartbeats 200000 in
/-- … three times at most. -/
theorem offset_three : ∀ l : Bool, ∀ a, a < 12 → ∀ b, b < a → ∀ c, c < b → ∀ d, d < c →
    ¬ (offset l false a % 7 = offset l false b % 7 ∧ offset l false b % 7 = offset l false c % 7 ∧ offset l false c % 7 = offset l false d % 7) := by
  decide +kernel

theorem offset_first {l l' : Bool} {j : Nat} (h : j < 12) : offset l l' j = offset l false j := by
  unfold offset
  rw [if_pos h, if_pos h]

theorem daysBeforeMonth_offset (y : Int) (l' : Bool) {j : Nat} (h : j < 12) : daysBeforeMonth y (j + 1) = offset (isLeap y) l' j := by
  match j, h with
  | 0, _ | 1, _ | 2, _ | 3, _ | 4, _ | 5, _ | 6, _ | 7, _ | 8, _ | 9, _ | 10, _ | 11, _ =>
    unfold daysBeforeMonth offset
    cases isLeap y <;> rfl

theorem dayNumber_offset (y d : Int) {j : Nat} (h : j < 24) :
    dayNumber ((12 * y + j) / 12) ((12 * y + j) % 12 + 1) d = daysBeforeYear y + offset (isLeap y) (isLeap (y + 1)) j + d := by
  unfold dayNumber
  by_cases hj : j < 12
  · rw [show (12 * y + j) / 12 = y by omega, show (12 * y + j) % 12 = (j : Int) by omega, daysBeforeMonth_offset y (isLeap (y + 1)) hj]
  · rw [show (12 * y + j) / 12 = y + 1 by omega, show (12 * y + j) % 12 = ((j - 12 : Nat) : Int) by omega, daysBeforeMonth_offset (y + 1) false (by omega : j - 12 < 12),
      daysBeforeYear_succ]
    have e : (offset (isLeap y) (isLeap (y + 1)) j : Int) = yearLen y + offset (isLeap (y + 1)) false (j - 12) := by
      unfold offset yearLen
      rw [if_neg hj, if_pos (show j - 12 < 12 by omega)]
      cases isLeap y <;> simp <;> omega
    omega

theorem leap_next (y : Int) : (isLeap y && isLeap (y + 1)) = false := by
  unfold isLeap
  by_cases h : y % 4 = 0
  · have : ¬ (y + 1) % 4 = 0 := by omega
    simp [this]
  · simp [h]

/-- Among fourteen successive months there is one whose day `d` has the weekday `w`. -/
theorem weekday_window (i d w : Int) (hw : 0 ≤ w ∧ w < 7) : ∃ k : Nat, k < 14 ∧ weekday ((i + k) / 12) ((i + k) % 12 + 1) d = w := by
  obtain ⟨k, h1, h2, h3⟩ := offset_window (isLeap (i / 12)) (isLeap (i / 12 + 1)) (leap_next _) (i % 12).toNat (by omega)
    ((w - (daysBeforeYear (i / 12) + d - 1)) % 7).toNat (by omega)
  refine ⟨k, h1, ?_⟩
  have := dayNumber_offset (i / 12) d h2
  rw [show 12 * (i / 12) + (((i % 12).toNat + k : Nat) : Int) = i + k by omega] at this
  unfold weekday
  rw [this]
  omega

/-- In each year there is one. -/
theorem weekday_year (y d w : Int) (hw : 0 ≤ w ∧ w < 7) : ∃ M : Int, 1 ≤ M ∧ M ≤ 12 ∧ weekday y M d = w := by
  obtain ⟨k, h1, h2⟩ := offset_year (isLeap y) ((w - (daysBeforeYear y + d - 1)) % 7).toNat (by omega)
  refine ⟨k + 1, by omega, by omega, ?_⟩
  unfold weekday dayNumber
  rw [daysBeforeMonth_offset y false h1]
  omega

/-- There are no four. -/
theorem weekday_three (y d : Int) (a b c e : Int) (h1 : 1 ≤ a) (h2 : a < b) (h3 : b < c) (h4 : c < e) (h5 : e ≤ 12)
    (g1 : weekday y a d = weekday y b d) (g2 : weekday y b d = weekday y c d) (g3 : weekday y c d = weekday y e d) : False := by
  have key : ∀ x : Int, 1 ≤ x → x ≤ 12 → weekday y x d = (daysBeforeYear y + offset (isLeap y) false (x - 1).toNat + d - 1) % 7 := by
    intro x hx hx'
    unfold weekday dayNumber
    rw [← daysBeforeMonth_offset y false (show (x - 1).toNat < 12 by omega), show (((x - 1).toNat : Nat) : Int) + 1 = x by omega]
  rw [key a (by omega) (by omega), key b (by omega) (by omega)] at g1
  rw [key b (by omega) (by omega), key c (by omega) (by omega)] at g2
  rw [key c (by omega) (by omega), key e (by omega) (by omega)] at g3
  exact offset_three (isLeap y) (e - 1).toNat (by omega) (c - 1).toNat (by omega) (b - 1).toNat (by omega) (a - 1).toNat (by omega)
    ⟨by omega, by omega, by omega⟩

end Cal

/-- Positions at which a test holds, if there is one in each `g` successive ones. -/
theorem positions_exist (P : Nat → Bool) (g : Nat) (h : ∀ a, ∃ k, k < g ∧ P (a + k) = true) :
    ∃ pos : Nat → Nat, pos 0 < g ∧ (∀ q, pos q < pos (q + 1)) ∧ (∀ q, pos (q + 1) ≤ pos q + g) ∧ (∀ q, P (pos q) = true) ∧
      (∀ i, i < pos 0 → P i = false) ∧ (∀ q i, pos q < i → i < pos (q + 1) → P i = false) := by
  have least : ∀ a, ∃ b, a ≤ b ∧ b < a + g ∧ P b = true ∧ ∀ i, a ≤ i → i < b → P i = false := by
    intro a
    obtain ⟨k, h1, h2⟩ := h a
    induction k using Nat.strongRecOn with
    | ind k ih =>
      by_cases g : ∀ i, a ≤ i → i < a + k → P i = false
      · exact ⟨a + k, by omega, by omega, h2, g⟩
      · simp only [Classical.not_forall, Bool.not_eq_false] at g
        obtain ⟨i, g1, g2, g3⟩ := g
        exact ih (i - a) (by omega) (by omega) (by rw [show a + (i - a) = i by omega]; exact g3)
  let f : Nat → Nat := fun a => Classical.choose (least a)
  have hf : ∀ a, a ≤ f a ∧ f a < a + g ∧ P (f a) = true ∧ ∀ i, a ≤ i → i < f a → P i = false := fun a => Classical.choose_spec (least a)
  let pos : Nat → Nat := fun q => Nat.rec (f 0) (fun _ p => f (p + 1)) q
  have h0 : pos 0 = f 0 := rfl
  have hs : ∀ q, pos (q + 1) = f (pos q + 1) := fun _ => rfl
  refine ⟨pos, ?_, fun q => ?_, fun q => ?_, fun q => ?_, fun i hi => ?_, fun q i h1 h2 => ?_⟩
  · have := hf 0; omega
  · have := hf (pos q + 1); rw [hs]; omega
  · have := hf (pos q + 1); rw [hs]; omega
  · cases q with
    | zero => exact (hf 0).2.2.1
    | succ q => rw [hs]; exact (hf _).2.2.1
  · exact (hf 0).2.2.2 i (by omega) (by omega)
  · rw [hs] at h2; exact (hf _).2.2.2 i (by omega) h2

theorem positions_all {P : Nat → Bool} {pos : Nat → Nat} (hinc : ∀ q, pos q < pos (q + 1))
    (hgap0 : ∀ i, i < pos 0 → P i = false) (hgap : ∀ q i, pos q < i → i < pos (q + 1) → P i = false) (k : Nat) (hk : P k = true) : ∃ q, pos q = k := by
  have key : ∀ k, k < pos 0 ∨ ∃ q, pos q ≤ k ∧ k < pos (q + 1) := by
    intro k
    induction k with
    | zero =>
      by_cases h : 0 < pos 0
      · exact .inl h
      · exact .inr ⟨0, by omega, by have := hinc 0; omega⟩
    | succ k ih =>
      rcases ih with h | ⟨q, h1, h2⟩
      · by_cases h' : k + 1 < pos 0
        · exact .inl h'
        · exact .inr ⟨0, by omega, by have := hinc 0; omega⟩
      · by_cases h' : k + 1 < pos (q + 1)
        · exact .inr ⟨q, by omega, h'⟩
        · exact .inr ⟨q + 1, by omega, by have := hinc (q + 1); omega⟩
  rcases key k with h | ⟨q, h1, h2⟩
  · rw [hgap0 k h] at hk; cases hk
  · by_cases h : pos q = k
    · exact ⟨q, h⟩
    · rw [hgap q k (by omega) h2] at hk; cases hk
