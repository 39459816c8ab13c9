import Verif.Spec.WorkDays

/-!
# Positions of the working days when Saturday and Sunday are left out one after the other
-/

namespace Spec

/-- `k1` is the position of the first weekday left out among all days, `k2` that of the second among those that are left. -/
theorem work_positions (W : Int) (hW : 0 ≤ W ∧ W < 7) (q : Nat) (a b : Int) (hab : (a = 5 ∧ b = 6) ∨ (a = 6 ∧ b = 5)) :
    ∃ k1 k2 : Nat, k1 < 7 ∧ k2 < 6 ∧ (∀ k : Nat, (W + k) % 7 = a ↔ k % 7 = k1) ∧
      (∀ i : Nat, (W + ((i + (i + 6 - k1) / 6 : Nat) : Int)) % 7 = b ↔ i % 6 = k2) ∧
      (((q + (q + 5 - k2) / 5) + ((q + (q + 5 - k2) / 5) + 6 - k1) / 6 : Nat) : Int) = workDay W q := by
  have hww : W = 0 ∨ W = 1 ∨ W = 2 ∨ W = 3 ∨ W = 4 ∨ W = 5 ∨ W = 6 := by omega
  have hq : ∃ x : Nat, q = 5 * x ∨ q = 5 * x + 1 ∨ q = 5 * x + 2 ∨ q = 5 * x + 3 ∨ q = 5 * x + 4 := ⟨q / 5, by omega⟩
  simp only [workDay]
  rcases hab with ⟨rfl, rfl⟩ | ⟨rfl, rfl⟩
  · rcases hww with h | h | h | h | h | h | h <;> rw [h]
    · exact ⟨5, 5, by omega, by omega, by omega, by omega, by rcases hq with ⟨x, hx | hx | hx | hx | hx⟩ <;> omega⟩
    · exact ⟨4, 4, by omega, by omega, by omega, by omega, by rcases hq with ⟨x, hx | hx | hx | hx | hx⟩ <;> omega⟩
    · exact ⟨3, 3, by omega, by omega, by omega, by omega, by rcases hq with ⟨x, hx | hx | hx | hx | hx⟩ <;> omega⟩
    · exact ⟨2, 2, by omega, by omega, by omega, by omega, by rcases hq with ⟨x, hx | hx | hx | hx | hx⟩ <;> omega⟩
    · exact ⟨1, 1, by omega, by omega, by omega, by omega, by rcases hq with ⟨x, hx | hx | hx | hx | hx⟩ <;> omega⟩
    · exact ⟨0, 0, by omega, by omega, by omega, by omega, by rcases hq with ⟨x, hx | hx | hx | hx | hx⟩ <;> omega⟩
    · exact ⟨6, 0, by omega, by omega, by omega, by omega, by rcases hq with ⟨x, hx | hx | hx | hx | hx⟩ <;> omega⟩
  · rcases hww with h | h | h | h | h | h | h <;> rw [h]
    · exact ⟨6, 5, by omega, by omega, by omega, by omega, by rcases hq with ⟨x, hx | hx | hx | hx | hx⟩ <;> omega⟩
    · exact ⟨5, 4, by omega, by omega, by omega, by omega, by rcases hq with ⟨x, hx | hx | hx | hx | hx⟩ <;> omega⟩
    · exact ⟨4, 3, by omega, by omega, by omega, by omega, by rcases hq with ⟨x, hx | hx | hx | hx | hx⟩ <;> omega⟩
    · exact ⟨3, 2, by omega, by omega, by omega, by omega, by rcases hq with ⟨x, hx | hx | hx | hx | hx⟩ <;> omega⟩
    · exact ⟨2, 1, by omega, by omega, by omega, by omega, by rcases hq with ⟨x, hx | hx | hx | hx | hx⟩ <;> omega⟩
    · exact ⟨1, 0, by omega, by omega, by omega, by omega, by rcases hq with ⟨x, hx | hx | hx | hx | hx⟩ <;> omega⟩
    · exact ⟨0, 5, by omega, by omega, by omega, by omega, by rcases hq with ⟨x, hx | hx | hx | hx | hx⟩ <;> omega⟩

end Spec
