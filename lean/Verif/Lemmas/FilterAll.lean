import Verif.Lemmas.Periodic

/-! Filters on iterators that end in an error, with matching items at any positions. -/

namespace Kairos
open Spec
variable {σ : Type}

/-- The first position from `a` on, within `f` steps, where `P` holds. -/
def firstFrom (P : Nat → Bool) : Nat → Nat → Nat
  | 0, a => a
  | f + 1, a => if P a then a else firstFrom P f (a + 1)

theorem firstFrom_spec {P : Nat → Bool} {f a : Nat} (h : P (a + f) = true) :
    a ≤ firstFrom P f a ∧ firstFrom P f a ≤ a + f ∧ P (firstFrom P f a) = true ∧ ∀ i, a ≤ i → i < firstFrom P f a → P i = false := by
  induction f generalizing a with
  | zero => exact ⟨Nat.le_refl _, Nat.le_refl _, h, fun i h1 h2 => by simp only [firstFrom] at h2; omega⟩
  | succ f ih =>
    unfold firstFrom
    split
    · rename_i hp
      exact ⟨Nat.le_refl _, by omega, hp, fun i h1 h2 => by omega⟩
    · rename_i hp
      obtain ⟨i1, i2, i3, i4⟩ := ih (a := a + 1) (by rw [← h]; congr 1; omega)
      refine ⟨by omega, by omega, i3, fun i h1 h2 => ?_⟩
      by_cases hi : i = a
      · subst hi; simpa using hp
      · exact i4 i (by omega) h2

/-- The positions where `P` holds, if from `L` on it always does. -/
def positions (P : Nat → Bool) (L : Nat) : Nat → Nat
  | 0 => firstFrom P L 0
  | q + 1 => firstFrom P L (positions P L q + 1)

/-- If the items are values up to position `L` and one and the same error from there on: the filtered items are the items at the positions where `P` holds,
in order, none left out, and then the error. -/
theorem filter_all {nx : σ → σ × Item} {M : TT → Out Bool} {s : σ} {P : Nat → Bool} {L fuel : Nat} {e : ErrorKind} (hf : L < fuel)
    (hok : ∀ k, k < L → ∃ t, nth nx k s = some (.ok t) ∧ M t = .ok (P k)) (herr : ∀ k, L ≤ k → nth nx k s = some (.err e)) :
    ∃ pos : Nat → Nat, (∀ q, nth (filterNext nx M fuel) q s = nth nx (pos q) s) ∧ (∀ q, pos q < pos (q + 1)) ∧
      (∀ q, pos q < L → P (pos q) = true) ∧ (∀ k, k < L → P k = true → ∃ q, q ≤ k ∧ pos q = k) := by
  obtain ⟨Q, hQ⟩ : ∃ Q : Nat → Bool, Q = fun k => P k || decide (L ≤ k) := ⟨_, rfl⟩
  have hQL : ∀ k, L ≤ k → Q k = true := by intro k hk; rw [hQ]; simp [hk]
  have hQP : ∀ k, k < L → Q k = P k := by
    intro k hk; rw [hQ]; simp; omega
  have s0 := firstFrom_spec (P := Q) (f := L) (a := 0) (hQL _ (by omega))
  have sq : ∀ q, _ := fun q => firstFrom_spec (P := Q) (f := L) (a := positions Q L q + 1) (hQL _ (by omega))
  have inc : ∀ q, positions Q L q < positions Q L (q + 1) := fun q => (sq q).1
  have ge : ∀ q, q ≤ positions Q L q := by
    intro q
    induction q with
    | zero => omega
    | succ q ih => have := inc q; omega
  have hp : ∀ q, Q (positions Q L q) = true := by
    intro q
    cases q with
    | zero => exact s0.2.2.1
    | succ q => exact (sq q).2.2.1
  refine ⟨positions Q L, fun q => ?_, inc, fun q hq => by rw [← hQP _ hq]; exact hp q, fun k hk hPk => ?_⟩
  · refine filter_positions (P := Q) (pos := positions Q L) (g := L + 1) (by omega) ?_ inc ?_ hp ?_ ?_ ?_ q
    · have : positions Q L 0 = firstFrom Q L 0 := rfl
      omega
    · intro q
      have := (sq q).2.1
      show firstFrom Q L (positions Q L q + 1) ≤ _
      omega
    · intro i hi
      exact s0.2.2.2 i (by omega) hi
    · intro q i h1 h2
      exact (sq q).2.2.2 i (by omega) h2
    · intro k
      by_cases hk : k < L
      · left
        rw [hQP k hk]
        exact hok k hk
      · exact .inr ⟨e, fun j hj => herr j (by omega)⟩
  · have hQk : Q k = true := by rw [hQP k hk]; exact hPk
    have claim : ∀ q, (∃ q', q' ≤ q ∧ positions Q L q' = k) ∨ positions Q L q < k := by
      intro q
      induction q with
      | zero =>
        by_cases h : k < positions Q L 0
        · have := s0.2.2.2 k (by omega) h
          rw [hQk] at this; cases this
        · by_cases h' : positions Q L 0 = k
          · exact .inl ⟨0, by omega, h'⟩
          · exact .inr (by omega)
      | succ q ih =>
        rcases ih with ⟨q', h1, h2⟩ | ih
        · exact .inl ⟨q', by omega, h2⟩
        · by_cases h : k < positions Q L (q + 1)
          · have := (sq q).2.2.2 k (by omega) h
            rw [hQk] at this; cases this
          · by_cases h' : positions Q L (q + 1) = k
            · exact .inl ⟨q + 1, by omega, h'⟩
            · exact .inr (by omega)
    rcases claim k with h | h
    · exact h
    · have := ge k; omega

end Kairos
