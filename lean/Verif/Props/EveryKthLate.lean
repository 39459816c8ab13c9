import Verif.Props.EveryKth
import Verif.Props.LateMonths

/-!
# C159 from the 29th on
-/

namespace Props
open Kairos Spec

/-- **C159, years, from 29 February (partial)**: exactly when it holds, for each position in chrono's range, forward or backward. Unless the longer step has only met leap years up to
there (and then it holds exactly if the shorter one has, too), both are on 1 March. -/
theorem C159_29_february_iff_partial (c : Cfg) (hc : Sane c) (m : Moment) (hm : m.Valid c) (hd : m.month = 2 ∧ m.day = 29) (n : Int) (k : Nat) (hk : 1 ≤ k)
    (hmax : -2000000000 ≤ k * n ∧ k * n ≤ 2000000000) (it itk : Iter)
    (hit : Ext.yearly (.moment m) n = .ok it) (hitk : Ext.yearly (.moment m) (k * n) = .ok itk) (j : Nat)
    (hY : c.minYear ≤ m.year + j * (k * n) ∧ m.year + j * (k * n) ≤ c.maxYear) :
    SameDate (nth (Iter.next c) (j * k) it) (nth (Iter.next c) j itk) ↔
      ((∀ i : Nat, i ≤ j → Cal.isLeap (m.year + i * (k * n)) = true) → ∀ i : Nat, i ≤ j * k → Cal.isLeap (m.year + i * n) = true) := by
  have h1 : -2000000000 ≤ n ∧ n ≤ 2000000000 := by
    by_cases hn : 0 ≤ n
    · have := Int.mul_le_mul_of_nonneg_right (show (1 : Int) ≤ k by omega) hn
      omega
    · have := Int.mul_le_mul_of_nonneg_right (show (1 : Int) ≤ k by omega) (show 0 ≤ -n by omega)
      rw [Int.mul_neg, Int.mul_neg] at this
      omega
  have e : ∀ i : Nat, ((i * k : Nat) : Int) * n = i * (k * n) := fun i => by rw [Int.natCast_mul, Int.mul_assoc]
  have ez : j * k = 0 ↔ j = 0 := by rw [Nat.mul_eq_zero]; omega
  have not_all : ∀ (f : Nat → Bool) N, ¬ (∀ i, i ≤ N → f i = true) → ∃ i, i ≤ N ∧ f i = false := by
    intro f N h
    apply Classical.byContradiction
    intro g
    refine h fun i hi => ?_
    cases hf : f i
    · exact absurd ⟨i, hi, hf⟩ g
    · rfl
  rcases C80_from_29_february_partial c hc m hm hd n h1 it hit (j * k) with ⟨-, -, a, a'⟩ | ⟨a, -⟩
  rotate_left
  · rw [e] at a; omega
  rcases C80_from_29_february_partial c hc m hm hd (k * n) hmax itk hitk j with ⟨-, -, b, b'⟩ | ⟨b, -⟩
  rotate_left
  · omega
  rw [e] at a a'
  by_cases g : ∀ i : Nat, i ≤ j → Cal.isLeap (m.year + i * (k * n)) = true
  · rw [b g]
    by_cases g' : ∀ i : Nat, i ≤ j * k → Cal.isLeap (m.year + i * n) = true
    · rw [a g']
      refine ⟨fun _ _ => g', fun _ => .inl ⟨_, rfl, ?_⟩⟩
      simp only [ez]
    · rw [a' (not_all (fun i => Cal.isLeap (m.year + i * n)) _ g')]
      refine ⟨fun h => ?_, fun h => absurd (h g) g'⟩
      rcases h with ⟨r, h, h'⟩ | ⟨⟨_, _, _, _, _, _, h⟩, -⟩
      · cases h
        simp only [Option.some.injEq, OutE.ok.injEq, TT.moment.injEq, Moment.mk.injEq] at h'
        omega
      · cases h
  · refine ⟨fun _ h => absurd h g, fun _ => ?_⟩
    obtain ⟨i, hi, hl⟩ := not_all (fun i => Cal.isLeap (m.year + i * (k * n))) _ g
    rw [b' ⟨i, hi, hl⟩, a' ⟨i * k, Nat.mul_le_mul_right k hi, by rw [e]; exact hl⟩]
    exact .inl ⟨_, rfl, rfl⟩

/-- `yearly(1)` and `yearly(4)` from 29 February 2016 differ at position 1 (29 February 2020), and `yearly(2)` and `yearly(6)` do not (1 March 2022). -/
example := (C159_29_february_iff_partial (std .debug) (sane_std _) (at_ 2016 2 29 0 0 0) (by decide) (by decide) 2 3 (by decide) (by decide) _ _ rfl rfl 1 (by decide)).2
  (fun h => absurd (h 1 (by decide)) (by decide +kernel))
example : ¬ SameDate (nth (Iter.next (std .debug)) (1 * 4) ⟨.moment (at_ 2016 2 29 0 0 0), .years 1, false⟩)
    (nth (Iter.next (std .debug)) 1 ⟨.moment (at_ 2016 2 29 0 0 0), .years 4, false⟩) := by
  exact fun h => absurd ((C159_29_february_iff_partial (std .debug) (sane_std _) (at_ 2016 2 29 0 0 0) (by decide) (by decide) 1 4 (by decide) (by decide)
    _ _ rfl rfl 1 (by decide)).1 h (by decide +kernel) 1 (by decide)) (by decide +kernel)

private theorem stumbles_less (I n d : Int) (hn : 0 ≤ n) (k : Nat) (j : Nat) (hj : ∀ i : Nat, i < j * k → ¬ Stumbles d (I + i * n) n) (hk : 1 ≤ k) :
    ∀ i : Nat, i < j → ¬ Stumbles d (I + i * (k * n)) (k * n) := by
  have year : ∀ N : Nat, N ≤ j * k → d = 31 → (I + N * n) / 12 = I / 12 := by
    intro N
    induction N with
    | zero => intro _ _; simp
    | succ N ih =>
      intro hN h31
      have h := hj N (by omega)
      unfold Stumbles LeavesYear at h
      have e : ((N + 1 : Nat) : Int) * n = N * n + n := by rw [Int.natCast_add, Int.add_mul]; simp
      rw [e]
      have := ih (by omega) h31
      have : ¬ (I + ↑N * n) / 12 < (I + ↑N * n + n) / 12 := fun g => h (.inr ⟨h31, g⟩)
      omega
  intro i hi h
  have hle : (i + 1) * k ≤ j * k := Nat.mul_le_mul_right k hi
  have e1 : (i : Int) * (k * n) = ((i * k : Nat) : Int) * n := by rw [Int.natCast_mul, Int.mul_assoc]
  have e2 : (i : Int) * (k * n) + k * n = (((i + 1) * k : Nat) : Int) * n := by
    rw [Int.natCast_mul, Int.mul_assoc, Int.natCast_add, Int.add_mul]; simp
  have ek : (i + 1) * k = i * k + k := Nat.succ_mul i k
  have e3 : ((((i + 1) * k - 1 : Nat) : Int)) * n + n = (((i + 1) * k : Nat) : Int) * n := by
    have : ((((i + 1) * k : Nat) : Int)) = (((i + 1) * k - 1 : Nat) : Int) + 1 := by omega
    rw [this, Int.add_mul]; simp
  rcases h with h | ⟨h31, h⟩
  · refine hj ((i + 1) * k - 1) (by omega) (.inl ?_)
    rw [Int.add_assoc, e3, ← e2, ← Int.add_assoc]; exact h
  · unfold LeavesYear at h
    rw [Int.add_assoc, e2, e1, year _ hle h31, year (i * k) (by omega) h31] at h
    omega

/-- **C159, months, from any day (partial)**: as long as the iterator with the shorter step keeps the day of the base, up to the position in question, it holds. -/
theorem C159_months_kept_partial (c : Cfg) (hc : Sane c) (m : Moment) (hm : m.Valid c) (n : Int) (hn : 1 ≤ n) (k : Nat) (hk : 1 ≤ k) (hmax : k * n ≤ 24000000000)
    (it itk : Iter) (hit : Ext.monthly (.moment m) n = .ok it) (hitk : Ext.monthly (.moment m) (k * n) = .ok itk) (I : Int)
    (hI : I = Cal.monthIndex m.year m.month) (j : Nat) (hj : ∀ i : Nat, i < j * k → ¬ Stumbles m.day (I + i * n) n) :
    SameDate (nth (Iter.next c) (j * k) it) (nth (Iter.next c) j itk) := by
  have hk1 : 1 * n ≤ k * n := Int.mul_le_mul_of_nonneg_right (by omega) (by omega)
  obtain ⟨a1, a2⟩ := (C79_every_step_partial c hc m hm n hn (by omega) it hit I hI).1 (j * k) hj
  obtain ⟨b1, b2⟩ := (C79_every_step_partial c hc m hm (k * n) (by omega) hmax itk hitk I hI).1 j (stumbles_less I n m.day (by omega) k j hj hk)
  have e : ((j * k : Nat) : Int) * n = j * (k * n) := by rw [Int.natCast_mul, Int.mul_assoc]
  have ez : j * k = 0 ↔ j = 0 := by rw [Nat.mul_eq_zero]; omega
  rw [e] at a1 a2
  by_cases h : (I + j * (k * n)) / 12 ≤ c.maxYear
  · exact .inl ⟨_, a1 h, by rw [b1 h]; simp only [ez]⟩
  · exact .inr ⟨a2 (by omega), b2 (by omega)⟩

/-- **C159, months, from any day (partial)**: where the iterator with the shorter step has lost the day of the base and the one with the longer step has not, it does not hold. -/
theorem C159_months_lost_partial (c : Cfg) (hc : Sane c) (m : Moment) (hm : m.Valid c) (n : Int) (hn : 1 ≤ n) (k : Nat) (hk : 1 ≤ k) (hmax : k * n ≤ 24000000000)
    (it itk : Iter) (hit : Ext.monthly (.moment m) n = .ok it) (hitk : Ext.monthly (.moment m) (k * n) = .ok itk) (I : Int)
    (hI : I = Cal.monthIndex m.year m.month) (j : Nat) (hY : (I + j * (k * n)) / 12 ≤ c.maxYear) (i : Nat) (hi : i < j * k)
    (hs : Stumbles m.day (I + i * n) n) (hj : ∀ i : Nat, i < j → ¬ Stumbles m.day (I + i * (k * n)) (k * n)) :
    ¬ SameDate (nth (Iter.next c) (j * k) it) (nth (Iter.next c) j itk) := by
  have hk1 : 1 * n ≤ k * n := Int.mul_le_mul_of_nonneg_right (by omega) (by omega)
  have b := ((C79_every_step_partial c hc m hm (k * n) (by omega) hmax itk hitk I hI).1 j hj).1 hY
  obtain ⟨i0, h0, hfirst, hi0⟩ : ∃ i0 : Nat, Stumbles m.day (I + i0 * n) n ∧ (∀ i' : Nat, i' < i0 → ¬ Stumbles m.day (I + i' * n) n) ∧ i0 ≤ i := by
    clear hi
    induction i using Nat.strongRecOn with
    | ind i ih =>
      by_cases h : ∀ i' : Nat, i' < i → ¬ Stumbles m.day (I + i' * n) n
      · exact ⟨i, hs, h, Nat.le_refl _⟩
      · simp only [Classical.not_forall, Classical.not_not] at h
        obtain ⟨i', hi', hs'⟩ := h
        obtain ⟨i0, g1, g2, g3⟩ := ih i' hi' hs'
        exact ⟨i0, g1, g2, by omega⟩
  obtain ⟨a1, a2⟩ := (C79_every_step_partial c hc m hm n hn (by omega) it hit I hI).2 i0 hfirst h0 (j * k) (by omega)
  have hday : 29 ≤ m.day := by
    have := lengthOf_bounds (I + i0 * n + n)
    rcases h0 with h0 | ⟨h0, -⟩ <;> omega
  rw [b]
  rintro (⟨r, h, h'⟩ | ⟨-, _, _, _, _, _, _, h⟩)
  · cases h'
    by_cases g : LeavesYear (I + i0 * n) n ∧ m.day ≤ 30
    · obtain ⟨_, _, _, _, _, _, a⟩ := a1 g
      rw [a] at h; cases h
    · obtain ⟨d1, d2, a3, a4⟩ := a2 g _ rfl
      by_cases hr : (I + ((j * k : Nat) : Int) * n + 1) / 12 ≤ c.maxYear
      · rw [a3 hr] at h
        simp only [onDay, Option.some.injEq, OutE.ok.injEq, TT.moment.injEq, Moment.mk.injEq] at h
        omega
      · obtain ⟨_, _, _, _, _, _, a⟩ := a4 (by omega)
        rw [a] at h; cases h
  · cases h

/-- From 31 July 2017 `monthly(1)` loses the 31st in September and `monthly(5)` does not up to December; from 31 July on, every item of `monthly(1)` up to August
keeps it. -/
example := C159_months_lost_partial (std .debug) (sane_std _) (at_ 2017 7 31 0 0 0) (by decide) 1 (by decide) 5 (by decide) (by decide) _ _ rfl rfl _ rfl 1
  (by decide) 1 (by decide) (by decide +kernel) (by decide +kernel)
example := C159_months_kept_partial (std .debug) (sane_std _) (at_ 2017 3 30 0 0 0) (by decide) 2 (by decide) 2 (by decide) (by decide) _ _ rfl rfl _ rfl 2
  (by decide +kernel)

end Props
