import Verif.Lemmas.Iter

/-! Runs of the iterator adaptors. -/

namespace Kairos
open Spec
variable {c : Cfg} {σ : Type}

/-! ### `times` -/

theorem times_run {nx : σ → σ × Item} {n : Int} (hmax : n ≤ 9223372036854775807) (s : σ) (k : Nat) (hk : (k : Int) ≤ n) :
    after (timesNext c nx) k (timesNew s n) = ⟨after nx k s, n, k⟩ := by
  induction k with
  | zero => rfl
  | succ k ih =>
    rw [after_succ', ih (by omega), after_succ']
    have hne : ¬ n = (k : Int) := by omega
    have hadd : (c.add (k : Int) 1 : Out Int) = .ok (k + 1) := by
      unfold Cfg.add Cfg.chk; exact if_pos (by unfold InI64; omega)
    simp only [timesNext, hne, if_false, hadd]
    congr 1

theorem times_ended {nx : σ → σ × Item} {n : Int} (hn : 0 ≤ n) (hmax : n ≤ 9223372036854775807) (s : σ) (k : Nat)
    (hk : n ≤ k) : after (timesNext c nx) k (timesNew s n) = ⟨after nx n.toNat s, n, n⟩ := by
  obtain ⟨d, rfl⟩ : ∃ d, k = n.toNat + d := ⟨k - n.toNat, by omega⟩
  rw [after_add, times_run hmax s _ (by omega)]
  have hcast : ((n.toNat : Nat) : Int) = n := by omega
  rw [hcast]
  clear hk
  induction d with
  | zero => rfl
  | succ d ih => rw [after_succ', ih]; simp [timesNext]

/-- Negative counts: as long as the counter does not overflow. -/
theorem times_neg {nx : σ → σ × Item} {n : Int} (hn : n < 0) (s : σ) (k : Nat) (hk : k ≤ 9223372036854775807) :
    after (timesNext c nx) k (timesNew s n) = ⟨after nx k s, n, k⟩ := by
  induction k with
  | zero => rfl
  | succ k ih =>
    rw [after_succ', ih (by omega), after_succ']
    have hne : ¬ n = (k : Int) := by omega
    have hadd : (c.add (k : Int) 1 : Out Int) = .ok (k + 1) := by
      unfold Cfg.add Cfg.chk; exact if_pos (by unfold InI64; omega)
    simp only [timesNext, hne, if_false, hadd]
    congr 1

/-! ### `until` -/

theorem until_state {nx : σ → σ × Item} {e : Moment} (s : σ) : (untilNext c nx e s).1 = (nx s).1 := by
  unfold untilNext
  split <;> (try rename_i h; rw [h])
  split
  · split
    · split <;> rfl
    · rfl
  · rfl

theorem until_after {nx : σ → σ × Item} {e : Moment} (k : Nat) (s : σ) :
    after (untilNext c nx e) k s = after nx k s := by
  induction k generalizing s with
  | zero => rfl
  | succ k ih => rw [after, ih, until_state]; rfl

/-! ### filters -/

theorem without_eq_filter (nx : σ → σ × Item) (M : TT → Out Bool) (fuel : Nat) (s : σ) :
    withoutNext nx M fuel s = filterNext nx (negated M) fuel s := by
  induction fuel generalizing s with
  | zero => rfl
  | succ fuel ih =>
    unfold withoutNext filterNext negated
    split
    · rfl
    · rename_i tt _
      cases hM : M tt with
      | ok b => cases b <;> simp [ih]; rfl
      | _ => rfl
    · rfl

/-- One round of the loop: the next item disappears, or is what `sieve` makes of it. -/
theorem filter_round (nx : σ → σ × Item) (M : TT → Out Bool) (fuel : Nat) (s : σ) :
    filterNext nx M (fuel + 1) s =
      match sieve M (nx s).2 with
      | none => filterNext nx M fuel (nx s).1
      | some r => ((nx s).1, r) := by
  conv => lhs; unfold filterNext
  generalize nx s = p
  obtain ⟨s', r⟩ := p
  match r with
  | none => rfl
  | some (.ok t) =>
    simp only [sieve]
    cases hM : M t with
    | ok b => cases b <;> rfl
    | _ => rfl
  | some (.err e) => rfl
  | some .panic => rfl
  | some .oof => rfl

/-- The result after rejecting `j` items. -/
theorem filter_hit {nx : σ → σ × Item} {M : TT → Out Bool} (j : Nat) {fuel : Nat} {s : σ} {r : Item}
    (h0 : ∀ i, i < j → sieve M (nth nx i s) = none) (h1 : sieve M (nth nx j s) = some r) (hf : j < fuel) :
    filterNext nx M fuel s = (after nx (j + 1) s, r) := by
  induction j generalizing fuel s with
  | zero =>
    obtain ⟨f, rfl⟩ : ∃ f, fuel = f + 1 := ⟨fuel - 1, by omega⟩
    rw [filter_round]
    simp only [nth] at h1
    rw [h1]; rfl
  | succ j ih =>
    obtain ⟨f, rfl⟩ : ∃ f, fuel = f + 1 := ⟨fuel - 1, by omega⟩
    rw [filter_round]
    have := h0 0 (by omega)
    simp only [nth] at this
    rw [this]
    refine ih (fun i hi => ?_) h1 (by omega)
    exact h0 (i + 1) (by omega)

theorem filter_miss {nx : σ → σ × Item} {M : TT → Out Bool} {fuel : Nat} {s : σ}
    (h0 : ∀ i, i < fuel → sieve M (nth nx i s) = none) :
    filterNext nx M fuel s = (after nx fuel s, some .oof) := by
  induction fuel generalizing s with
  | zero => rfl
  | succ f ih =>
    rw [filter_round]
    have := h0 0 (by omega)
    simp only [nth] at this
    rw [this]
    exact ih (fun i hi => h0 (i + 1) (by omega))

theorem items_succ (nx : σ → σ × Item) (n : Nat) (s : σ) : items nx (n + 1) s = (nx s).2 :: items nx n (nx s).1 := by
  unfold items
  rw [List.range_succ_eq_map]
  simp [nth, Function.comp_def]

theorem callNext_eq (nx : σ → σ × Item) (q : Nat) (s : σ) : callNext nx q s = (after nx q s, items nx q s) := by
  induction q generalizing s with
  | zero => rfl
  | succ q ih =>
    unfold callNext
    rw [items_succ]
    simp only [ih, after]

/-- The first rejected-or-not position of a list of items. -/
theorem first_hit (nx : σ → σ × Item) (M : TT → Out Bool) (N : Nat) (s : σ) :
    (∀ i, i < N → sieve M (nth nx i s) = none) ∨
    (∃ j r, j < N ∧ (∀ i, i < j → sieve M (nth nx i s) = none) ∧ sieve M (nth nx j s) = some r ∧
      (items nx N s).filterMap (sieve M) = r :: (items nx (N - (j + 1)) (after nx (j + 1) s)).filterMap (sieve M)) := by
  induction N generalizing s with
  | zero => left; intro i hi; omega
  | succ N ih =>
    cases h : sieve M (nx s).2 with
    | some r =>
      right
      exact ⟨0, r, by omega, by intro i hi; omega, h, by rw [items_succ]; simp [h]; rfl⟩
    | none =>
      rcases ih (nx s).1 with h0 | ⟨j, r, hj, h0, h1, h2⟩
      · left
        intro i hi
        cases i with
        | zero => exact h
        | succ i => exact h0 i (by omega)
      · right
        refine ⟨j + 1, r, by omega, ?_, h1, ?_⟩
        · intro i hi
          cases i with
          | zero => exact h
          | succ i => exact h0 i (by omega)
        · rw [items_succ]
          simp only [List.filterMap_cons, h]
          rw [h2]
          congr 3
          omega

theorem filterMap_none {nx : σ → σ × Item} {M : TT → Out Bool} {N : Nat} {s : σ}
    (h : ∀ i, i < N → sieve M (nth nx i s) = none) : (items nx N s).filterMap (sieve M) = [] := by
  simp [items]
  exact h

/-- The items of a filtered iterator are the sieved items. -/
theorem filter_items {nx : σ → σ × Item} {M : TT → Out Bool} {N fuel : Nat} (hf : N ≤ fuel) (s : σ) (q : Nat)
    (hq : q ≤ ((items nx N s).filterMap (sieve M)).length) :
    items (filterNext nx M fuel) q s = ((items nx N s).filterMap (sieve M)).take q := by
  induction q generalizing s N with
  | zero => rfl
  | succ q ih =>
    rcases first_hit nx M N s with h0 | ⟨j, r, hj, h0, h1, h2⟩
    · rw [filterMap_none h0] at hq; simp at hq
    · rw [h2] at hq ⊢
      rw [items_succ, filter_hit j h0 h1 (by omega)]
      simp only [List.take_succ_cons]
      congr 1
      exact ih (N := N - (j + 1)) (by omega) _ (by simpa using hq)

/-- A filtered iterator is always in a state of the underlying one. -/
theorem filter_state (nx : σ → σ × Item) (M : TT → Out Bool) (fuel : Nat) (s : σ) :
    ∃ k, (filterNext nx M fuel s).1 = after nx k s := by
  rcases first_hit nx M fuel s with h0 | ⟨j, r, hj, h0, h1, -⟩
  · exact ⟨fuel, by rw [filter_miss h0]⟩
  · exact ⟨j + 1, by rw [filter_hit j h0 h1 hj]⟩

theorem filter_after (nx : σ → σ × Item) (M : TT → Out Bool) (fuel q : Nat) (s : σ) :
    ∃ k, after (filterNext nx M fuel) q s = after nx k s := by
  induction q generalizing s with
  | zero => exact ⟨0, rfl⟩
  | succ q ih =>
    obtain ⟨k, hk⟩ := filter_state nx M fuel s
    obtain ⟨k', hk'⟩ := ih (filterNext nx M fuel s).1
    exact ⟨k + k', by rw [after, hk', hk, after_add]⟩

end Kairos
