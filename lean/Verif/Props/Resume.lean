import Verif.Props.Adaptors

/-!
# C102: an iterator can be taken up again from any of its items
-/

namespace Props
open Kairos Spec

private theorem state_after (c : Cfg) (m : Moment) (inc : TT) (k : Nat) (t : TT)
    (h : nth (Iter.next c) k ⟨.moment m, inc, false⟩ = some (.ok t)) :
    after (Iter.next c) (k + 1) ⟨.moment m, inc, false⟩ = ⟨t, inc, true⟩ := by
  have fixed : ∀ k, (after (Iter.next c) k ⟨.moment m, inc, false⟩).increment = inc ∧
      (0 < k → (after (Iter.next c) k ⟨.moment m, inc, false⟩).hadFirst = true) := by
    intro k
    induction k with
    | zero => exact ⟨rfl, fun h => absurd h (by decide)⟩
    | succ k ih =>
      rw [after_succ']
      generalize after (Iter.next c) k ⟨.moment m, inc, false⟩ = it at ih
      obtain ⟨b, i, hf⟩ := it
      simp only at ih
      cases hf with
      | false => exact ⟨ih.1, fun _ => rfl⟩
      | true =>
        simp only [Iter.next, Iter.skip, Iter.recalculate, Bool.not_true, Bool.false_eq_true, if_false]
        cases calculate c (b + i) <;> exact ⟨ih.1, fun _ => rfl⟩
  obtain ⟨f1, f2⟩ := fixed (k + 1)
  have f2 := f2 (by omega)
  have hb : (after (Iter.next c) (k + 1) ⟨.moment m, inc, false⟩).base = t := by
    rw [nth_eq] at h
    rw [after_succ']
    revert h
    generalize after (Iter.next c) k ⟨.moment m, inc, false⟩ = it
    obtain ⟨b, i, hf⟩ := it
    cases hf with
    | false => intro h; cases h; rfl
    | true =>
      simp only [Iter.next, Iter.skip, Iter.recalculate, Bool.not_true, Bool.false_eq_true, if_false]
      cases hcalc : calculate c (b + i) with
      | ok v => intro h; cases h; rfl
      | err e => intro h; cases h
      | panic => intro h; cases h
      | oof => intro h; cases h
  generalize after (Iter.next c) (k + 1) ⟨.moment m, inc, false⟩ = it at *
  obtain ⟨b, i, hf⟩ := it
  simp only at f1 f2 hb
  rw [f1, f2, hb]

/-- **C102.** If an iterator yielded `r` at position `k`, an iterator built from `r` with the same increment yields what the first one
yields from position `k` on, errors included. -/
theorem C102_resume (c : Cfg) (m r : Moment) (inc : TT) (it it' : Iter) (hit : Iter.build m inc = .ok it) (k : Nat)
    (hk : nth (Iter.next c) k it = some (.ok (.moment r))) (hit' : Iter.build r inc = .ok it') (j : Nat) :
    nth (Iter.next c) j it' = nth (Iter.next c) (k + j) it := by
  have shape : ∀ b i, Iter.build b inc = .ok i → i = ⟨.moment b, inc, false⟩ := by
    intro b i h
    unfold Iter.build at h
    split at h
    · cases h
    · cases h; rfl
  obtain rfl := shape _ _ hit
  obtain rfl := shape _ _ hit'
  cases j with
  | zero => rw [Nat.add_zero, hk]; rfl
  | succ j =>
    rw [show k + (j + 1) = k + 1 + j by omega, nth_add _ (k + 1) j, state_after c m inc k _ hk]
    rfl

example (j : Nat) := C102_resume (std .debug) (at_ 2017 1 31 0 0 0) (at_ 2017 3 3 0 0 0) (.months 1) _ _ rfl 1 (by decide +kernel) rfl j

/-- **C102 (until).** The same with an end date. -/
theorem C102_until (c : Cfg) (m r e : Moment) (inc : TT) (it it' : Iter) (hit : Iter.build m inc = .ok it) (k : Nat)
    (hk : nth (Iter.next c) k it = some (.ok (.moment r))) (hit' : Iter.build r inc = .ok it') (j : Nat) :
    nth (untilNext c (Iter.next c) e) j it' = nth (untilNext c (Iter.next c) e) (k + j) it := by
  have h := C102_resume c m r inc it it' hit k hk hit' j
  have item : ∀ s s' l l', nth (Iter.next c) l s = nth (Iter.next c) l' s' →
      nth (untilNext c (Iter.next c) e) l s = nth (untilNext c (Iter.next c) e) l' s' := by
    intro s s' l l' h
    rw [nth_eq, nth_eq] at h
    rw [nth_eq, nth_eq, until_after, until_after]
    revert h
    unfold untilNext
    generalize Iter.next c (after (Iter.next c) l s) = p
    generalize Iter.next c (after (Iter.next c) l' s') = p'
    obtain ⟨a, x⟩ := p
    obtain ⟨a', x'⟩ := p'
    intro h
    simp only at h
    subst h
    match x with
    | none => rfl
    | some (.err _) => rfl
    | some .panic => rfl
    | some .oof => rfl
    | some (.ok t) =>
      simp only
      cases calculate c t with
      | ok v =>
        simp only
        cases v.getMoment with
        | none => rfl
        | some q =>
          simp only
          split <;> rfl
      | _ => rfl
  exact item _ _ _ _ h

example (j : Nat) := C102_until (std .debug) (at_ 2017 1 31 0 0 0) (at_ 2017 3 3 0 0 0) (at_ 2018 1 1 0 0 0) (.months 1) _ _ rfl 1 (by decide +kernel) rfl j

/-- **C102 (times).** The same with a count, which has to be reduced by what was already yielded. -/
theorem C102_times (c : Cfg) (m r : Moment) (inc : TT) (it it' : Iter) (hit : Iter.build m inc = .ok it) (k : Nat)
    (hk : nth (Iter.next c) k it = some (.ok (.moment r))) (hit' : Iter.build r inc = .ok it') (n : Int) (hn : (k : Int) ≤ n)
    (hmax : n ≤ 9223372036854775807) (j : Nat) :
    nth (timesNext c (Iter.next c)) j (timesNew it' (n - k)) = nth (timesNext c (Iter.next c)) (k + j) (timesNew it n) := by
  rw [(C40_times_partial c _ it' (n - k) (by omega) (by omega) j).1, (C40_times_partial c _ it n (by omega) hmax (k + j)).1,
    C102_resume c m r inc it it' hit k hk hit' j]
  by_cases h : (j : Int) < n - k
  · rw [if_pos h, if_pos (by omega)]
  · rw [if_neg h, if_neg (by omega)]

/-- Every month from 31 January 2017, taken up again from the third item; and an iterator that goes back. -/
example : Iter.build (at_ 2017 1 31 10 30 0) (.months 1) = .ok ⟨.moment (at_ 2017 1 31 10 30 0), .months 1, false⟩ ∧
    nth (Iter.next (std .debug)) 2 ⟨.moment (at_ 2017 1 31 10 30 0), .months 1, false⟩ = some (.ok (.moment (at_ 2017 4 3 10 30 0))) ∧
    Iter.build (at_ 2017 4 3 10 30 0) (.months 1) = .ok ⟨.moment (at_ 2017 4 3 10 30 0), .months 1, false⟩ ∧
    nth (Iter.next (std .debug)) 5 ⟨.moment (at_ 2017 4 3 10 30 0), .months 1, false⟩ = some (.ok (.moment (at_ 2017 9 3 10 30 0))) ∧
    nth (Iter.next (std .debug)) 7 ⟨.moment (at_ 2017 1 31 10 30 0), .months 1, false⟩ = some (.ok (.moment (at_ 2017 9 3 10 30 0))) := by
  decide +kernel

end Props
