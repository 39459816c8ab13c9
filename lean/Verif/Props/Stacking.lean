import Verif.Props.Adaptors

/-!
# C70, C71: adaptors on adaptors
-/

namespace Props
open Kairos Spec
variable {σ : Type}

/-! ## C70 -/

/-- **C70 (times).** `times(b).times(a)` is the iterator cut after the smaller of the two counts. -/
theorem C70_times_times (c : Cfg) (nx : σ → σ × Item) (s : σ) (a b : Int) (ha : 0 ≤ a ∧ a ≤ 9223372036854775807)
    (hb : 0 ≤ b ∧ b ≤ 9223372036854775807) (k : Nat) :
    nth (timesNext c (timesNext c nx)) k (timesNew (timesNew s b) a) = if (k : Int) < a ∧ (k : Int) < b then nth nx k s else none := by
  rw [(C40_times_partial c _ _ a ha.1 ha.2 k).1]
  by_cases h : (k : Int) < a
  · rw [if_pos h, (C40_times_partial c nx s b hb.1 hb.2 k).1]
    by_cases h' : (k : Int) < b
    · rw [if_pos h', if_pos ⟨h, h'⟩]
    · rw [if_neg h', if_neg (fun x => h' x.2)]
  · rw [if_neg h, if_neg (fun x => h x.1)]

example (k : Nat) := C70_times_times (std .debug) (Iter.next (std .debug)) ⟨.moment (at_ 2017 1 31 0 0 0), .days 1, false⟩ 3 5 (by decide) (by decide) k

/-- **C70 (until).** `until(a).until(b)` passes a moment exactly if it is before both dates, in either order of the two. -/
theorem C70_until_until (c : Cfg) (nx : σ → σ × Item) (a b m : Moment) (ha : a.Valid c) (hb : b.Valid c) (hm : m.Valid c)
    (s : σ) (k : Nat) (h : nth nx k s = some (.ok (.moment m))) :
    nth (untilNext c (untilNext c nx a) b) k s =
      (if (m.instant < a.instant ∨ (m.instant = a.instant ∧ m.nano < a.nano)) ∧
          (m.instant < b.instant ∨ (m.instant = b.instant ∧ m.nano < b.nano))
       then some (.ok (.moment m)) else none) ∧
    nth (untilNext c (untilNext c nx b) a) k s = nth (untilNext c (untilNext c nx a) b) k s := by
  have key : ∀ a b : Moment, a.Valid c → b.Valid c → nth (untilNext c (untilNext c nx a) b) k s =
      (if (m.instant < a.instant ∨ (m.instant = a.instant ∧ m.nano < a.nano)) ∧
          (m.instant < b.instant ∨ (m.instant = b.instant ∧ m.nano < b.nano))
       then some (.ok (.moment m)) else none) := by
    intro a b ha hb
    have h1 := (C41_until c nx a s k).1 m h hm ha
    by_cases hlt : m.instant < a.instant ∨ (m.instant = a.instant ∧ m.nano < a.nano)
    · rw [if_pos hlt] at h1
      rw [(C41_until c (untilNext c nx a) b s k).1 m h1 hm hb]
      by_cases hlt' : m.instant < b.instant ∨ (m.instant = b.instant ∧ m.nano < b.nano)
      · rw [if_pos hlt', if_pos ⟨hlt, hlt'⟩]
      · rw [if_neg hlt', if_neg (fun x => hlt' x.2)]
    · rw [if_neg hlt] at h1
      rw [(C41_until c (untilNext c nx a) b s k).2.2.1 h1, if_neg (fun x => hlt x.1)]
  refine ⟨key a b ha hb, ?_⟩
  rw [key a b ha hb, key b a hb ha]
  simp only [And.comm]

example := C70_until_until (std .debug) (Iter.next (std .debug)) (at_ 2017 2 2 0 0 0) (at_ 2017 2 9 0 0 0) (at_ 2017 2 3 0 0 0) (by decide) (by decide) (by decide)
  ⟨.moment (at_ 2017 1 31 0 0 0), .days 1, false⟩ 3 (by decide +kernel)

/-- The test that both tests pass. -/
def both (A B : TT → Bool) (t : TT) : Out Bool := .ok (A t && B t)

theorem sieve_both (A B : TT → Bool) (r : Item) :
    (sieve (filterMatches A) r).bind (sieve (filterMatches B)) = sieve (both A B) r := by
  cases r with
  | none => rfl
  | some o =>
    cases o with
    | ok t =>
      simp only [sieve, filterMatches, both]
      cases hA : A t <;> simp [sieve, filterMatches]
    | _ => rfl

/-- **C70 (every).** `every(a).every(b)` yields the items that pass both tests, in order; so does `every(b).every(a)`. (What the first `q`
calls return, as long as there are so many such items, errors and ends included, among the first `N`.) -/
theorem C70_every_every (nx : σ → σ × Item) (A B : TT → Bool) (s : σ) (N q fuel : Nat) (hf : N ≤ fuel)
    (hq : q ≤ ((items nx N s).filterMap (sieve (both A B))).length) :
    items (filterNext (filterNext nx (filterMatches A) fuel) (filterMatches B) fuel) q s =
      ((items nx N s).filterMap (sieve (both A B))).take q ∧
    items (filterNext (filterNext nx (filterMatches B) fuel) (filterMatches A) fuel) q s =
      ((items nx N s).filterMap (sieve (both A B))).take q := by
  have key : ∀ A B : TT → Bool, q ≤ ((items nx N s).filterMap (sieve (both A B))).length →
      items (filterNext (filterNext nx (filterMatches A) fuel) (filterMatches B) fuel) q s =
      ((items nx N s).filterMap (sieve (both A B))).take q := by
    intro A B hq
    have hfm : (items nx N s).filterMap (sieve (both A B)) =
        ((items nx N s).filterMap (sieve (filterMatches A))).filterMap (sieve (filterMatches B)) := by
      rw [List.filterMap_filterMap]
      congr 1
      funext r
      exact (sieve_both A B r).symm
    have hinner := C43_every nx (filterMatches A) s N ((items nx N s).filterMap (sieve (filterMatches A))).length fuel hf
      (Nat.le_refl _)
    rw [List.take_length] at hinner
    rw [hfm, ← hinner] at hq ⊢
    refine C43_every _ _ s _ q fuel ?_ hq
    have : ((items nx N s).filterMap (sieve (filterMatches A))).length ≤ (items nx N s).length := List.length_filterMap_le _ _
    have hl : (items nx N s).length = N := by simp [items]
    omega
  have hcomm : both B A = both A B := by funext t; simp [both, Bool.and_comm]
  refine ⟨key A B hq, ?_⟩
  rw [← hcomm] at hq ⊢
  exact key B A hq

example := C70_every_every (Iter.next (std .debug)) Month.january.filter Day.monday.filter ⟨.moment (at_ 2016 12 26 0 0 0), .days 1, false⟩ 20 2 20
  (by decide) (by decide +kernel)

/-- **C70 (partition).** Of the first `N` items, if they are values, those that `every(a)` yields and those that `without(a)` yields are
together exactly these items, each once. -/
theorem C70_partition (nx : σ → σ × Item) (A : TT → Bool) (s : σ) (N : Nat)
    (hv : ∀ k, k < N → ∃ t, nth nx k s = some (.ok t)) :
    ((items nx N s).filterMap (sieve (filterMatches A)) ++
      (items nx N s).filterMap (sieve (negated (filterMatches A)))).Perm (items nx N s) := by
  have hall : ∀ r ∈ items nx N s, ∃ t, r = some (.ok t) := by
    intro r hr
    simp only [items, List.mem_map, List.mem_range] at hr
    obtain ⟨k, hk, rfl⟩ := hr
    exact hv k hk
  generalize items nx N s = l at hall
  induction l with
  | nil => exact List.Perm.nil
  | cons r l ih =>
    obtain ⟨t, rfl⟩ := hall r (by simp)
    have ih := ih (fun r hr => hall r (List.mem_cons_of_mem _ hr))
    cases hA : A t with
    | true =>
      have e1 : sieve (filterMatches A) (some (.ok t)) = some (some (.ok t)) := by simp [sieve, filterMatches, hA]
      have e2 : sieve (negated (filterMatches A)) (some (.ok t)) = none := by simp [sieve, negated, filterMatches, hA]
      rw [List.filterMap_cons_some e1, List.filterMap_cons_none e2]
      exact List.Perm.cons _ ih
    | false =>
      have e1 : sieve (filterMatches A) (some (.ok t)) = none := by simp [sieve, filterMatches, hA]
      have e2 : sieve (negated (filterMatches A)) (some (.ok t)) = some (some (.ok t)) := by
        simp [sieve, negated, filterMatches, hA]
      rw [List.filterMap_cons_none e1, List.filterMap_cons_some e2]
      exact (List.perm_middle).trans (List.Perm.cons _ ih)

/-- The Mondays in January among the days from 30 December 2016, by two filters. -/
example : (items (Iter.next (std .debug)) 20 ⟨.moment (at_ 2016 12 25 0 0 0), .days 1, false⟩).filterMap
      (sieve (both Day.monday.filter Month.january.filter)) =
    [some (.ok (.moment (at_ 2017 1 2 0 0 0))), some (.ok (.moment (at_ 2017 1 9 0 0 0)))] := by decide +kernel

/-! ## C71 -/

/-- **C71.** On an iterator bounded by `times(n)`, every call of `next` on `every(matcher)` or `without(matcher)` returns within `n + 1` rounds,
even if nothing matches; and after at most `n` calls there is nothing more. -/
theorem C71_bounded_filters_end (c : Cfg) (nx : σ → σ × Item) (s : σ) (n : Nat) (hmax : n ≤ 9223372036854775807)
    (hnx : ∀ k, k < n → nth nx k s ≠ some .oof) (matcher : TT → Out Bool) (hM : ∀ t, matcher t ≠ .oof) (fuel : Nat)
    (hf : n < fuel) (q : Nat) :
    nth (filterNext (timesNext c nx) matcher fuel) q (timesNew s n) ≠ some .oof ∧
    nth (withoutNext (timesNext c nx) matcher fuel) q (timesNew s n) ≠ some .oof ∧
    (n ≤ q → nth (filterNext (timesNext c nx) matcher fuel) q (timesNew s n) = none ∧
      nth (withoutNext (timesNext c nx) matcher fuel) q (timesNew s n) = none) := by
  have hitem : ∀ k, nth (timesNext c nx) k (timesNew s n) = if k < n then nth nx k s else none := by
    intro k
    rw [(C40_times_partial c nx s n (by omega) (by omega) k).1]
    by_cases h : k < n
    · rw [if_pos h, if_pos (by omega)]
    · rw [if_neg h, if_neg (by omega)]
  have hnone : ∀ M : TT → Out Bool, sieve M none = some none := fun M => rfl
  have main : ∀ M : TT → Out Bool, (∀ t, M t ≠ .oof) →
      (nth (filterNext (timesNext c nx) M fuel) q (timesNew s n) ≠ some .oof ∧
       (n ≤ q → nth (filterNext (timesNext c nx) M fuel) q (timesNew s n) = none)) := by
    intro M hM
    -- the state before call `q` is one of the underlying iterator at a position `k ≥ min q n`
    have state : ∀ q, ∃ k, after (filterNext (timesNext c nx) M fuel) q (timesNew s n) = after (timesNext c nx) k (timesNew s n) ∧
        q ≤ k := by
      intro q
      induction q with
      | zero => exact ⟨0, rfl, Nat.le_refl _⟩
      | succ q ih =>
        obtain ⟨k, hk, hle⟩ := ih
        rw [after_succ', hk]
        rcases first_hit (timesNext c nx) M fuel (after (timesNext c nx) k (timesNew s n)) with h0 | ⟨j, r, hj, h0, h1, -⟩
        · rw [filter_miss h0]
          exact ⟨k + fuel, by rw [← after_add], by omega⟩
        · rw [filter_hit j h0 h1 hj]
          exact ⟨k + (j + 1), by rw [← after_add], by omega⟩
    obtain ⟨k, hk, hle⟩ := state q
    rw [nth_eq, hk]
    have hat : ∀ i, nth (timesNext c nx) i (after (timesNext c nx) k (timesNew s n)) = if k + i < n then nth nx (k + i) s else none := by
      intro i; rw [← nth_add, hitem]
    rcases first_hit (timesNext c nx) M fuel (after (timesNext c nx) k (timesNew s n)) with h0 | ⟨j, r, hj, h0, h1, -⟩
    · exfalso
      have := h0 n hf
      rw [hat, if_neg (by omega)] at this
      cases this
    · rw [filter_hit j h0 h1 hj]
      rw [hat] at h1
      constructor
      · intro h
        simp only at h
        subst h
        split at h1
        · rename_i hlt
          have hno := hnx _ hlt
          revert h1 hno
          cases nth nx (k + j) s with
          | none => intro h1; cases h1
          | some o =>
            cases o with
            | ok t =>
              simp only [sieve]
              have := hM t
              cases hMt : M t with
              | ok b => cases b <;> simp
              | oof => exact absurd hMt this
              | _ => simp
            | oof => intro _ h; exact absurd rfl h
            | _ => simp [sieve]
        · cases h1
      · intro hq
        rw [if_neg (by omega)] at h1
        cases h1
        rfl
  have h1 := main matcher hM
  have h2 := main (negated matcher) (by
    intro t
    have := hM t
    unfold negated
    cases h : matcher t <;> simp_all)
  have heq : withoutNext (timesNext c nx) matcher fuel = filterNext (timesNext c nx) (negated matcher) fuel := by
    funext s; exact without_eq_filter _ _ _ _
  rw [heq]
  exact ⟨h1.1, h2.1, fun h => ⟨h1.2 h, h2.2 h⟩⟩

/-- No Tuesday among three Sundays: the call returns with `None`. -/
example : nth (filterNext (timesNext (std .debug) (Iter.next (std .debug))) Day.tuesday.matches 4) 0
      (timesNew ⟨.moment (at_ 2017 1 1 0 0 0), .days 7, false⟩ 3) = none ∧
    (∀ k, k < 3 → nth (Iter.next (std .debug)) k ⟨.moment (at_ 2017 1 1 0 0 0), .days 7, false⟩ ≠ some .oof) := by
  decide +kernel

end Props
