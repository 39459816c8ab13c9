import Verif.Props.Adaptors

/-!
# C106: an iterator that has ended stays ended
-/

namespace Props
open Kairos Spec

variable {σ : Type}

/-- Once a call has returned `None`, every later call does. -/
def StaysEnded (nx : σ → σ × Item) (s : σ) : Prop :=
  ∀ i j : Nat, i ≤ j → nth nx i s = none → nth nx j s = none

/-- **C106, iterators without an end (partial)**: an iterator without adaptors never returns `None`. -/
theorem C106_endless_partial (c : Cfg) (it : Iter) (k : Nat) : nth (Iter.next c) k it ≠ none := by
  rw [nth_eq]
  unfold Iter.next
  split <;> exact fun h => nomatch h

/-- **C106, times (partial)**: `times(n)`, `n` not negative, on an iterator that stays ended (or on an iterator without an end) stays
ended, and so does everything from the `n`-th call on, on any iterator. Missing: negative `n`, see `C40_refuted`. -/
theorem C106_times_partial (c : Cfg) (nx : σ → σ × Item) (s : σ) (n : Int) (hn : 0 ≤ n) (hmax : n ≤ 9223372036854775807) :
    (StaysEnded nx s → StaysEnded (timesNext c nx) (timesNew s n)) ∧
    (∀ j : Nat, n ≤ j → nth (timesNext c nx) j (timesNew s n) = none) := by
  refine ⟨fun h i j hij hi => ?_, fun j hj => ?_⟩
  · rw [(C40_times_partial c nx s n hn hmax i).1] at hi
    rw [(C40_times_partial c nx s n hn hmax j).1]
    by_cases hj : (j : Int) < n
    · rw [if_pos hj]
      rw [if_pos (by omega)] at hi
      exact h i j hij hi
    · rw [if_neg hj]
  · rw [(C40_times_partial c nx s n hn hmax j).1, if_neg (by omega)]

example := C106_times_partial (std .debug) (Iter.next (std .debug)) ⟨.moment (at_ 2017 1 31 0 0 0), .days 1, false⟩ 3 (by decide) (by decide)

/-- **C106, filters (partial)**: `every(matcher)` and `without(matcher)` on an iterator that stays ended stay ended, whatever the matcher
(`fuel` is any number of rounds that the loop is followed for). -/
theorem C106_filters_partial (nx : σ → σ × Item) (s : σ) (h : StaysEnded nx s) (matcher : TT → Out Bool) (fuel : Nat) :
    StaysEnded (filterNext nx matcher fuel) s ∧ StaysEnded (withoutNext nx matcher fuel) s := by
  have key : ∀ M : TT → Out Bool, StaysEnded (filterNext nx M fuel) s := by
    intro M i j hij hi
    rcases Nat.eq_or_lt_of_le hij with rfl | hij
    · exact hi
    obtain ⟨k, hk⟩ := filter_after nx M fuel i s
    rw [nth_eq, hk] at hi
    obtain ⟨d, rfl⟩ : ∃ d, j = (i + 1) + d := ⟨j - (i + 1), by omega⟩
    rcases first_hit nx M fuel (after nx k s) with h0 | ⟨p, r, hp, h0, h1, -⟩
    · rw [filter_miss h0] at hi; cases hi
    · rw [filter_hit p h0 h1 hp] at hi
      simp only at hi
      subst hi
      have h3 := h1
      rw [← nth_add] at h3
      have hnone : nth nx (k + p) s = none := by
        cases hr : nth nx (k + p) s with
        | none => rfl
        | some o =>
          rw [hr] at h3
          cases o with
          | ok t => simp only [sieve] at h3; split at h3 <;> cases h3
          | _ => cases h3
      have hst : after (filterNext nx M fuel) (i + 1) s = after nx (k + p + 1) s := by
        rw [after_add, hk]
        show (filterNext nx M fuel (after nx k s)).1 = _
        rw [filter_hit p h0 h1 hp, ← after_add, Nat.add_assoc]
      rw [nth_add, hst]
      obtain ⟨q, hq⟩ := filter_after nx M fuel d (after nx (k + p + 1) s)
      rw [nth_eq, hq]
      have h2 : sieve M (nth nx 0 (after nx q (after nx (k + p + 1) s))) = some none := by
        rw [← nth_add, ← nth_add, h (k + p) _ (by omega) hnone]; rfl
      rw [filter_hit 0 (fun i hi => absurd hi (by omega)) h2 (by omega)]
  refine ⟨key matcher, ?_⟩
  have hw : withoutNext nx matcher fuel = filterNext nx (negated matcher) fuel := by
    funext s; exact without_eq_filter _ matcher fuel s
  rw [hw]
  exact key _

/-- Ten days from 1 January on, those of them that are Mondays: from the third call on it has ended. -/
example : StaysEnded (timesNext (std .debug) (Iter.next (std .debug)))
      (timesNew ⟨.moment (at_ 2017 1 1 0 0 0), .days 1, false⟩ 10) ∧
    items (filterNext (timesNext (std .debug) (Iter.next (std .debug))) Day.monday.matches 20) 4
      (timesNew ⟨.moment (at_ 2017 1 1 0 0 0), .days 1, false⟩ 10) =
    [some (.ok (.moment (at_ 2017 1 2 0 0 0))), some (.ok (.moment (at_ 2017 1 9 0 0 0))), none, none] :=
  ⟨(C106_times_partial _ _ _ 10 (by decide) (by decide)).1 (fun i _ _ h => absurd h (C106_endless_partial _ _ i)), by decide +kernel⟩

/-- **C106, until (partial)**: on an iterator that goes forward, `until(end)` yields no item any more once it has ended. -/
theorem C106_until_partial (c : Cfg) (hc : Sane c) (m : Moment) (hm : m.Valid c) (u : TUnit) (n : Int)
    (hn : 0 < n) (hmax : n * u.secs ≤ 133500000000000000) (it : Iter) (hit : Iter.build m (amt u n) = .ok it)
    (ending : Moment) (he : ending.Valid c) (i j : Nat) (hij : i ≤ j)
    (h : nth (untilNext c (Iter.next c) ending) i it = none) (t : TT) :
    nth (untilNext c (Iter.next c) ending) j it ≠ some (.ok t) := by
  rcases Nat.eq_or_lt_of_le hij with rfl | hij
  · rw [h]; exact fun h => nomatch h
  · rcases C41_stays_ended c hc m hm u n hn hmax it hit ending he i j hij h with h' | ⟨Y, M, D, H, MI, S, h'⟩ <;> rw [h'] <;>
      exact fun h => nomatch h

/-- The hypotheses: every 100000 years from 2017 until 102017 ends with the second call, and then comes no date any more. -/
example : Iter.build (at_ 2017 1 1 0 0 0) (amt .year 100000) = .ok ⟨.moment (at_ 2017 1 1 0 0 0), .years 100000, false⟩ ∧
    (100000 : Int) * TUnit.secs .year ≤ 133500000000000000 ∧
    nth (untilNext (std .debug) (Iter.next (std .debug)) (at_ 102017 1 1 0 0 0)) 1
      ⟨.moment (at_ 2017 1 1 0 0 0), .years 100000, false⟩ = none := by decide +kernel

/-- **C106 is false of the code**, for every iterator that goes forward and every end: called often enough after its end, `until(end)`
comes back to life with an OutOfBounds error, and then returns that for ever. -/
theorem C106_refuted (c : Cfg) (hc : Sane c) (m : Moment) (hm : m.Valid c) (u : TUnit) (n : Int)
    (hn : 0 < n) (hmax : n * u.secs ≤ 133500000000000000) (it : Iter) (hit : Iter.build m (amt u n) = .ok it)
    (ending : Moment) :
    ∃ K : Nat, ∀ j, K ≤ j →
      ∃ Y M D H MI S, nth (untilNext c (Iter.next c) ending) j it = some (.err (.outOfBounds Y M D H MI S)) := by
  rw [(C33_build m (amt u n)).1 ⟨u, n, rfl⟩] at hit
  cases hit
  refine ⟨(Cal.instant (c.maxYear + 1) 1 1 0 0 0 - m.instant).toNat, fun j hj => ?_⟩
  rcases forward_run c hc m hm u n hn hmax j with ⟨r, hr, hi, -, -⟩ | ⟨Y, M, D, H, MI, S, -, h⟩
  · have := moment_lt_end hr; omega
  · exact ⟨Y, M, D, H, MI, S, (C41_until c _ ending _ j).2.1 _ h⟩

example := C106_refuted (std .debug) (sane_std _) (at_ 2017 1 1 0 0 0) (by decide) .day 7 (by decide) (by decide) _ rfl (at_ 2020 1 1 0 0 0)

/-- Every 100000 years, until the second date: one date, the end, and then errors. -/
theorem C106_refuted_witness :
    items (untilNext (std .debug) (Iter.next (std .debug)) (at_ 102017 1 1 0 0 0)) 5
      ⟨.moment (at_ 2017 1 1 0 0 0), .years 100000, false⟩ =
    [some (.ok (.moment (at_ 2017 1 1 0 0 0))), none, none, some (.err (.outOfBounds 302017 1 0 0 0 0)),
      some (.err (.outOfBounds 302017 1 0 0 0 0))] := by decide +kernel

end Props
