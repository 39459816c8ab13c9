import Verif.Lemmas.AdaptorOrder
import Verif.Props.Stacking
import Verif.Props.Filtered

/-!
# C101: the order of adaptors
-/

namespace Props
open Kairos Spec
variable {σ : Type}

/-- **C101 (until, times).** `until(d).times(n)` and `times(n).until(d)` return the same in every call, on every iterator and for every `n`. -/
theorem C101_until_times (c : Cfg) (nx : σ → σ × Item) (s : σ) (d : Moment) (n : Int) (k : Nat) :
    nth (timesNext c (untilNext c nx d)) k (timesNew s n) = nth (untilNext c (timesNext c nx) d) k (timesNew s n) := by
  have : untilNext c (timesNext c nx) d = timesNext c (untilNext c nx d) := funext (until_times nx d)
  rw [this]

/-- **C101 (until, filters).** On an iterator whose values are moments that never go back in time, `until(d).every(f)` and `every(f).until(d)`
yield the same values in the same calls; likewise `without(f)`. -/
theorem C101_until_filters (c : Cfg) (nx : σ → σ × Item) (s : σ) (d : Moment) (hd : d.Valid c)
    (hv : ∀ k t, nth nx k s = some (.ok t) → ∃ m, t = .moment m ∧ m.Valid c)
    (hs : ∀ i j a b, i < j → nth nx i s = some (.ok (.moment a)) → nth nx j s = some (.ok (.moment b)) →
      a.instant < b.instant ∨ (a.instant = b.instant ∧ a.nano ≤ b.nano))
    (f : TT → Out Bool) (fuel q : Nat) (t : TT) :
    (nth (filterNext (untilNext c nx d) f fuel) q s = some (.ok t) ↔ nth (untilNext c (filterNext nx f fuel) d) q s = some (.ok t)) ∧
    (nth (withoutNext (untilNext c nx d) f fuel) q s = some (.ok t) ↔ nth (untilNext c (withoutNext nx f fuel) d) q s = some (.ok t)) := by
  have hv' : OnlyMoments nx s := fun k t h => let ⟨m, hm, _⟩ := hv k t h; ⟨m, hm⟩
  have hs' : FirstBefore nx s d := by
    intro i j a b hij ha hb hlt
    obtain ⟨_, e1, va⟩ := hv _ _ ha
    obtain ⟨_, e2, vb⟩ := hv _ _ hb
    cases e1; cases e2
    have := hs i j a b hij ha hb
    simp only [Moment.lt, beq_iff_eq] at hlt ⊢
    rw [Moment.cmp_lt_instant vb hd] at hlt
    rw [Moment.cmp_lt_instant va hd]
    omega
  have hwo : ∀ nx : σ → σ × Item, withoutNext nx f fuel = filterNext nx (negated f) fuel := fun nx => by
    funext s; exact without_eq_filter _ _ _ _
  rw [hwo, hwo]
  exact ⟨values_same d f fuel q t hv' hs', values_same d (negated f) fuel q t hv' hs'⟩

/-- Mondays and then the end date, or the other way round: two Mondays, then `None`. -/
example : items (filterNext (untilNext (std .debug) (Iter.next (std .debug)) (at_ 2017 1 12 0 0 0)) Day.monday.matches 9) 3
      ⟨.moment (at_ 2017 1 1 10 30 0), .days 1, false⟩ =
      [some (.ok (.moment (at_ 2017 1 2 10 30 0))), some (.ok (.moment (at_ 2017 1 9 10 30 0))), none] ∧
    items (untilNext (std .debug) (filterNext (Iter.next (std .debug)) Day.monday.matches 9) (at_ 2017 1 12 0 0 0)) 3
      ⟨.moment (at_ 2017 1 1 10 30 0), .days 1, false⟩ =
      [some (.ok (.moment (at_ 2017 1 2 10 30 0))), some (.ok (.moment (at_ 2017 1 9 10 30 0))), none] := by decide +kernel

/-- **C101 (until, filters)** on the iterators of the library: every base and every positive increment up to 4.29 billion years. -/
theorem C101_forward (c : Cfg) (hc : Sane c) (m : Moment) (hm : m.Valid c) (u : TUnit) (n : Int)
    (hn : 0 < n) (hmax : n * u.secs ≤ 133500000000000000) (it : Iter) (hit : Iter.build m (amt u n) = .ok it)
    (d : Moment) (hd : d.Valid c) (f : TT → Out Bool) (fuel q : Nat) (t : TT) :
    (nth (filterNext (untilNext c (Iter.next c) d) f fuel) q it = some (.ok t) ↔
      nth (untilNext c (filterNext (Iter.next c) f fuel) d) q it = some (.ok t)) ∧
    (nth (withoutNext (untilNext c (Iter.next c) d) f fuel) q it = some (.ok t) ↔
      nth (untilNext c (withoutNext (Iter.next c) f fuel) d) q it = some (.ok t)) := by
  have hord := C36_strictly_forward_partial c hc m hm u n hn hmax it hit
  rw [(C33_build m (amt u n)).1 ⟨u, n, rfl⟩] at hit
  cases hit
  refine C101_until_filters c _ _ d hd (fun k t h => ?_) (fun i j a b hij ha hb => ?_) f fuel q t
  · rcases forward_run c hc m hm u n hn hmax k with ⟨r, hr, -, -, hk⟩ | ⟨Y, M, D, H, MI, S, -, hk⟩
    · rw [h] at hk
      cases hk
      exact ⟨r, rfl, hr⟩
    · rw [h] at hk; cases hk
  · obtain ⟨r, s, h1, h2, h3⟩ := hord.2 i j _ _ hij ha hb
    cases h1; cases h2
    exact .inl h3

example (q : Nat) (t : TT) := C101_forward (std .debug) (sane_std _) (at_ 2017 1 1 10 30 0) (by decide) .day 1 (by decide) (by decide)
  ⟨.moment (at_ 2017 1 1 10 30 0), .days 1, false⟩ rfl (at_ 2017 2 1 0 0 0) (by decide) Day.monday.matches 9 q t

/-- **C101 (how it ends).** Only the end can differ: with whole weeks per step and a weekday that never comes, `until(e).every(day)` returns `None`
at once if the iterator gets to `e`, whereas `every(day).until(e)` returns the OutOfBounds error from the end of chrono's range. -/
theorem C101_ends_differ (c : Cfg) (hc : Sane c) (m : Moment) (hm : m.Valid c) (n : Int) (hn : 1 ≤ n ∧ n ≤ 4) (day : Day)
    (hday : m.weekday ≠ day.into) (it : Iter) (hit : Ext.weekly c (.moment m) n = .ok it) (e : Moment) (he : e.Valid c)
    (k : Nat) (r : Moment) (hk : nth (Iter.next c) k it = some (.ok (.moment r))) (hr : e.instant ≤ r.instant ∧ e.nano = 0) :
    ∃ Y M D H MI S B, ∀ fuel, B ≤ fuel →
      nth (filterNext (untilNext c (Iter.next c) e) day.matches fuel) 0 it = none ∧
      nth (untilNext c (filterNext (Iter.next c) day.matches fuel) e) 0 it = some (.err (.outOfBounds Y M D H MI S)) := by
  obtain ⟨Y, M, D, H, MI, S, B, hB⟩ := (C67_weeks c hc m hm n hn day it hit).2.1 hday
  refine ⟨Y, M, D, H, MI, S, max B (k + 1), fun fuel hf => ⟨?_, ?_⟩⟩
  · have hit' : Ext.daily (.moment m) (7 * n) = .ok it := by
      rw [(C33_named c (.moment m) (7 * n)).2.2.1, ← (C33_named c (.moment m) n).2.2.2.2.2.1 (by omega)]; exact hit
    have hitems := daily_items c hc m hm (7 * n) (by omega) day it hit'
    have hw : m.weekday % 7 = m.weekday := by unfold Moment.weekday Cal.weekday; omega
    -- up to position `k` there are only moments that do not match
    have hno : ∀ i, i ≤ k → ∃ b, nth (Iter.next c) i it = some (.ok (.moment b)) ∧ day.matches (.moment b) = .ok false := by
      intro i hi
      rcases hitems i with ⟨b, h1, -, -, h2⟩ | ⟨-, Y, M, D, H, MI, S, h⟩
      · refine ⟨b, h1, ?_⟩
        rw [h2]
        congr 1
        rw [beq_eq_false_iff_ne]
        have : (m.weekday + i * (7 * n)) % 7 = m.weekday := by
          rw [show (i : Int) * (7 * n) = 7 * (i * n) by rw [← Int.mul_assoc, Int.mul_comm (i : Int) 7, Int.mul_assoc], Int.add_mul_emod_self_left]
          exact hw
        rw [this]
        exact hday
      · have := h k hi
        rw [hk] at this; cases this
    have vr : r.Valid c := by
      rcases hitems k with ⟨b, h1, h2, -⟩ | ⟨-, Y, M, D, H, MI, S, h⟩
      · rw [hk] at h1
        cases h1
        exact h2
      · have := h k (Nat.le_refl _)
        rw [hk] at this; cases this
    have hend : nth (untilNext c (Iter.next c) e) k it = none := by
      rw [(C41_until c _ e it k).1 r hk vr he, if_neg]
      have := vr.2.2.2.2
      omega
    rw [nth]
    rcases first_hit (untilNext c (Iter.next c) e) day.matches fuel it with h0 | ⟨j, x, hj, h0, h1, -⟩
    · have := h0 k (by omega)
      rw [hend] at this; cases this
    · rw [filter_hit j h0 h1 hj]
      have hjk : j ≤ k := by
        apply Nat.le_of_not_lt
        intro hlt
        have := h0 k hlt
        rw [hend] at this; cases this
      obtain ⟨b, hb, hf'⟩ := hno j hjk
      rcases Classical.em (x = none) with hx | hx
      · exact hx
      · exfalso
        have hv : ∀ t, ((Iter.next c) (after (Iter.next c) j it)).2 = some (.ok t) → ∃ m, t = .moment m := by
          intro t ht
          rw [← nth_eq, hb] at ht
          cases ht
          exact ⟨b, rfl⟩
        rw [nth_eq, until_after, until_item hv, ← nth_eq, hb] at h1
        simp only [cut] at h1
        split at h1
        · simp [sieve, hf'] at h1
        · cases h1
          exact hx rfl
  · exact (C41_until c _ e it 0).2.1 _ (hB fuel (by omega) 0)

/-- Every week from Sunday 1 January 2017 until 1 February, Mondays only; the sixth item is beyond the end. -/
example : Ext.weekly (std .debug) (.moment (at_ 2017 1 1 10 30 0)) 1 = .ok ⟨.moment (at_ 2017 1 1 10 30 0), .days 7, false⟩ ∧
    (at_ 2017 1 1 10 30 0).weekday ≠ Day.monday.into ∧ (at_ 2017 2 1 0 0 0).Valid (std .debug) ∧
    nth (Iter.next (std .debug)) 5 ⟨.moment (at_ 2017 1 1 10 30 0), .days 7, false⟩ = some (.ok (.moment (at_ 2017 2 5 10 30 0))) ∧
    (at_ 2017 2 1 0 0 0).instant ≤ (at_ 2017 2 5 10 30 0).instant := by decide +kernel

/-- **C101 (times, filters).** `times(n).every(f)` yields nothing that `every(f).times(n)` does not yield in the same call (but it may end earlier:
the former looks at `n` items, the latter yields `n`); likewise `without(f)`. -/
theorem C101_times_filters (c : Cfg) (nx : σ → σ × Item) (s : σ) (n : Int) (hn : 0 ≤ n) (hmax : n ≤ 9223372036854775807)
    (f : TT → Out Bool) (fuel q : Nat) (t : TT) :
    (nth (filterNext (timesNext c nx) f fuel) q (timesNew s n) = some (.ok t) →
      nth (timesNext c (filterNext nx f fuel)) q (timesNew s n) = some (.ok t)) ∧
    (nth (withoutNext (timesNext c nx) f fuel) q (timesNew s n) = some (.ok t) →
      nth (timesNext c (withoutNext nx f fuel)) q (timesNew s n) = some (.ok t)) := by
  have hitem : ∀ k, nth (timesNext c nx) k (timesNew s n) = if k < n.toNat then nth nx k s else none := by
    intro k
    rw [(C40_times_partial c nx s n hn hmax k).1]
    by_cases h : (k : Int) < n
    · rw [if_pos h, if_pos (by omega)]
    · rw [if_neg h, if_neg (by omega)]
  have main : ∀ g : TT → Out Bool, nth (filterNext (timesNext c nx) g fuel) q (timesNew s n) = some (.ok t) →
      nth (timesNext c (filterNext nx g fuel)) q (timesNew s n) = some (.ok t) := by
    intro g h
    obtain ⟨h1, h2⟩ := filter_prefix q hitem h
    rw [(C40_times_partial c _ s n hn hmax q).1, if_pos (by omega)]
    exact h2
  have hw : withoutNext nx f fuel = filterNext nx (negated f) fuel := by funext s; exact without_eq_filter _ _ _ _
  have hw' : withoutNext (timesNext c nx) f fuel = filterNext (timesNext c nx) (negated f) fuel := by
    funext s; exact without_eq_filter _ _ _ _
  rw [hw, hw']
  exact ⟨main f, main (negated f)⟩

/-- Among the first nine days there are two Mondays; of the Mondays, the first nine go on. -/
example : items (filterNext (timesNext (std .debug) (Iter.next (std .debug))) Day.monday.matches 9) 3
      (timesNew ⟨.moment (at_ 2017 1 1 0 0 0), .days 1, false⟩ 9) =
      [some (.ok (.moment (at_ 2017 1 2 0 0 0))), some (.ok (.moment (at_ 2017 1 9 0 0 0))), none] ∧
    items (timesNext (std .debug) (filterNext (Iter.next (std .debug)) Day.monday.matches 9)) 3
      (timesNew ⟨.moment (at_ 2017 1 1 0 0 0), .days 1, false⟩ 9) =
      [some (.ok (.moment (at_ 2017 1 2 0 0 0))), some (.ok (.moment (at_ 2017 1 9 0 0 0))), some (.ok (.moment (at_ 2017 1 16 0 0 0)))] := by
  decide +kernel

/-- **C101 (every, without).** `every(a).without(b)` and `without(b).every(a)` yield the items that pass the first test and not the second, in order.
(What the first `q` calls return, as long as there are so many such items, errors and ends included, among the first `N`.) -/
theorem C101_every_without (nx : σ → σ × Item) (A B : TT → Bool) (s : σ) (N q fuel : Nat) (hf : N ≤ fuel)
    (hq : q ≤ ((items nx N s).filterMap (sieve (both A (fun t => !B t)))).length) :
    items (withoutNext (filterNext nx (filterMatches A) fuel) (filterMatches B) fuel) q s =
      ((items nx N s).filterMap (sieve (both A (fun t => !B t)))).take q ∧
    items (filterNext (withoutNext nx (filterMatches B) fuel) (filterMatches A) fuel) q s =
      ((items nx N s).filterMap (sieve (both A (fun t => !B t)))).take q := by
  have hneg : negated (filterMatches B) = filterMatches (fun t => !B t) := rfl
  have hw : ∀ nx : σ → σ × Item, withoutNext nx (filterMatches B) fuel = filterNext nx (filterMatches (fun t => !B t)) fuel := by
    intro nx
    funext s
    rw [without_eq_filter, hneg]
  rw [hw, hw]
  exact C70_every_every nx A (fun t => !B t) s N q fuel hf hq

/-- The days in January that are no Mondays, from 31 December 2016. -/
example : (items (Iter.next (std .debug)) 4 ⟨.moment (at_ 2016 12 31 0 0 0), .days 1, false⟩).filterMap
      (sieve (both Month.january.filter (fun t => !Day.monday.filter t))) =
    [some (.ok (.moment (at_ 2017 1 1 0 0 0))), some (.ok (.moment (at_ 2017 1 3 0 0 0)))] := by decide +kernel

end Props
