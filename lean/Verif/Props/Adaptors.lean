import Verif.Lemmas.Adaptors
import Verif.Lemmas.Order
import Verif.Props.IterOps
import Verif.Model.ParserIterator

/-!
# C40–C45: times, until, every, without, and parsed iterators
-/

namespace Props
open Kairos Spec
variable {σ : Type}

/-! ## C40 -/

/-- **C40 (partial).** For a non-negative count: the item at each position below `n` is that of the underlying
iterator, and from position `n` on there is nothing, for ever; the underlying iterator is called
exactly as often as there are items. Missing: negative counts, see `C40_refuted`. -/
theorem C40_times_partial (c : Cfg) (nx : σ → σ × Item) (s : σ) (n : Int) (hn : 0 ≤ n) (hmax : n ≤ 9223372036854775807)
    (k : Nat) :
    nth (timesNext c nx) k (timesNew s n) = (if (k : Int) < n then nth nx k s else none) ∧
    (after (timesNext c nx) k (timesNew s n)).inner = after nx (if (k : Int) < n then k else n.toNat) s := by
  by_cases hk : (k : Int) < n
  · rw [if_pos hk, if_pos hk, nth_eq, times_run hmax s k (by omega)]
    refine ⟨?_, rfl⟩
    have hne : ¬ n = (k : Int) := by omega
    have hadd : (c.add (k : Int) 1 : Out Int) = .ok (k + 1) := by
      unfold Cfg.add Cfg.chk; exact if_pos (by unfold InI64; omega)
    simp only [timesNext, hne, if_false, hadd]
    rw [nth_eq]
  · rw [if_neg hk, if_neg hk, nth_eq, times_ended hn hmax s k (by omega)]
    exact ⟨by simp [timesNext], rfl⟩

example (k : Nat) := C40_times_partial (std .debug) (Iter.next (std .debug)) ⟨.moment (at_ 2017 1 31 0 0 0), .days 1, false⟩ 3
  (by decide) (by decide) k

/-- **C40 refuted** for every negative count: instead of no item at all, the underlying iterator is passed on
for 2^63 - 1 items. -/
theorem C40_refuted (c : Cfg) (nx : σ → σ × Item) (s : σ) (n : Int) (hn : n < 0) (k : Nat) (hk : k < 9223372036854775807) :
    nth (timesNext c nx) k (timesNew s n) = nth nx k s := by
  rw [nth_eq, times_neg hn s k (by omega)]
  have hne : ¬ n = (k : Int) := by omega
  have hadd : (c.add (k : Int) 1 : Out Int) = .ok (k + 1) := by
    unfold Cfg.add Cfg.chk; exact if_pos (by unfold InI64; omega)
  simp only [timesNext, hne, if_false, hadd]
  rw [nth_eq]

example : nth (timesNext (std .debug) (Iter.next (std .debug))) 2
    (timesNew ⟨.moment (at_ 2017 1 31 0 0 0), .days 1, false⟩ 3) = some (.ok (.moment (at_ 2017 2 2 0 0 0))) ∧
  nth (timesNext (std .debug) (Iter.next (std .debug))) 3
    (timesNew ⟨.moment (at_ 2017 1 31 0 0 0), .days 1, false⟩ 3) = none := by decide +kernel

example : nth (timesNext (std .debug) (Iter.next (std .debug))) 5
    (timesNew ⟨.moment (at_ 2017 1 31 0 0 0), .days 1, false⟩ (-1)) = some (.ok (.moment (at_ 2017 2 5 0 0 0))) := by
  decide +kernel

/-! ## C41 -/

/-- **C41.** Position by position: a moment before the end passes unchanged, at a moment not before it there is no item;
errors and the end of the underlying iterator are passed on; the underlying iterator is called once per call. -/
theorem C41_until (c : Cfg) (nx : σ → σ × Item) (ending : Moment) (s : σ) (k : Nat) :
    (∀ m, nth nx k s = some (.ok (.moment m)) → m.Valid c → ending.Valid c →
      nth (untilNext c nx ending) k s =
        if m.instant < ending.instant ∨ (m.instant = ending.instant ∧ m.nano < ending.nano)
        then some (.ok (.moment m)) else none) ∧
    (∀ e, nth nx k s = some (.err e) → nth (untilNext c nx ending) k s = some (.err e)) ∧
    (nth nx k s = none → nth (untilNext c nx ending) k s = none) ∧
    after (untilNext c nx ending) k s = after nx k s := by
  have hu := until_after (c := c) (nx := nx) (e := ending) k s
  refine ⟨?_, ?_, ?_, hu⟩
  · intro m h hm he
    rw [nth_eq] at h
    rw [nth_eq, hu]
    revert h
    unfold untilNext
    generalize nx (after nx k s) = p
    obtain ⟨s', r⟩ := p
    intro h
    simp only at h
    subst h
    have hc : calculate c (.moment m) = .ok (.moment m) := calculate_leaf c (t := .moment m) rfl
    simp only [hc]
    have := Moment.cmp_lt_instant hm he
    simp only [TT.getMoment, Moment.lt, beq_iff_eq, this]
    split <;> rfl
  · intro e h
    rw [nth_eq] at h
    rw [nth_eq, hu]
    revert h
    unfold untilNext
    generalize nx (after nx k s) = p
    obtain ⟨s', r⟩ := p
    intro h
    simp only at h
    subst h
    rfl
  · intro h
    rw [nth_eq] at h
    rw [nth_eq, hu]
    revert h
    unfold untilNext
    generalize nx (after nx k s) = p
    obtain ⟨s', r⟩ := p
    intro h
    simp only at h
    subst h
    rfl

example := (C41_until (std .debug) (Iter.next (std .debug)) (at_ 2017 1 1 5 0 0) ⟨.moment (at_ 2017 1 1 0 0 0), .hours 1, false⟩ 4).1
  (at_ 2017 1 1 4 0 0) (by decide +kernel) (by decide) (by decide)

/-- **C41.** Items that are not moments themselves, as iterators other than the crate's own may yield: an expression is calculated; if the
result is a moment, it is treated as that moment, if it is an amount, the item is an error that names its unit, and if it
cannot be calculated, the error is the item. -/
theorem C41_other_items (c : Cfg) (nx : σ → σ × Item) (ending : Moment) (s : σ) (k : Nat) (t : TT)
    (h : nth nx k s = some (.ok t)) :
    (∀ m, calculate c t = .ok (.moment m) → m.Valid c → ending.Valid c →
      nth (untilNext c nx ending) k s =
        if m.instant < ending.instant ∨ (m.instant = ending.instant ∧ m.nano < ending.nano)
        then some (.ok (.moment m)) else none) ∧
    (∀ u n, calculate c t = .ok (amt u n) →
      nth (untilNext c nx ending) k s = some (.err (.argumentErrorNotAMoment (match u with
        | .second => "Seconds" | .minute => "Minutes" | .hour => "Hours" | .day => "Days" | .month => "Months" | .year => "Years")))) ∧
    (∀ e, calculate c t = .err e → nth (untilNext c nx ending) k s = some (.err e)) := by
  have hu := until_after (c := c) (nx := nx) (e := ending) k s
  rw [nth_eq] at h
  rw [nth_eq, hu]
  revert h
  unfold untilNext
  generalize nx (after nx k s) = p
  obtain ⟨s', r⟩ := p
  intro h
  simp only at h
  subst h
  refine ⟨fun m hc hm he => ?_, fun u n hc => ?_, fun e hc => ?_⟩ <;> simp only [hc]
  · have := Moment.cmp_lt_instant hm he
    simp only [TT.getMoment, Moment.lt, beq_iff_eq, this]
    split <;> rfl
  · cases u <;> rfl

/-- An iterator that counts up in days, and one that yields sums. -/
example :
    nth (untilNext (std .debug) (fun n : Int => (n + 1, some (.ok (.days n)))) (at_ 2017 1 1 0 0 0)) 3 0 =
      some (.err (.argumentErrorNotAMoment "Days")) ∧
    nth (untilNext (std .debug) (fun n : Int => (n + 1, some (.ok (.moment (at_ 2016 12 31 0 0 0) + .hours n)))) (at_ 2017 1 1 0 0 0)) 3 0 =
      some (.ok (.moment (at_ 2016 12 31 3 0 0))) := by
  decide +kernel

/-- **C41.** Whatever the underlying iterator yields, every value that `until` yields is a moment before the end. -/
theorem C41_only_before (c : Cfg) (nx : σ → σ × Item) (ending : Moment) (s : σ) (k : Nat) (t : TT)
    (h : nth (untilNext c nx ending) k s = some (.ok t)) : ∃ m, t = .moment m ∧ m.cmp ending = .lt := by
  rw [nth_eq] at h
  generalize after (untilNext c nx ending) k s = st at h
  unfold untilNext at h
  split at h
  · cases h
  · split at h
    · split at h
      · rename_i m hm
        split at h
        · rename_i hlt
          cases h
          refine ⟨m, ?_, by simpa [Moment.lt] using hlt⟩
          cases t <;> simp [TT.getMoment] at hm
          rw [hm]
        · cases h
      · cases h
    · rename_i r hr
      simp only [Option.some.injEq] at h
      exact absurd h (hr t)
  · rename_i r hne _
    simp only [Option.some.injEq] at h
    exact absurd h (by rintro rfl; exact hne t rfl)

example := C41_only_before (std .debug) (Iter.next (std .debug)) (at_ 2017 1 1 5 0 0) ⟨.moment (at_ 2017 1 1 0 0 0), .hours 1, false⟩ 4
  (.moment (at_ 2017 1 1 4 0 0)) (by decide +kernel)

/-- **C41.** On an iterator with a positive increment, `until` stays ended once it has ended (only an OutOfBounds error
of the underlying iterator can follow). -/
theorem C41_stays_ended (c : Cfg) (hc : Sane c) (m : Moment) (hm : m.Valid c) (u : TUnit) (n : Int)
    (hn : 0 < n) (hmax : n * u.secs ≤ 133500000000000000) (it : Iter) (hit : Iter.build m (amt u n) = .ok it)
    (ending : Moment) (he : ending.Valid c) (i j : Nat) (hij : i < j)
    (h : nth (untilNext c (Iter.next c) ending) i it = none) :
    nth (untilNext c (Iter.next c) ending) j it = none ∨
    ∃ Y M D H MI S, nth (untilNext c (Iter.next c) ending) j it = some (.err (.outOfBounds Y M D H MI S)) := by
  have hord := C36_strictly_forward_partial c hc m hm u n hn hmax it hit
  rw [(C33_build m (amt u n)).1 ⟨u, n, rfl⟩] at hit
  cases hit
  rcases forward_run c hc m hm u n hn hmax j with ⟨r, hr, -, -, hj⟩ | ⟨Y, M, D, H, MI, S, -, hj⟩
  · left
    rw [(C41_until c _ ending _ j).1 r hj hr he]
    rcases forward_run c hc m hm u n hn hmax i with ⟨q, hq, -, -, hi⟩ | ⟨Y, M, D, H, MI, S, hl, hi⟩
    · rw [(C41_until c _ ending _ i).1 q hi hq he] at h
      split at h
      · cases h
      · rename_i hnot
        obtain ⟨q', r', h1, h2, h3⟩ := hord.2 i j _ _ hij hi hj
        cases h1; cases h2
        rw [if_neg (by omega)]
    · rw [(C41_until c _ ending _ i).2.1 _ hi] at h; cases h
  · exact .inr ⟨Y, M, D, H, MI, S, (C41_until c _ ending _ j).2.1 _ hj⟩

example := C41_stays_ended (std .debug) (sane_std _) (at_ 2017 1 1 0 0 0) (by decide) .hour 1 (by decide) (by decide)
  ⟨.moment (at_ 2017 1 1 0 0 0), .hours 1, false⟩ rfl (at_ 2017 1 1 5 0 0) (by decide) 5 1000 (by decide) (by decide +kernel)

/-- With a negative increment `until` can come back to life after returning `None`. -/
theorem C41_not_fused :
    nth (untilNext (std .debug) (Iter.next (std .debug)) (at_ 2017 1 1 0 0 0)) 0
      ⟨.moment (at_ 2017 6 1 0 0 0), .years (-1), false⟩ = none ∧
    nth (untilNext (std .debug) (Iter.next (std .debug)) (at_ 2017 1 1 0 0 0)) 1
      ⟨.moment (at_ 2017 6 1 0 0 0), .years (-1), false⟩ = some (.ok (.moment (at_ 2016 6 1 0 0 0))) := by
  decide +kernel

/-! ## C42 -/

/-- An iterator whose increment changes nothing yields its base for ever. -/
theorem stuck {c : Cfg} {m : Moment} {inc : TT} (h : calculate c (.moment m + inc) = .ok (.moment m)) (k : Nat) :
    nth (Iter.next c) k ⟨.moment m, inc, false⟩ = some (.ok (.moment m)) := by
  have : ∀ k, after (Iter.next c) (k + 1) ⟨.moment m, inc, false⟩ = live m inc := by
    intro k
    induction k with
    | zero => rfl
    | succ k ih => rw [after_succ', ih, next_live_ok h]
  rw [nth_eq]
  cases k with
  | zero => rfl
  | succ k => rw [this k, next_live_ok h]

/-- **C42 (partial).** With a positive increment of up to 4.29 billion years, from some position on `until(end)` returns only `None` or an OutOfBounds
error; at most one item per second between the start and the end. Missing: larger increments, see `C42_refuted`. -/
theorem C42_until_ends_partial (c : Cfg) (hc : Sane c) (m : Moment) (hm : m.Valid c) (u : TUnit) (n : Int)
    (hn : 0 < n) (hmax : n * u.secs ≤ 133500000000000000) (it : Iter) (hit : Iter.build m (amt u n) = .ok it)
    (ending : Moment) (he : ending.Valid c) (k : Nat) (hk : ending.instant - m.instant < k) :
    nth (untilNext c (Iter.next c) ending) k it = none ∨
    ∃ Y M D H MI S, nth (untilNext c (Iter.next c) ending) k it = some (.err (.outOfBounds Y M D H MI S)) := by
  rw [(C33_build m (amt u n)).1 ⟨u, n, rfl⟩] at hit
  cases hit
  rcases forward_run c hc m hm u n hn hmax k with ⟨r, hr, hi, -, hj⟩ | ⟨Y, M, D, H, MI, S, -, hj⟩
  · left
    rw [(C41_until c _ ending _ k).1 r hj hr he, if_neg (by omega)]
  · exact .inr ⟨Y, M, D, H, MI, S, (C41_until c _ ending _ k).2.1 _ hj⟩

example := C42_until_ends_partial (std .debug) (sane_std _) (at_ 2017 1 1 0 0 0) (by decide) .hour 1 (by decide) (by decide)
  ⟨.moment (at_ 2017 1 1 0 0 0), .hours 1, false⟩ rfl (at_ 2017 1 1 5 0 0) (by decide) 18001 (by decide +kernel)

/-- **C42 refuted** for huge increments: with 2^32 years there is an item at every position. -/
theorem C42_refuted (p : Profile) (k : Nat) :
    nth (untilNext (std p) (Iter.next (std p)) (at_ 2018 1 1 0 0 0)) k
      ⟨.moment (at_ 2017 6 15 12 0 0), .years 4294967296, false⟩ = some (.ok (.moment (at_ 2017 6 15 12 0 0))) := by
  have h : nth (Iter.next (std p)) k ⟨.moment (at_ 2017 6 15 12 0 0), .years 4294967296, false⟩ =
      some (.ok (.moment (at_ 2017 6 15 12 0 0))) := stuck (by cases p <;> decide +kernel) k
  rw [(C41_until (std p) _ _ _ k).1 _ h (by cases p <;> decide +kernel) (by cases p <;> decide +kernel)]
  rfl

example : (at_ 2017 1 1 0 0 0).Valid (std .debug) ∧ (at_ 2017 1 1 5 0 0).Valid (std .debug) ∧
    nth (untilNext (std .debug) (Iter.next (std .debug)) (at_ 2017 1 1 5 0 0)) 4
      ⟨.moment (at_ 2017 1 1 0 0 0), .hours 1, false⟩ = some (.ok (.moment (at_ 2017 1 1 4 0 0))) ∧
    nth (untilNext (std .debug) (Iter.next (std .debug)) (at_ 2017 1 1 5 0 0)) 5
      ⟨.moment (at_ 2017 1 1 0 0 0), .hours 1, false⟩ = none := by decide +kernel

/-! ## C43 -/

/-- **C43.** What the first `q` calls on `every(matcher)` return is the first `q` of the underlying items
that match (errors and the end included, in order), if there are so many among the first `N`; the loop of one call
makes at most `N` rounds. -/
theorem C43_every (nx : σ → σ × Item) (matcher : TT → Out Bool) (s : σ) (N q fuel : Nat) (hf : N ≤ fuel)
    (hq : q ≤ ((items nx N s).filterMap (sieve matcher)).length) :
    items (filterNext nx matcher fuel) q s = ((items nx N s).filterMap (sieve matcher)).take q :=
  filter_items hf s q hq

example : items (filterNext (Iter.next (std .debug)) Day.sunday.matches 20) 3 ⟨.moment (at_ 2017 1 1 0 0 0), .days 1, false⟩ =
    [some (.ok (.moment (at_ 2017 1 1 0 0 0))), some (.ok (.moment (at_ 2017 1 8 0 0 0))), some (.ok (.moment (at_ 2017 1 15 0 0 0)))] := by
  rw [C43_every _ _ _ 20 3 20 (by decide) (by decide +kernel)]
  decide +kernel

/-- **C43.** The same for `without(matcher)`, with the items that do not match. -/
theorem C43_without (nx : σ → σ × Item) (matcher : TT → Out Bool) (s : σ) (N q fuel : Nat) (hf : N ≤ fuel)
    (hq : q ≤ ((items nx N s).filterMap (sieve (negated matcher))).length) :
    items (withoutNext nx matcher fuel) q s = ((items nx N s).filterMap (sieve (negated matcher))).take q := by
  have : withoutNext nx matcher fuel = filterNext nx (negated matcher) fuel := by
    funext s; exact without_eq_filter nx matcher fuel s
  rw [this]
  exact filter_items hf s q hq

example : items (withoutNext (Iter.next (std .debug)) Day.sunday.matches 20) 2 ⟨.moment (at_ 2017 1 1 0 0 0), .days 1, false⟩ =
    [some (.ok (.moment (at_ 2017 1 2 0 0 0))), some (.ok (.moment (at_ 2017 1 3 0 0 0)))] := by
  rw [C43_without _ _ _ 20 2 20 (by decide) (by decide +kernel)]
  decide +kernel

/-- **C43.** If no underlying item ever matches, and there is no error and no end, the call of `next` on
`every(matcher)` does not return. -/
theorem C43_no_match_hangs (nx : σ → σ × Item) (matcher : TT → Out Bool) (s : σ)
    (h : ∀ k, ∃ t, nth nx k s = some (.ok t) ∧ matcher t = .ok false) (fuel : Nat) :
    (filterNext nx matcher fuel s).2 = some .oof := by
  rw [filter_miss]
  intro i _
  obtain ⟨t, h1, h2⟩ := h i
  rw [h1]
  simp only [sieve, h2]

/-- What `every` yields matches. -/
theorem every_yields {nx : σ → σ × Item} {M : TT → Out Bool} {fuel : Nat} {s : σ} {t : TT}
    (h : (filterNext nx M fuel s).2 = some (.ok t)) : M t = .ok true := by
  rcases first_hit nx M fuel s with h0 | ⟨j, r, hj, h0, h1, -⟩
  · rw [filter_miss h0] at h; cases h
  · rw [filter_hit j h0 h1 hj] at h
    simp only at h
    subst h
    revert h1
    generalize nth nx j s = it
    intro h1
    unfold sieve at h1
    split at h1
    · rename_i t'
      cases hM : M t' with
      | ok b =>
        rw [hM] at h1
        cases b
        · simp at h1
        · simp at h1; rw [← h1]; exact hM
      | err e => rw [hM] at h1; simp at h1
      | panic => rw [hM] at h1; simp at h1
      | oof => rw [hM] at h1; simp at h1
    · rename_i hne
      simp only [Option.some.injEq] at h1
      exact absurd h1 (hne t)

/-- What `without` yields does not match. -/
theorem without_yields {nx : σ → σ × Item} {M : TT → Out Bool} {fuel : Nat} {s : σ} {t : TT}
    (h : (withoutNext nx M fuel s).2 = some (.ok t)) : M t = .ok false := by
  rw [without_eq_filter] at h
  have := every_yields h
  unfold negated at this
  cases hM : M t with
  | ok b => rw [hM] at this; cases b <;> simp at this; rfl
  | err e => rw [hM] at this; cases this
  | panic => rw [hM] at this; cases this
  | oof => rw [hM] at this; cases this

/-- **C43.** After any number of calls, `every(m)` yields only matching values, `without(m)` only values that do not match,
and `every(m).without(m)` and `without(m).every(m)` never yield a value. -/
theorem C43_yields (nx : σ → σ × Item) (matcher : TT → Out Bool) (s : σ) (fuel fuel' k : Nat) (t : TT) :
    (nth (filterNext nx matcher fuel) k s = some (.ok t) → matcher t = .ok true) ∧
    (nth (withoutNext nx matcher fuel) k s = some (.ok t) → matcher t = .ok false) ∧
    nth (withoutNext (filterNext nx matcher fuel) matcher fuel') k s ≠ some (.ok t) ∧
    nth (filterNext (withoutNext nx matcher fuel) matcher fuel') k s ≠ some (.ok t) := by
  -- a filter only yields what the iterator below yields
  have inner : ∀ {τ : Type} (nx : τ → τ × Item) (M : TT → Out Bool) (fuel : Nat) (s : τ) (t : TT),
      (filterNext nx M fuel s).2 = some (.ok t) → ∃ j, nth nx j s = some (.ok t) := by
    intro τ nx M fuel s t h
    rcases first_hit nx M fuel s with h0 | ⟨j, r, hj, h0, h1, -⟩
    · rw [filter_miss h0] at h; cases h
    · rw [filter_hit j h0 h1 hj] at h
      simp only at h
      subst h
      refine ⟨j, ?_⟩
      revert h1
      generalize nth nx j s = it
      intro h1
      unfold sieve at h1
      split at h1
      · rename_i t'
        cases hM : M t' with
        | ok b => rw [hM] at h1; cases b <;> simp at h1; rw [h1]
        | err e => rw [hM] at h1; simp at h1
        | panic => rw [hM] at h1; simp at h1
        | oof => rw [hM] at h1; simp at h1
      · simpa using h1
  refine ⟨fun h => ?_, fun h => ?_, fun h => ?_, fun h => ?_⟩
  · rw [nth_eq] at h; exact every_yields h
  · rw [nth_eq] at h; exact without_yields h
  · rw [nth_eq] at h
    have h1 := without_yields h
    rw [without_eq_filter] at h
    obtain ⟨j, h2⟩ := inner _ _ _ _ _ h
    rw [nth_eq] at h2
    rw [every_yields h2] at h1
    cases h1
  · rw [nth_eq] at h
    have h1 := every_yields h
    obtain ⟨j, h2⟩ := inner _ _ _ _ _ h
    rw [nth_eq] at h2
    rw [without_yields h2] at h1
    cases h1

/-- Three of the first 20 days of 2017 are Sundays. -/
example : (items (Iter.next (std .debug)) 20 ⟨.moment (at_ 2017 1 1 0 0 0), .days 1, false⟩).filterMap
      (sieve Day.sunday.matches) =
    [some (.ok (.moment (at_ 2017 1 1 0 0 0))), some (.ok (.moment (at_ 2017 1 8 0 0 0))),
     some (.ok (.moment (at_ 2017 1 15 0 0 0)))] := by decide +kernel

/-- With an increment of zero the loop can hang: 1 January 2017 was not a Monday. -/
example (fuel : Nat) : (filterNext (Iter.next (std .debug)) Day.monday.matches fuel
    ⟨.moment (at_ 2017 1 1 0 0 0), .days 0, false⟩).2 = some .oof :=
  C43_no_match_hangs _ _ _ (fun k => ⟨.moment (at_ 2017 1 1 0 0 0), stuck (by decide +kernel) k, by decide⟩) _

/-! ## C44 -/

/-- **C44 (partial).** With a positive increment of up to 4.29 billion years, and a matcher that returns: there is a bound on the number of rounds
within which every call of `next` on `every(matcher)` and `without(matcher)` returns, and it returns a value
or an error. Missing: larger increments, see `C44_refuted`. -/
theorem C44_filters_answer_partial (c : Cfg) (hc : Sane c) (m : Moment) (hm : m.Valid c) (u : TUnit) (n : Int)
    (hn : 0 < n) (hmax : n * u.secs ≤ 133500000000000000) (it : Iter) (hit : Iter.build m (amt u n) = .ok it)
    (matcher : TT → Out Bool) (hM : ∀ t, (∃ b, matcher t = .ok b) ∨ (∃ e, matcher t = .err e)) :
    ∃ B, ∀ fuel, B ≤ fuel → ∀ q,
      ((∃ t, nth (filterNext (Iter.next c) matcher fuel) q it = some (.ok t)) ∨
        (∃ e, nth (filterNext (Iter.next c) matcher fuel) q it = some (.err e))) ∧
      ((∃ t, nth (withoutNext (Iter.next c) matcher fuel) q it = some (.ok t)) ∨
        (∃ e, nth (withoutNext (Iter.next c) matcher fuel) q it = some (.err e))) := by
  rw [(C33_build m (amt u n)).1 ⟨u, n, rfl⟩] at hit
  cases hit
  have fwd := fun k => forward_run c hc m hm u n hn hmax k
  generalize (⟨.moment m, amt u n, false⟩ : Iter) = it at fwd
  obtain ⟨K, hK⟩ : ∃ K : Nat, Cal.instant (c.maxYear + 1) 1 1 0 0 0 - m.instant ≤ K :=
    ⟨(Cal.instant (c.maxYear + 1) 1 1 0 0 0 - m.instant).toNat, by omega⟩
  -- from position K on there are only errors
  have err : ∀ k, K ≤ k → ∃ e, nth (Iter.next c) k it = some (.err e) := by
    intro k hk
    rcases fwd k with ⟨r, hr, hi, -, -⟩ | ⟨Y, M, D, H, MI, S, -, h⟩
    · have := moment_lt_end hr; omega
    · exact ⟨_, h⟩
  -- every position has a moment or an error
  have all : ∀ k, (∃ r, nth (Iter.next c) k it = some (.ok (.moment r))) ∨ ∃ e, nth (Iter.next c) k it = some (.err e) := by
    intro k
    rcases fwd k with ⟨r, -, -, -, h⟩ | ⟨Y, M, D, H, MI, S, -, h⟩
    · exact .inl ⟨r, h⟩
    · exact .inr ⟨_, h⟩
  have main : ∀ (M : TT → Out Bool), (∀ t, (∃ b, M t = .ok b) ∨ (∃ e, M t = .err e)) → ∀ fuel, K + 1 ≤ fuel → ∀ q,
      (∃ t, nth (filterNext (Iter.next c) M fuel) q it = some (.ok t)) ∨
      (∃ e, nth (filterNext (Iter.next c) M fuel) q it = some (.err e)) := by
    intro M hM fuel hf q
    obtain ⟨k, hk⟩ := filter_after (Iter.next c) M fuel q it
    rw [nth_eq, hk]
    rcases first_hit (Iter.next c) M (K + 1) (after (Iter.next c) k it) with h0 | ⟨j, r, hj, h0, h1, -⟩
    · have h := h0 K (by omega)
      rw [← nth_add] at h
      obtain ⟨e, he⟩ := err (k + K) (by omega)
      rw [he] at h
      cases h
    · rw [filter_hit j h0 h1 (by omega)]
      rw [← nth_add] at h1
      simp only
      rcases all (k + j) with ⟨r', h⟩ | ⟨e, h⟩
      · rw [h] at h1
        rcases hM (.moment r') with ⟨b, hb⟩ | ⟨e, hb⟩
        · simp only [sieve, hb] at h1
          cases b
          · cases h1
          · cases h1; exact .inl ⟨_, rfl⟩
        · simp only [sieve, hb] at h1
          cases h1
          exact .inr ⟨_, rfl⟩
      · rw [h] at h1; cases h1; exact .inr ⟨_, rfl⟩
  refine ⟨K + 1, fun fuel hf q => ⟨main matcher hM fuel hf q, ?_⟩⟩
  have hw : withoutNext (Iter.next c) matcher fuel = filterNext (Iter.next c) (negated matcher) fuel := by
    funext s; exact without_eq_filter _ matcher fuel s
  rw [hw]
  refine main (negated matcher) (fun t => ?_) fuel hf q
  rcases hM t with ⟨b, hb⟩ | ⟨e, hb⟩
  · exact .inl ⟨!b, by simp only [negated, hb]⟩
  · exact .inr ⟨e, by simp only [negated, hb]⟩

/-- The library's own matchers all return. -/
example (d : Day) (mo : Month) (t : TT) : ((∃ b, d.matches t = .ok b) ∨ (∃ e, d.matches t = .err e)) ∧
    ((∃ b, mo.matches t = .ok b) ∨ (∃ e, mo.matches t = .err e)) ∧
    ((∃ b, filterMatches d.filter t = .ok b) ∨ (∃ e, filterMatches d.filter t = .err e)) := by
  cases t <;> refine ⟨?_, ?_, .inl ⟨_, rfl⟩⟩ <;> first | exact .inl ⟨_, rfl⟩ | exact .inr ⟨_, rfl⟩

/-- **C44 refuted** for huge increments: with 2^32 years, `every(Monday)` from a Thursday does not return. -/
theorem C44_refuted (p : Profile) (fuel : Nat) :
    (filterNext (Iter.next (std p)) Day.monday.matches fuel
      ⟨.moment (at_ 2017 6 15 12 0 0), .years 4294967296, false⟩).2 = some .oof :=
  C43_no_match_hangs _ _ _
    (fun k => ⟨.moment (at_ 2017 6 15 12 0 0), stuck (by cases p <;> decide +kernel) k, by decide⟩) _

/-! ## C45 -/

/-- **C45.** The items of a parsed iterator are those of the iterator or adaptor in it. -/
theorem C45_user_iterator (c : Cfg) (it : Iter) (n : Int) (ending : Moment) (k : Nat) :
    nth (Parser.UserIterator.next c) k (.iterator it) = nth (Iter.next c) k it ∧
    nth (Parser.UserIterator.next c) k (.timesIter (timesNew it n)) =
      nth (timesNext c (Iter.next c)) k (timesNew it n) ∧
    nth (Parser.UserIterator.next c) k (.untilIterator it ending) = nth (untilNext c (Iter.next c) ending) k it := by
  refine ⟨?_, ?_, ?_⟩
  · induction k generalizing it with
    | zero => rfl
    | succ k ih => exact ih _
  · generalize timesNew it n = s
    induction k generalizing s with
    | zero => rfl
    | succ k ih => exact ih _
  · induction k generalizing it with
    | zero => rfl
    | succ k ih => exact ih _

example : nth (Parser.UserIterator.next (std .debug)) 1
    (.untilIterator ⟨.moment (at_ 2017 1 1 0 0 0), .hours 1, false⟩ (at_ 2017 1 1 2 0 0)) =
      some (.ok (.moment (at_ 2017 1 1 1 0 0))) := by decide +kernel

end Props
