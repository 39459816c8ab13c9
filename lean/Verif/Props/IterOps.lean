import Verif.Props.Iterators

/-!
# C36–C39: order of the items, errors, skip and rollback
-/

namespace Props
open Kairos Spec

/-! ## C36 -/

/-- Adding a positive amount of up to 4.29 billion years: a strictly later valid moment, or OutOfBounds. -/
theorem forward_step (c : Cfg) (hc : Sane c) (m : Moment) (hm : m.Valid c) (u : TUnit) (n : Int)
    (hn : 0 < n) (hmax : n * u.secs ≤ 133500000000000000) :
    (∃ r, calculate c (.moment m + amt u n) = .ok (.moment r) ∧ r.Valid c ∧ m.instant < r.instant) ∨
    (∃ Y M D H MI S, calculate c (.moment m + amt u n) = .err (.outOfBounds Y M D H MI S)) := by
  have hc' := hc
  unfold Sane at hc'
  obtain ⟨a1, a2, ⟨a3, a4, a5, a6⟩, t, a7⟩ := id hm
  have hp : ∃ p, calculate c (.moment m + amt u n) = Eval.buildMoment c p := by
    by_cases h1 : u = .year
    · subst h1
      simp only [TUnit.secs] at hmax
      obtain ⟨Y, k, y1, y2, e⟩ := year_mod_exists (m.year + n)
      have h := addYears_all c hm n Y y1 y2 (asI32_of y1 y2 e)
      rw [if_neg (by unfold InI64; omega)] at h
      exact ⟨_, h⟩
    by_cases h2 : u = .month
    · subst h2
      simp only [TUnit.secs] at hmax
      exact ⟨_, addMonths_closed c hc hm n (by omega) (by omega)⟩
    · have hus : u.secs ≤ 86400 := by cases u <;> simp [TUnit.secs] at h1 h2 ⊢
      have hpos : 0 < u.secs := by cases u <;> decide
      have hnn : n ≤ n * u.secs := by
        have := Int.mul_le_mul_of_nonneg_left (a := 1) (b := u.secs) (c := n) (by omega) (by omega); omega
      obtain ⟨y', mo', d', e, -⟩ := add_closed c hc hm u hus n (by omega) (by omega)
      exact ⟨_, e⟩
  obtain ⟨p, hp⟩ := hp
  cases hb : Eval.buildMoment c p with
  | ok v =>
    obtain ⟨r, rfl, -, hr⟩ := buildMoment_ok hb
    rw [hb] at hp
    exact .inl ⟨r, hp, hr.1, C20_forward_partial c hc m r hm u n hn hmax hp⟩
  | err e =>
    rw [hb] at hp
    unfold Eval.buildMoment at hb
    split at hb
    · cases hb
    · cases hb; exact .inr ⟨_, _, _, _, _, _, hp⟩
  | panic => exact absurd hb (by unfold Eval.buildMoment; split <;> simp)
  | oof => exact absurd hb (by unfold Eval.buildMoment; split <;> simp)

/-- Runs of a forward iterator: at every position a valid moment at least as many seconds after the base as there
were steps, and after an item a strictly later one; or an OutOfBounds error for ever. -/
theorem forward_run (c : Cfg) (hc : Sane c) (m : Moment) (hm : m.Valid c) (u : TUnit) (n : Int)
    (hn : 0 < n) (hmax : n * u.secs ≤ 133500000000000000) (k : Nat) :
    (∃ r, r.Valid c ∧ m.instant + k ≤ r.instant ∧
      after (Iter.next c) (k + 1) ⟨.moment m, amt u n, false⟩ = live r (amt u n) ∧
      nth (Iter.next c) k ⟨.moment m, amt u n, false⟩ = some (.ok (.moment r))) ∨
    (∃ Y M D H MI S, Latched c (.outOfBounds Y M D H MI S) (after (Iter.next c) (k + 1) ⟨.moment m, amt u n, false⟩) ∧
      nth (Iter.next c) k ⟨.moment m, amt u n, false⟩ = some (.err (.outOfBounds Y M D H MI S))) := by
  refine (run_shape (c := c) (amt_isAAmount u n)
    (fun k r => r.Valid c ∧ m.instant + k ≤ r.instant)
    (fun _ e => ∃ Y M D H MI S, e = .outOfBounds Y M D H MI S)
    ?_ ?_ m ⟨hm, by simp⟩ k).elim ?_ ?_
  · rintro k r ⟨g1, g2⟩
    rcases forward_step c hc r g1 u n hn hmax with ⟨r', e, v, lt⟩ | ⟨Y, M, D, H, MI, S, e⟩
    · exact .inl ⟨r', e, v, by omega⟩
    · exact .inr ⟨_, e, Y, M, D, H, MI, S, rfl⟩
  · exact fun k e h => h
  · rintro ⟨r, ⟨g1, g2⟩, h1, h2⟩; exact .inl ⟨r, g1, g2, h1, h2⟩
  · rintro ⟨e, ⟨Y, M, D, H, MI, S, rfl⟩, h1, h2⟩; exact .inr ⟨Y, M, D, H, MI, S, h1, h2⟩

/-- **C36 (partial).** With a positive increment of any unit up to 4.29 billion years, every item is a
moment or an OutOfBounds error, and of two moments the one at the later position is strictly later.
Missing: larger increments, see `C36_refuted`. -/
theorem C36_strictly_forward_partial (c : Cfg) (hc : Sane c) (m : Moment) (hm : m.Valid c) (u : TUnit) (n : Int)
    (hn : 0 < n) (hmax : n * u.secs ≤ 133500000000000000) (it : Iter) (hit : Iter.build m (amt u n) = .ok it) :
    (∀ k, (∃ r, nth (Iter.next c) k it = some (.ok (.moment r))) ∨
      ∃ Y M D H MI S, nth (Iter.next c) k it = some (.err (.outOfBounds Y M D H MI S))) ∧
    ∀ i j a b, i < j → nth (Iter.next c) i it = some (.ok a) → nth (Iter.next c) j it = some (.ok b) →
      ∃ r s, a = .moment r ∧ b = .moment s ∧ r.instant < s.instant := by
  rw [(C33_build m (amt u n)).1 ⟨u, n, rfl⟩] at hit
  cases hit
  refine ⟨?_, ?_⟩
  · intro k
    rcases forward_run c hc m hm u n hn hmax k with ⟨r, -, -, -, h⟩ | ⟨Y, M, D, H, MI, S, -, h⟩
    · exact .inl ⟨r, h⟩
    · exact .inr ⟨Y, M, D, H, MI, S, h⟩
  intro i j a b hij hi hj
  rcases forward_run c hc m hm u n hn hmax i with ⟨r, hr, -, hl, h⟩ | ⟨Y, M, D, H, MI, S, -, h⟩
  · rw [hi] at h
    cases h
    -- continue from position i
    obtain ⟨d, rfl⟩ : ∃ d, j = i + 1 + d := ⟨j - (i + 1), by omega⟩
    rw [nth_add, hl] at hj
    have e : nth (Iter.next c) d (live r (amt u n)) = nth (Iter.next c) (d + 1) ⟨.moment r, amt u n, false⟩ := rfl
    rw [e] at hj
    rcases forward_run c hc r hr u n hn hmax (d + 1) with ⟨s, -, hs, -, h⟩ | ⟨Y, M, D, H, MI, S, -, h⟩
    · rw [hj] at h
      cases h
      exact ⟨r, s, rfl, rfl, by omega⟩
    · rw [hj] at h; cases h
  · rw [hi] at h; cases h

example := C36_strictly_forward_partial (std .debug) (sane_std _) (at_ 2017 1 31 0 0 0) (by decide) .month 1 (by decide) (by decide)
  ⟨.moment (at_ 2017 1 31 0 0 0), .months 1, false⟩ rfl

/-- **C36 refuted** for huge increments: with 2^32 years every item is the base, with 2^32 - 1 the items go back in time. -/
theorem C36_refuted (p : Profile) :
    nth (Iter.next (std p)) 3 ⟨.moment (at_ 2017 6 15 12 0 0), .years 4294967296, false⟩ =
      some (.ok (.moment (at_ 2017 6 15 12 0 0))) ∧
    nth (Iter.next (std p)) 3 ⟨.moment (at_ 2017 6 15 12 0 0), .years 4294967295, false⟩ =
      some (.ok (.moment (at_ 2014 6 15 12 0 0))) := by cases p <;> decide +kernel

example : (at_ 2017 1 31 0 0 0).Valid (std .debug) ∧ 40 * TUnit.secs .day ≤ 133500000000000000 ∧
    nth (Iter.next (std .debug)) 10 ⟨.moment (at_ 2017 1 31 0 0 0), .days 40, false⟩ =
      some (.ok (.moment (at_ 2018 3 7 0 0 0))) := by decide +kernel

/-! ## C37 -/

theorem op_latched {c : Cfg} {e : ErrorKind} {it : Iter} (h : Latched c e it) (op : IterOp) :
    Latched c e (op.run c it).1 ∧ (op.run c it).2 = .err e := by
  cases op with
  | next =>
    obtain ⟨h1, h2⟩ := h.next
    unfold IterOp.run
    revert h1 h2
    generalize it.next c = p
    obtain ⟨it', r⟩ := p
    intro h1 h2
    simp only at h1 h2
    subst h2
    exact ⟨h1, rfl⟩
  | skip => exact h.skip
  | rollback => exact h.rollback

/-- **C37 (partial).** On an iterator that has delivered its first item (in any state, after any
history): once a next, skip or rollback has returned an error, every later next, skip or rollback, in any order,
returns that same error. Missing: iterators that have not delivered their first item, see `C37_refuted`. -/
theorem C37_errors_latch_partial (c : Cfg) (it : Iter) (hs : it.hadFirst = true) (hi : ∃ u n, it.increment = amt u n)
    (op : IterOp) (e : ErrorKind) (h : (op.run c it).2 = .err e) (ops : List IterOp) (op' : IterOp) :
    (op'.run c (runOps c (op.run c it).1 ops)).2 = .err e := by
  have ha : it.increment.isAAmount = true := by
    obtain ⟨u, n, e⟩ := hi; rw [e]; exact amt_isAAmount u n
  have hl : Latched c e (op.run c it).1 := by
    have hskip : ∀ e, (it.skip c).2 = .err e → Latched c e (it.skip c).1 := by
      intro e h
      unfold Iter.skip Iter.recalculate at *
      simp only at *
      split at h <;> cases h
      rename_i h'
      exact ⟨hs, ha, .inl ⟨_, _, rfl⟩, h'⟩
    cases op with
    | skip => exact hskip e h
    | rollback =>
      simp only [IterOp.run, Iter.rollback, Iter.recalculate] at *
      split at h <;> cases h
      rename_i h'
      exact ⟨hs, ha, .inr ⟨_, _, rfl⟩, h'⟩
    | next =>
      have hn : it.next c = ((it.skip c).1, some ((it.skip c).2 >>= fun _ => .ok (it.skip c).1.base)) := by
        simp [Iter.next, hs]
      simp only [IterOp.run] at *
      rw [hn] at h ⊢
      cases hr : (it.skip c).2 with
      | ok x => rw [hr] at h; simp at h
      | err e' =>
        rw [hr] at h
        simp at h
        subst h
        exact hskip _ hr
      | panic => rw [hr] at h; simp at h
      | oof => rw [hr] at h; simp at h
  have : ∀ ops it, Latched c e it → Latched c e (runOps c it ops) := by
    intro ops
    induction ops with
    | nil => intro it h; exact h
    | cons o os ih => intro it h; exact ih _ (op_latched h o).1
  exact (op_latched (this ops _ hl) op').2

example (ops : List IterOp) (op' : IterOp) := C37_errors_latch_partial (std .debug) ⟨.moment (at_ 262143 5 1 0 0 0), .years 1, true⟩ rfl ⟨.year, 1, rfl⟩
  .skip (.outOfBounds 262144 5 0 0 0 0) (by decide +kernel) ops op'

/-- **C37 refuted** for an iterator whose first `next` is still to come: if a skip fails, that `next`
returns `Ok`, with an expression that was not evaluated. -/
theorem C37_refuted (c : Cfg) (m : Moment) (u : TUnit) (n : Int) (e : ErrorKind) (it : Iter)
    (hit : Iter.build m (amt u n) = .ok it) (h : (it.skip c).2 = .err e) :
    (Iter.next c (it.skip c).1).2 = some (.ok (.moment m + amt u n)) := by
  rw [(C33_build m (amt u n)).1 ⟨u, n, rfl⟩] at hit
  cases hit
  unfold Iter.skip Iter.recalculate at *
  simp only at *
  split at h <;> cases h
  rfl

theorem C37_refuted_witness :
    (Iter.skip (std .debug) ⟨.moment (at_ 262143 12 31 0 0 0), .days 1, false⟩).2 =
      .err (.outOfBounds 262144 1 0 0 0 0) := by decide +kernel

example := C37_refuted (std .debug) (at_ 262143 12 31 0 0 0) .day 1 _ _ rfl C37_refuted_witness

/-- A started iterator whose skip fails. -/
example : (IterOp.skip.run (std .debug) ⟨.moment (at_ 262143 12 31 0 0 0), .days 1, true⟩).2 =
    .err (.outOfBounds 262144 1 0 0 0 0) := by decide +kernel

/-! ## C38 -/

/-- `n` calls of `skip` that all return `Ok`. -/
def skips (c : Cfg) : Nat → Iter → Option Iter
  | 0, it => some it
  | n + 1, it => match it.skip c with
    | (it', .ok ()) => skips c n it'
    | _ => none

/-- **C38.** On a fresh iterator, `n` successful skips and then `next` return the item that the
`(n+1)`-th `next` would have returned, and leave the iterator in the same state. -/
theorem C38_skip_n (c : Cfg) (m : Moment) (inc : TT) (it it' : Iter) (hit : Iter.build m inc = .ok it) (n : Nat)
    (h : skips c n it = some it') :
    (it'.next c).2 = nth (Iter.next c) n it ∧ (it'.next c).1 = after (Iter.next c) (n + 1) it := by
  have key : ∀ n b it', skips c n ⟨b, inc, false⟩ = some it' → it'.hadFirst = false ∧ it'.increment = inc ∧
      after (Iter.next c) n ⟨b, inc, true⟩ = ⟨it'.base, inc, true⟩ ∧
      (∀ k, n = k + 1 → nth (Iter.next c) k ⟨b, inc, true⟩ = some (.ok it'.base)) := by
    intro n
    induction n with
    | zero => intro b it' h; simp only [skips] at h; cases h; exact ⟨rfl, rfl, rfl, by intro k h; omega⟩
    | succ n ih =>
      intro b it' h
      simp only [skips, Iter.skip, Iter.recalculate] at h
      split at h
      · rename_i it1 hq
        split at hq <;> cases hq
        rename_i res hres
        obtain ⟨h1, h2, h3, h4⟩ := ih _ it' h
        have hnx : Iter.next c ⟨b, inc, true⟩ = (⟨res, inc, true⟩, some (.ok res)) := by
          simp only [Iter.next, Iter.skip, Iter.recalculate, hres]; rfl
        refine ⟨h1, h2, ?_, ?_⟩
        · simp only [after, hnx]; exact h3
        · intro k hk
          cases k with
          | zero =>
            have hn0 : n = 0 := by omega
            subst hn0
            simp only [skips] at h
            cases h
            simp only [nth, hnx]
          | succ k => simp only [nth, hnx]; exact h4 k (by omega)
      · cases h
  unfold Iter.build at hit
  split at hit
  · cases hit
  · cases hit
    obtain ⟨h1, h2, h3, h4⟩ := key n (.moment m) it' h
    obtain ⟨b', i', f'⟩ := it'
    simp only at h1 h2 h3 h4
    subst h1 h2
    constructor
    · cases n with
      | zero => simp only [skips] at h; cases h; rfl
      | succ k => simp only [nth, next_fresh]; exact (h4 k rfl).symm
    · simp only [after, next_fresh]; exact h3.symm

example := C38_skip_n (std .debug) (at_ 2017 1 31 0 0 0) (.days 1) ⟨.moment (at_ 2017 1 31 0 0 0), .days 1, false⟩
  ⟨.moment (at_ 2017 2 3 0 0 0), .days 1, false⟩ rfl 3 (by decide +kernel)

/-- **C38.** On a started iterator, a skip leaves the same state as a `next` (also if it fails), so
that skip then next returns what the second of two nexts returns. -/
theorem C38_skip_started (c : Cfg) (it : Iter) (hs : it.hadFirst = true) :
    (it.skip c).1 = (it.next c).1 ∧ ((it.skip c).1.next c).2 = nth (Iter.next c) 1 it := by
  have hn : (it.next c).1 = (it.skip c).1 := by simp [Iter.next, hs]
  exact ⟨hn.symm, by simp only [nth]; rw [hn]⟩

example : skips (std .debug) 3 ⟨.moment (at_ 2017 1 31 0 0 0), .days 1, false⟩ =
    some ⟨.moment (at_ 2017 2 3 0 0 0), .days 1, false⟩ := by decide +kernel

/-! ## C39 -/

theorem rollback_next {c : Cfg} {r r' : Moment} {inc : TT} (h1 : calculate c (.moment r - inc) = .ok (.moment r'))
    (h2 : calculate c (.moment r' + inc) = .ok (.moment r)) :
    ((live r inc).rollback c).2 = .ok () ∧ (((live r inc).rollback c).1.next c).2 = some (.ok (.moment r)) := by
  have e : (live r inc).rollback c = (live r' inc, .ok ()) := by
    simp only [live, Iter.rollback, Iter.recalculate, h1]
  rw [e]
  exact ⟨rfl, by rw [next_live_ok h2]⟩

theorem rollback_err {c : Cfg} {r : Moment} {inc : TT} {e : ErrorKind} (h : calculate c (.moment r - inc) = .err e) :
    ((live r inc).rollback c).2 = .err e := by
  simp only [live, Iter.rollback, Iter.recalculate, h]

/-- After `next` returned a moment, the iterator is at that moment. -/
theorem state_after_item {c : Cfg} {it it' : Iter} {r : Moment} (h : it.next c = (it', some (.ok (.moment r)))) :
    it' = live r it.increment := by
  unfold Iter.next at h
  split at h
  · obtain ⟨b, i, f⟩ := it
    simp at h
    obtain ⟨h1, h2⟩ := h
    subst h1 h2
    rfl
  · rename_i hf
    simp only [Iter.skip, Iter.recalculate] at h
    have hf' : it.hadFirst = true := by simpa using hf
    split at h
    · simp at h; obtain ⟨h1, h2⟩ := h; rw [← h1, h2, hf']; rfl
    · simp at h
    · simp at h
    · simp at h

/-- **C39 (partial).** After `next` returned the whole-second moment `r`, rollback either returns an
OutOfBounds error, or succeeds and the following `next` returns `r` again: for increments of up to
59 seconds, 59 minutes, 23 hours; for less days than the day of the month; for months (if `r` is on day 1 to
28) and years (if `r` is not on 29 February). Missing: other increments, see `C39_refuted`. -/
theorem C39_rollback_partial (c : Cfg) (hc : Sane c) (it it' : Iter) (r : Moment) (hr : r.Valid c) (hz : r.nano = 0)
    (u : TUnit) (n : Int) (hn : 0 ≤ n) (hinc : it.increment = amt u n)
    (hu : (u = .second ∧ n < 60) ∨ (u = .minute ∧ n < 60) ∨ (u = .hour ∧ n < 24) ∨ (u = .day ∧ n < r.day) ∨
      (u = .month ∧ n ≤ 4000000000 ∧ r.day ≤ 28) ∨ (u = .year ∧ n ≤ 2000000000 ∧ ¬ (r.month = 2 ∧ r.day = 29)))
    (h : it.next c = (it', some (.ok (.moment r)))) :
    (∃ Y M D H MI S, (it'.rollback c).2 = .err (.outOfBounds Y M D H MI S)) ∨
    ((it'.rollback c).2 = .ok () ∧ ((it'.rollback c).1.next c).2 = some (.ok (.moment r))) := by
  have hs := state_after_item h
  rw [hinc] at hs
  subst hs
  have hc' := hc
  unfold Sane at hc'
  obtain ⟨a1, a2, ⟨a3, a4, a5, a6⟩, t, a7⟩ := id hr
  have ml := Cal.monthLen_bounds (y := r.year) a3 a4
  have hself : ∀ q : Moment, q.year = r.year → q.month = r.month → q.day = r.day → q.hour = r.hour →
      q.minute = r.minute → q.second = r.second → q.nano = 0 → q = r := by
    intro q h1 h2 h3 h4 h5 h6 h7
    obtain ⟨q1, q2, q3, q4, q5, q6, q7⟩ := q
    obtain ⟨r1, r2, r3, r4, r5, r6, r7⟩ := r
    simp only at *
    simp [*]
  -- time units
  have time : ∀ u, (u = .second ∧ n < 60) ∨ (u = .minute ∧ n < 60) ∨ (u = .hour ∧ n < 24) →
      (∃ Y M D H MI S, ((live r (amt u n)).rollback c).2 = .err (.outOfBounds Y M D H MI S)) ∨
      (((live r (amt u n)).rollback c).2 = .ok () ∧ (((live r (amt u n)).rollback c).1.next c).2 = some (.ok (.moment r))) := by
    intro u hu
    have tt := t
    unfold Cal.ValidTime at tt
    have hu21 : (u = .second ∧ n ≠ r.second + 60) ∨ (u = .minute ∧ n ≠ r.minute + 60) ∨ (u = .hour ∧ n ≠ r.hour + 24) := by
      rcases hu with ⟨rfl, h⟩ | ⟨rfl, h⟩ | ⟨rfl, h⟩
      · exact .inl ⟨rfl, by omega⟩
      · exact .inr (.inl ⟨rfl, by omega⟩)
      · exact .inr (.inr ⟨rfl, by omega⟩)
    rcases C21_exact_or_rejected_partial c hc r hr u n hn (by rcases hu with ⟨rfl, -⟩ | ⟨rfl, -⟩ | ⟨rfl, -⟩ <;> simp only [TUnit.secs] <;> omega) hu21 with ⟨q, e, hi, hq, hv⟩ | ⟨Y, M, D, H, MI, S, e⟩
    · right
      refine rollback_next e ?_
      refine C16_up_to_30_days_partial c hc q r hv hr hz u ?_ n hn ?_ (by omega)
      · rcases hu with ⟨rfl, -⟩ | ⟨rfl, -⟩ | ⟨rfl, -⟩ <;> simp
      · rcases hu with ⟨rfl, h⟩ | ⟨rfl, h⟩ | ⟨rfl, h⟩ <;> simp only [TUnit.secs] <;> omega
    · exact .inl ⟨Y, M, D, H, MI, S, rollback_err e⟩
  rcases hu with hu | hu | hu | ⟨rfl, hu⟩ | ⟨rfl, hu1, hu2⟩ | ⟨rfl, hu1, hu2⟩
  · exact time u (.inl hu)
  · exact time u (.inr (.inl hu))
  · exact time u (.inr (.inr hu))
  · right
    rcases C21_days_partial c hc r hr n hn (by omega)
      (if r.month = 1 then r.year - 1 else r.year) (if r.month = 1 then 12 else r.month - 1)
      (by split <;> omega) (by unfold Cal.monthIndex; split <;> omega) with ⟨-, e⟩ | ⟨h1, -⟩ | ⟨h1, -⟩
    · refine rollback_next e ?_
      have hv : ({ r with day := r.day - n, nano := 0 } : Moment).Valid c :=
        ⟨a1, a2, ⟨a3, a4, by simp only; omega, by simp only; omega⟩, t, by simp, by simp⟩
      refine C16_up_to_30_days_partial c hc _ r hv hr hz .day (by simp) n hn ?_ ?_
      · simp only [TUnit.secs]; omega
      · simp only [Moment.instant, Cal.instant, Cal.dayNumber, TUnit.secs]; omega
    · omega
    · omega
  · have split : ∃ Y M : Int, 1 ≤ M ∧ M ≤ 12 ∧ Cal.monthIndex Y M = Cal.monthIndex r.year r.month - n :=
      ⟨(Cal.monthIndex r.year r.month - n) / 12, (Cal.monthIndex r.year r.month - n) % 12 + 1, by omega, by omega,
        by unfold Cal.monthIndex; omega⟩
    obtain ⟨Y, M, h1, h2, h3⟩ := split
    have mlY := Cal.monthLen_bounds (y := Y) h1 h2
    rcases C22_subtracting_months_partial c hc r hr n hn (by omega) Y M ⟨h1, h2⟩ h3 with ⟨-, -, g3, e⟩ | ⟨-, Y', M', D, H, MI, S, e⟩
    · right
      refine rollback_next e ?_
      have hYle : Y ≤ r.year := by unfold Cal.monthIndex at h3; omega
      have hv : ({ r with year := Y, month := M, nano := 0 } : Moment).Valid c :=
        ⟨g3, by simp only; omega, ⟨h1, h2, a5, by simp only; omega⟩, t, by simp, by simp⟩
      have := C17_up_to_28th_partial c hc _ hv hu2 n hn (by omega) r.year r.month ⟨a3, a4⟩ (by simp only; omega)
      simp only [amt]
      rw [this, if_pos a2]
      rw [hself { r with nano := 0 } rfl rfl rfl rfl rfl rfl rfl]
    · exact .inl ⟨_, _, _, _, _, _, rollback_err e⟩
  · have e := C23_subtracting_years_partial c r hr n (by omega) (by omega)
    split at e
    · rename_i g
      right
      refine rollback_next e ?_
      have hv : ({ r with year := r.year - n, nano := 0 } : Moment).Valid c :=
        ⟨g.1, g.2.1, g.2.2, t, by simp, by simp⟩
      have e2 := C18_adding_years_partial c _ hv n (by simp only; omega) (by simp only; omega)
      simp only [amt]
      rw [e2]
      simp only
      rw [if_neg (by omega), if_neg (fun h => hu2 ⟨h.1, h.2.1⟩)]
      rw [hself { r with year := r.year - n + n, nano := 0 } (by simp only; omega) rfl rfl rfl rfl rfl rfl]
    · exact .inl ⟨_, _, _, _, _, _, rollback_err e⟩

example := C39_rollback_partial (std .debug) (sane_std _) ⟨.moment (at_ 2017 1 31 23 50 0), .minutes 45, true⟩
  ⟨.moment (at_ 2017 2 1 0 35 0), .minutes 45, true⟩ (at_ 2017 2 1 0 35 0) (by decide) rfl .minute 45 (by decide) rfl (by decide) (by decide +kernel)

/-- **C39 refuted.** With an increment of 70 minutes, or of one year on 29 February, rollback then
next returns another item. -/
theorem C39_refuted :
    (Iter.next (std .debug) (Iter.rollback (std .debug) ⟨.moment (at_ 2017 1 1 12 10 0), .minutes 70, true⟩).1).2 =
      some (.ok (.moment (at_ 2017 1 1 11 10 0))) ∧
    Iter.next (std .debug) ⟨.moment (at_ 2017 1 1 11 0 0), .minutes 70, true⟩ =
      (⟨.moment (at_ 2017 1 1 12 10 0), .minutes 70, true⟩, some (.ok (.moment (at_ 2017 1 1 12 10 0)))) ∧
    (Iter.rollback (std .debug) ⟨.moment (at_ 2016 2 29 0 0 0), .years 1, true⟩).2 =
      .err (.outOfBounds 2015 2 0 0 0 0) := by decide +kernel

example : Iter.next (std .debug) (live (at_ 2017 1 31 12 0 0) (.months 2)) =
    (live (at_ 2017 3 31 12 0 0) (.months 2), some (.ok (.moment (at_ 2017 3 31 12 0 0)))) ∧
    Iter.next (std .debug) (live (at_ 2017 1 28 12 0 0) (.months 1)) =
    (live (at_ 2017 2 28 12 0 0) (.months 1), some (.ok (.moment (at_ 2017 2 28 12 0 0)))) := by decide +kernel

end Props
