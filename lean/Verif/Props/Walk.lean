import Verif.Spec.Walk
import Verif.Props.Ending
import Verif.Props.Adaptors

/-!
# C143: every item of an iterator
-/

namespace Props
open Kairos Spec

private theorem momentAt_moment {c : Cfg} {y mo d h mi s : Int} {v : TT} (e : momentAt c y mo d h mi s = .value v) :
    ∃ r, v = .moment r := by
  unfold momentAt at e
  split at e
  · cases e; exact ⟨_, rfl⟩
  · cases e

private theorem step_moment {c : Cfg} {m : Moment} {u : TUnit} {n : Int} {v : TT}
    (e : oneStep c (.moment m + amt u n) = .value v) : ∃ r, v = .moment r := by
  have h : plusAmount c m u n = .value v := by cases u <;> exact e
  unfold plusAmount plusYears plusMonths plusSeconds plusNegative at h
  simp only at h
  repeat' split at h
  all_goals first | exact momentAt_moment h | cases h

private theorem ending_step {c : Cfg} {b : TT} (h1 : endMarked b = false) (h2 : b.isSubtraction = false) (u : TUnit) (n : Int) :
    ending c (b + amt u n) = (ending c b).andThen fun v => oneStep c (v + amt u n) := by
  have e1 : (amt u n).isMoment = false := by cases u <;> rfl
  have e2 : endMarked (amt u n) = false := by cases u <;> rfl
  have e3 : ending c (amt u n) = .value (amt u n) := by cases u <;> rfl
  rw [TT.hadd_def, ending, sumEnds]
  · simp only [e1, h1, h2, e2, e3, Bool.false_eq_true, if_false]
    rfl
  · intro p q h; cases u <;> cases h

theorem item_moment {c : Cfg} {m : Moment} {u : TUnit} {n : Int} {k : Nat} {v : TT}
    (h : itemEnds c m (amt u n) k = .value v) : ∃ r, v = .moment r := by
  induction k generalizing v with
  | zero => cases h; exact ⟨_, rfl⟩
  | succ k ih =>
    have h : (itemEnds c m (amt u n) k).andThen (fun v => oneStep c (v + amt u n)) = .value v := h
    cases hw : itemEnds c m (amt u n) k with
    | value w =>
      rw [hw] at h
      obtain ⟨r, rfl⟩ := ih hw
      exact step_moment h
    | refused e => rw [hw] at h; cases h
    | overflow => rw [hw] at h; cases h

/-- The state after some calls of `next`. -/
private theorem walk (c : Cfg) (hc : Sane c) (m : Moment) (hm : m.Valid c) (u : TUnit) (n : Int) (hn : InI64 n) (k : Nat) :
    ∃ b, after (Iter.next c) (k + 1) ⟨.moment m, amt u n, false⟩ = ⟨b, amt u n, true⟩ ∧
      endMarked b = false ∧ b.isSubtraction = false ∧ AllMoments (Moment.Valid c) b ∧ AmountsFit b ∧
      ending c b = itemEnds c m (amt u n) k ∧ (∀ v, itemEnds c m (amt u n) k = .value v → b = v) ∧
      ∃ o, nth (Iter.next c) k ⟨.moment m, amt u n, false⟩ = some o ∧ Says (itemEnds c m (amt u n) k) o := by
  induction k with
  | zero =>
    refine ⟨.moment m, rfl, rfl, rfl, hm, trivial, rfl, ?_, .ok (.moment m), rfl, rfl⟩
    intro v hv; cases hv; rfl
  | succ k ih =>
    obtain ⟨b, h1, h2, h3, h4, h5, h6, h7, -⟩ := ih
    have hs := ending_step (c := c) h2 h3 u n
    rw [h6] at hs
    have hi : itemEnds c m (amt u n) (k + 1) = ending c (b + amt u n) := hs.symm
    have ha1 : AllMoments (Moment.Valid c) (b + amt u n) := ⟨h4, by cases u <;> trivial⟩
    have ha2 : AmountsFit (b + amt u n) := ⟨h5, by cases u <;> exact hn⟩
    have hsays := C141_every_expression c hc (b + amt u n) ha1 ha2
    rw [← hi] at hsays
    rw [after_succ', nth_eq, h1]
    have hnx : Iter.next c ⟨b, amt u n, true⟩ =
        ((Iter.recalculate c ⟨b + amt u n, amt u n, true⟩).1,
          some ((Iter.recalculate c ⟨b + amt u n, amt u n, true⟩).2 >>= fun _ =>
            .ok (Iter.recalculate c ⟨b + amt u n, amt u n, true⟩).1.base)) := rfl
    rw [hnx]
    unfold Iter.recalculate
    simp only
    cases ha : itemEnds c m (amt u n) (k + 1) with
    | value v =>
      rw [ha] at hsays hi
      have hcalc : calculate c (b + amt u n) = .ok v := hsays
      obtain ⟨r, rfl⟩ := item_moment ha
      have hv := C15_results_are_dates c _ r ha1 hcalc
      rw [hcalc]
      refine ⟨.moment r, rfl, rfl, rfl, hv, trivial, rfl, ?_, .ok (.moment r), rfl, rfl⟩
      intro v hv; cases hv; rfl
    | refused e =>
      rw [ha] at hsays hi
      rw [show calculate c (b + amt u n) = .err e from hsays]
      exact ⟨b + amt u n, rfl, rfl, rfl, ha1, ha2, hi.symm, (fun v hv => by cases hv), .err e, rfl, rfl⟩
    | overflow =>
      rw [ha] at hsays hi
      rw [show calculate c (b + amt u n) = .panic from hsays]
      exact ⟨b + amt u n, rfl, rfl, rfl, ha1, ha2, hi.symm, (fun v hv => by cases hv), .panic, rfl, rfl⟩

theorem item_valid {c : Cfg} (hc : Sane c) {m : Moment} (hm : m.Valid c) {u : TUnit} {n : Int} (hn : InI64 n) {k : Nat} {r : Moment}
    (h : itemEnds c m (amt u n) k = .value (.moment r)) : r.Valid c := by
  obtain ⟨b, -, -, -, h4, -, -, h7, -⟩ := walk c hc m hm u n hn k
  rw [h7 _ h] at h4
  exact h4

private theorem build_amt {m : Moment} {u : TUnit} {n : Int} {it : Iter} (hit : Iter.build m (amt u n) = .ok it) :
    it = ⟨.moment m, amt u n, false⟩ := by
  have : (amt u n).isAAmount = true := by cases u <;> rfl
  unfold Iter.build at hit
  rw [this] at hit
  cases hit; rfl

/-- **C143.** Every call of `next` on an iterator, for every start and step: it returns the start first, then always the item before plus the
step, as `Spec/Reference.lean` says what a moment plus an amount comes to; an error of such an addition is what this and every later
call returns, and so is a panic. -/
theorem C143_items (c : Cfg) (hc : Sane c) (m : Moment) (hm : m.Valid c) (u : TUnit) (n : Int) (hn : InI64 n) (it : Iter)
    (hit : Iter.build m (amt u n) = .ok it) (k : Nat) :
    Returned (Limit.never.item (itemEnds c m (amt u n)) k) (nth (Iter.next c) k it) := by
  rw [build_amt hit]
  obtain ⟨b, -, -, -, -, -, -, -, o, ho, hs⟩ := walk c hc m hm u n hn k
  rw [ho]
  exact hs

/-- Hourly by a million hours, from late in the last year: the second item is out of bounds, and so is every later one. -/
example (k : Nat) := C143_items (std .debug) (by decide) (at_ 262143 6 1 0 0 0) (by decide +kernel) .hour 1000000 (by decide)
  ⟨.moment (at_ 262143 6 1 0 0 0), .hours 1000000, false⟩ rfl k
example : itemEnds (std .debug) (at_ 262143 6 1 0 0 0) (.hours 1000000) 7 = .refused (.outOfBounds 262259 2 16 16 0 0) := by
  decide +kernel
example : itemEnds (std .debug) (at_ 2017 1 31 10 0 0) (.months 1) 2 = .value (.moment (at_ 2017 4 3 10 0 0)) := by decide +kernel
example : itemEnds (std .debug) (at_ 2017 1 31 10 0 50) (.seconds 9223372036854775807) 2 = .overflow := by decide +kernel

/-- **C143.** Every call of `next` on an iterator bounded by `times(N)`. -/
theorem C143_times (c : Cfg) (hc : Sane c) (m : Moment) (hm : m.Valid c) (u : TUnit) (n : Int) (hn : InI64 n) (it : Iter)
    (hit : Iter.build m (amt u n) = .ok it) (N : Int) (h0 : 0 ≤ N) (hmax : N ≤ 9223372036854775807) (k : Nat) :
    Returned ((Limit.times N).item (itemEnds c m (amt u n)) k) (nth (timesNext c (Iter.next c)) k (timesNew it N)) := by
  rw [(C40_times_partial c (Iter.next c) it N h0 hmax k).1]
  simp only [Limit.item]
  by_cases h : (k : Int) < N
  · rw [if_pos h, if_pos h]; exact C143_items c hc m hm u n hn it hit k
  · rw [if_neg h, if_neg h]; trivial

example (k : Nat) := C143_times (std .debug) (by decide) (at_ 2017 1 31 10 0 0) (by decide) .month (-1) (by decide)
  ⟨.moment (at_ 2017 1 31 10 0 0), .months (-1), false⟩ rfl 12 (by decide) (by decide) k

/-- **C143.** Every call of `next` on an iterator with an end date. -/
theorem C143_until (c : Cfg) (hc : Sane c) (m : Moment) (hm : m.Valid c) (u : TUnit) (n : Int) (hn : InI64 n) (it : Iter)
    (hit : Iter.build m (amt u n) = .ok it) (e : Moment) (he : e.Valid c) (k : Nat) :
    Returned ((Limit.before e).item (itemEnds c m (amt u n)) k) (nth (untilNext c (Iter.next c) e) k it) := by
  have h := C143_items c hc m hm u n hn it hit k
  obtain ⟨g1, g2, -, g4⟩ := C41_until c (Iter.next c) e it k
  have hpanic : nth (Iter.next c) k it = some .panic → nth (untilNext c (Iter.next c) e) k it = some .panic := by
    intro hp
    rw [nth_eq] at hp ⊢
    rw [g4]
    unfold untilNext
    generalize Iter.next c (after (Iter.next c) k it) = p at hp ⊢
    obtain ⟨s', r⟩ := p
    simp only at hp
    rw [hp]
  simp only [Limit.item] at h ⊢
  cases ha : itemEnds c m (amt u n) k with
  | value v =>
    obtain ⟨r, rfl⟩ := item_moment ha
    rw [ha] at h
    simp only
    cases hn' : nth (Iter.next c) k it with
    | none => rw [hn'] at h; exact h.elim
    | some o =>
      rw [hn'] at h
      rw [show o = .ok (.moment r) from h] at hn'
      rw [g1 r hn' (item_valid hc hm hn ha) he]
      by_cases hb : r.instant < e.instant ∨ (r.instant = e.instant ∧ r.nano < e.nano)
      · rw [if_pos hb, if_pos (show Earlier r e from hb)]; rfl
      · rw [if_neg hb, if_neg (show ¬ Earlier r e from hb)]; trivial
  | refused k' =>
    rw [ha] at h
    cases hn' : nth (Iter.next c) k it with
    | none => rw [hn'] at h; exact h.elim
    | some o =>
      rw [hn'] at h
      rw [show o = .err k' from h] at hn'
      rw [g2 k' hn']
      rfl
  | overflow =>
    rw [ha] at h
    cases hn' : nth (Iter.next c) k it with
    | none => rw [hn'] at h; exact h.elim
    | some o =>
      rw [hn'] at h
      rw [show o = .panic from h] at hn'
      rw [hpanic hn']
      rfl

example (k : Nat) := C143_until (std .debug) (by decide) (at_ 2017 1 31 10 0 0) (by decide) .second 86399 (by decide)
  ⟨.moment (at_ 2017 1 31 10 0 0), .seconds 86399, false⟩ rfl (at_ 2018 1 1 0 0 0) (by decide) k

end Props
