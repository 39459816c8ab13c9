import Verif.Spec.Fraction
import Verif.Spec.Pipeline
import Verif.Lemmas.Fraction
import Verif.Lemmas.Iter
import Verif.Props.Values

/-! # C149 — fractions of a second -/

namespace Props
open Kairos Spec

variable {σ τ : Type}

/-- **C149, calculations.** Cutting the date-times of an expression to whole seconds changes no outcome of the calculation, but that the
date-times in it (a result that is a date-time of the expression, or the operands named in an error) are cut likewise. -/
theorem C149_calculate (c : Cfg) (t : TT) : calculate c (whole t) = wholeOut (calculate c t) := calculate_whole c t

/-- **C149, what is calculated has no fraction.** Two expressions that differ in fractions of seconds only, and are not just a date-time,
have the very same value. -/
theorem C149_same_value (c : Cfg) (t t' v : TT) (h : whole t = whole t') (ht : ∀ m, t ≠ .moment m) (hv : calculate c t = .ok v) :
    calculate c t' = .ok v := by
  have hw : ∀ (t v : TT), (∀ m, t ≠ .moment m) → calculate c t = .ok v → whole v = v := by
    intro t v ht hv
    rcases leaf_cases (calculate_isLeaf hv) with ha | ⟨m, rfl⟩
    · cases v <;> first | rfl | (simp [TT.isAAmount] at ha)
    · obtain ⟨-, hz⟩ := C15_computed c t m ht hv
      simp only [whole, wholeSecond]
      rw [← hz]
  have ht' : ∀ m, t' ≠ .moment m := by
    rintro m rfl
    cases t <;> simp [whole] at h ht
  have e : wholeOut (calculate c t') = .ok v := by
    rw [← calculate_whole, ← h, calculate_whole, hv, wholeOut, hw t v ht hv]
  cases e' : calculate c t' with
  | ok w =>
    rw [e'] at e
    simp only [wholeOut, OutE.ok.injEq] at e
    rw [← e, hw t' w ht' e']
  | err x => rw [e'] at e; cases e
  | panic => rw [e'] at e; cases e
  | oof => rw [e'] at e; cases e

/-- **C149, questions.** The weekday and the month do not depend on the fraction: `is_a`, `is_in` and the matchers answer the same. -/
theorem C149_questions (t : TT) (d : Day) (m : Month) : (whole t).isA d = t.isA d ∧ (whole t).isIn m = t.isIn m ∧
    d.matches (whole t) = d.matches t ∧ m.matches (whole t) = m.matches t := by
  cases t <;> exact ⟨rfl, rfl, rfl, rfl⟩

/-! ### iterators -/

private theorem calculate_unsigned {c : Cfg} {t v : TT} (ht : Unsigned t) (h : calculate c t = .ok v) : Unsigned v :=
  calculate_inv (fun m hm => by rw [hm.2]; exact Int.le_refl 0) ht h

/-- Two iterators in related states, of which the second returns what the first returns, cut to whole seconds. -/
private def Cut (nx : σ → σ × Item) (ny : τ → τ × Item) (R : σ → τ → Prop) : Prop :=
  ∀ s t, R s t → R (nx s).1 (ny t).1 ∧ (ny t).2 = wholeItem (nx s).2 ∧ ∀ v, (nx s).2 = some (.ok v) → Unsigned v

private theorem Cut.nth {nx : σ → σ × Item} {ny : τ → τ × Item} {R : σ → τ → Prop} (h : Cut nx ny R) (k : Nat) (s : σ) (t : τ)
    (hs : R s t) : nth ny k t = wholeItem (nth nx k s) := by
  induction k generalizing s t with
  | zero => exact (h s t hs).2.1
  | succ k ih => exact ih _ _ (h s t hs).1

private def CutIter (a b : Iter) : Prop := b = wholeIter a ∧ Unsigned a.base ∧ Unsigned a.increment

/-- **C149, skipping and going back.** -/
theorem C149_skip_rollback (c : Cfg) (it : Iter) :
    (wholeIter it).skip c = (wholeIter (it.skip c).1, match (it.skip c).2 with | .err e => .err (wholeError e) | r => r) ∧
    (wholeIter it).rollback c = (wholeIter (it.rollback c).1, match (it.rollback c).2 with | .err e => .err (wholeError e) | r => r) := by
  have key : ∀ i : Iter, (wholeIter i).recalculate c =
      (wholeIter (i.recalculate c).1, match (i.recalculate c).2 with | .err e => .err (wholeError e) | r => r) := by
    intro i
    unfold Iter.recalculate
    have h : calculate c (wholeIter i).base = wholeOut (calculate c i.base) := calculate_whole c i.base
    rw [h]
    cases calculate c i.base <;> rfl
  exact ⟨key { it with base := it.base + it.increment }, key { it with base := it.base - it.increment }⟩

private theorem iter_cut (c : Cfg) : Cut (Iter.next c) (Iter.next c) CutIter := by
  rintro a _ ⟨rfl, h1, h2⟩
  unfold Iter.next
  cases hf : a.hadFirst with
  | false =>
    have : (wholeIter a).hadFirst = false := hf
    simp only [this]
    refine ⟨⟨rfl, h1, h2⟩, rfl, fun v hv => ?_⟩
    cases hv; exact h1
  | true =>
    have : (wholeIter a).hadFirst = true := hf
    simp only [this]
    simp only [Bool.not_true, Bool.false_eq_true, if_false]
    rw [(C149_skip_rollback c a).1]
    have hsum : Unsigned (a.base + a.increment) := ⟨h1, h2⟩
    have hst : Unsigned (a.skip c).1.base ∧ (a.skip c).1.increment = a.increment := by
      unfold Iter.skip Iter.recalculate
      split
      · rename_i r hr; exact ⟨calculate_unsigned hsum hr, rfl⟩
      all_goals exact ⟨hsum, rfl⟩
    refine ⟨⟨rfl, hst.1, hst.2 ▸ h2⟩, ?_, fun v hv => ?_⟩
    · cases (a.skip c).2 <;> rfl
    · cases hr : (a.skip c).2 <;> simp only [hr] at hv <;> cases hv
      exact hst.1

private theorem matcher_cut {t : Test} (h : Coarse t) (v : TT) : t.matcher (whole v) = t.matcher v := by
  cases t with
  | day d => cases v <;> rfl
  | month m => cases v <;> rfl
  | own f => simp only [Test.matcher, filterMatches]; rw [h v]

private theorem matcher_err {t : Test} {v : TT} {e : ErrorKind} (h : t.matcher v = .err e) : wholeError e = e := by
  cases t with
  | day d => cases v <;> first | (cases h; done) | (cases h; rfl)
  | month m => cases v <;> first | (cases h; done) | (cases h; rfl)
  | own f => cases h

private theorem filter_cut {nx : σ → σ × Item} {ny : τ → τ × Item} {R : σ → τ → Prop} (h : Cut nx ny R) {t : Test} (ht : Coarse t)
    (n : Nat) : Cut (filterNext nx t.matcher n) (filterNext ny t.matcher n) R := by
  induction n with
  | zero => intro s u hs; exact ⟨hs, rfl, fun v hv => by cases hv⟩
  | succ n ih =>
    intro s u hs
    obtain ⟨h1, h2, h3⟩ := h s u hs
    simp only [filterNext]
    rcases hx : nx s with ⟨s', i⟩
    rcases hy : ny u with ⟨u', j⟩
    rw [hx] at h1 h2 h3
    rw [hy] at h1 h2
    simp only at h1 h2 h3
    subst h2
    cases i with
    | none => exact ⟨h1, rfl, fun v hv => by cases hv⟩
    | some o =>
      cases o with
      | ok v =>
        simp only [wholeItem, wholeOut, matcher_cut ht]
        cases hm : t.matcher v with
        | ok b =>
          cases b with
          | false => exact ih s' u' h1
          | true => exact ⟨h1, rfl, h3⟩
        | err e => exact ⟨h1, by simp only [matcher_err hm], fun v hv => by cases hv⟩
        | panic => exact ⟨h1, rfl, fun v hv => by cases hv⟩
        | oof => exact ⟨h1, rfl, fun v hv => by cases hv⟩
      | err e => exact ⟨h1, rfl, fun v hv => by cases hv⟩
      | panic => exact ⟨h1, rfl, fun v hv => by cases hv⟩
      | oof => exact ⟨h1, rfl, fun v hv => by cases hv⟩

private theorem without_cut {nx : σ → σ × Item} {ny : τ → τ × Item} {R : σ → τ → Prop} (h : Cut nx ny R) {t : Test} (ht : Coarse t)
    (n : Nat) : Cut (withoutNext nx t.matcher n) (withoutNext ny t.matcher n) R := by
  induction n with
  | zero => intro s u hs; exact ⟨hs, rfl, fun v hv => by cases hv⟩
  | succ n ih =>
    intro s u hs
    obtain ⟨h1, h2, h3⟩ := h s u hs
    simp only [withoutNext]
    rcases hx : nx s with ⟨s', i⟩
    rcases hy : ny u with ⟨u', j⟩
    rw [hx] at h1 h2 h3
    rw [hy] at h1 h2
    simp only at h1 h2 h3
    subst h2
    cases i with
    | none => exact ⟨h1, rfl, fun v hv => by cases hv⟩
    | some o =>
      cases o with
      | ok v =>
        simp only [wholeItem, wholeOut, matcher_cut ht]
        cases hm : t.matcher v with
        | ok b =>
          cases b with
          | false => exact ⟨h1, rfl, h3⟩
          | true => exact ih s' u' h1
        | err e => exact ⟨h1, by simp only [matcher_err hm], fun v hv => by cases hv⟩
        | panic => exact ⟨h1, rfl, fun v hv => by cases hv⟩
        | oof => exact ⟨h1, rfl, fun v hv => by cases hv⟩
      | err e => exact ⟨h1, rfl, fun v hv => by cases hv⟩
      | panic => exact ⟨h1, rfl, fun v hv => by cases hv⟩
      | oof => exact ⟨h1, rfl, fun v hv => by cases hv⟩

private theorem compare_zero {a : Int} (h : 0 ≤ a) : (compare a 0 == Ordering.lt) = (compare (0 : Int) 0 == Ordering.lt) := by
  rcases Int.lt_or_eq_of_le h with h | h
  · have : compare a 0 = .gt := by
      simp only [compare, compareOfLessAndEq]
      rw [if_neg (by omega), if_neg (by omega)]
    rw [this]; rfl
  · rw [← h]

private theorem then_lt (o p q : Ordering) (h : (p == .lt) = (q == .lt)) : (o.then p == .lt) = (o.then q == .lt) := by
  cases o <;> first | exact h | rfl

private theorem lt_cut {m e : Moment} (hm : 0 ≤ m.nano) (he : e.nano = 0) : (wholeSecond m).lt e = m.lt e := by
  unfold Moment.lt Moment.cmp
  simp only [wholeSecond]
  rw [he]
  repeat apply then_lt
  exact (compare_zero hm).symm

private theorem until_cut (c : Cfg) {nx : σ → σ × Item} {ny : τ → τ × Item} {R : σ → τ → Prop} (h : Cut nx ny R) {e : Moment}
    (he : e.nano = 0) : Cut (untilNext c nx e) (untilNext c ny e) R := by
  intro s u hs
  obtain ⟨h1, h2, h3⟩ := h s u hs
  simp only [untilNext]
  rcases hx : nx s with ⟨s', i⟩
  rcases hy : ny u with ⟨u', j⟩
  rw [hx] at h1 h2 h3
  rw [hy] at h1 h2
  simp only at h1 h2 h3
  subst h2
  cases i with
  | none => exact ⟨h1, rfl, fun v hv => by cases hv⟩
  | some o =>
    cases o with
    | ok v =>
      simp only [wholeItem, wholeOut]
      rw [calculate_whole]
      cases hv : calculate c v with
      | ok w =>
        have hu := calculate_unsigned (h3 v rfl) hv
        rcases leaf_cases (calculate_isLeaf hv) with ha | ⟨m, rfl⟩
        · cases w <;> first
            | (simp [TT.isAAmount] at ha; done)
            | exact ⟨h1, rfl, fun v hv => by cases hv⟩
        · have hm : 0 ≤ m.nano := hu
          simp only [wholeOut, whole, TT.getMoment, lt_cut hm he]
          cases m.lt e with
          | true => exact ⟨h1, rfl, fun v hv => by cases hv; exact hu⟩
          | false => exact ⟨h1, rfl, fun v hv => by cases hv⟩
      | err x => exact ⟨h1, rfl, fun v hv => by cases hv⟩
      | panic => exact ⟨h1, rfl, fun v hv => by cases hv⟩
      | oof => exact ⟨h1, rfl, fun v hv => by cases hv⟩
    | err e => exact ⟨h1, rfl, fun v hv => by cases hv⟩
    | panic => exact ⟨h1, rfl, fun v hv => by cases hv⟩
    | oof => exact ⟨h1, rfl, fun v hv => by cases hv⟩

private theorem times_cut (c : Cfg) {nx : σ → σ × Item} {ny : τ → τ × Item} {R : σ → τ → Prop} (h : Cut nx ny R) :
    Cut (timesNext c nx) (timesNext c ny) (fun a b => R a.inner b.inner ∧ a.times = b.times ∧ a.count = b.count) := by
  rintro ⟨s, n, k⟩ ⟨u, n', k'⟩ ⟨hs, h1, h2⟩
  simp only at hs h1 h2
  subst h1 h2
  obtain ⟨h1, h2, h3⟩ := h s u hs
  simp only [timesNext]
  by_cases hn : n = k
  · simp only [if_pos hn]
    exact ⟨⟨hs, trivial, trivial⟩, rfl, fun v hv => by cases hv⟩
  · simp only [if_neg hn]
    cases hc : (c.add k 1 : Out Int) with
    | ok k' => exact ⟨⟨h1, rfl, rfl⟩, h2, h3⟩
    | err e => exact absurd hc (chk_ne_err c _ e)
    | panic => exact ⟨⟨hs, rfl, rfl⟩, rfl, fun v hv => by cases hv⟩
    | oof => exact ⟨⟨hs, rfl, rfl⟩, rfl, fun v hv => by cases hv⟩

private def CutChained (x y : Chained) : Prop :=
  ∃ R : x.σ → y.σ → Prop, R x.state y.state ∧ ∀ rounds, Cut (x.next rounds) (y.next rounds) R

private theorem chain_cut (c : Cfg) (as : List Adaptor) (has : ∀ a ∈ as, CoarseAdaptor a) (x y : Chained) (h : CutChained x y) :
    CutChained (as.foldl (Chained.adapt c) x) (as.foldl (Chained.adapt c) y) := by
  induction as generalizing x y with
  | nil => exact h
  | cons a as ih =>
    have ha := has a List.mem_cons_self
    refine ih (fun b hb => has b (List.mem_cons_of_mem _ hb)) _ _ ?_
    obtain ⟨R, h1, h2⟩ := h
    cases a with
    | times n => exact ⟨_, ⟨h1, rfl, rfl⟩, fun rounds => times_cut c (h2 rounds)⟩
    | «until» e => exact ⟨R, h1, fun rounds => until_cut c (h2 rounds) ha⟩
    | every t => exact ⟨R, h1, fun rounds => filter_cut (h2 rounds) ha rounds⟩
    | without t => exact ⟨R, h1, fun rounds => without_cut (h2 rounds) ha rounds⟩

/-- **C149, iterators.** An iterator, with any chain of adaptors that do not look at fractions of seconds themselves, returns the same for
a start with or without a fraction, but for that fraction: the same items, errors and ends at the same calls. -/
theorem C149_iterators (c : Cfg) (it : Iter) (hb : Unsigned it.base) (hi : Unsigned it.increment) (as : List Adaptor)
    (has : ∀ a ∈ as, CoarseAdaptor a) (rounds k : Nat) :
    (chained c (wholeIter it) as).call rounds k = wholeItem ((chained c it as).call rounds k) := by
  obtain ⟨R, h1, h2⟩ := chain_cut c as has ⟨Iter, fun _ => Iter.next c, it⟩ ⟨Iter, fun _ => Iter.next c, wholeIter it⟩
    ⟨CutIter, ⟨rfl, hb, hi⟩, fun _ => iter_cut c⟩
  exact (h2 rounds).nth k _ _ h1

/-- **C149, only the first item can have a fraction.** Every date-time that an iterator yields after its first item is one of whole
seconds. -/
theorem C149_later_items (c : Cfg) (it : Iter) (k : Nat) (m : Moment) (h : nth (Iter.next c) (k + 1) it = some (.ok (.moment m))) :
    m.nano = 0 := by
  have key : ∀ it : Iter, it.hadFirst = true → (it.next c).2 = some (.ok (.moment m)) → m.nano = 0 := by
    intro it hf h
    unfold Iter.next at h
    simp only [hf, Bool.not_true, Bool.false_eq_true, if_false] at h
    unfold Iter.skip Iter.recalculate at h
    cases hr : calculate c (it.base + it.increment) with
    | ok v =>
      simp only [hr] at h
      have h : v = .moment m := by injection h with h; injection h
      rw [h] at hr
      exact (C15_computed c _ m (fun p hp => by cases hp) hr).2
    | err e => simp only [hr] at h; injection h with h; cases h
    | panic => simp only [hr] at h; injection h with h; cases h
    | oof => simp only [hr] at h; injection h with h; cases h
  have hf : ∀ (k : Nat) (it : Iter), (after (Iter.next c) (k + 1) it).hadFirst = true := by
    intro k
    induction k with
    | zero =>
      intro it
      show (it.next c).1.hadFirst = true
      unfold Iter.next
      cases hh : it.hadFirst
      · rfl
      · simp only [Bool.not_true, Bool.false_eq_true, if_false, Iter.skip, Iter.recalculate]
        split <;> exact hh
    | succ k ih => intro it; exact ih _
  rw [nth_eq] at h
  exact key _ (hf k it) h

example (p : Profile) : nth (Iter.next (std p)) 1 ⟨.moment ⟨2017, 1, 30, 12, 0, 0, 500000000⟩, .days 1, false⟩ = some (.ok (.moment (at_ 2017 1 31 12 0 0))) := by
  cases p <;> decide +kernel

/-- **C149, `until` looks at the fraction.** The restriction on `until` is needed: half a second makes the difference between an item and
the end. -/
theorem C149_until_looks (p : Profile) : ∃ (it : Iter) (e : Moment), e.Valid (std p) ∧ Unsigned it.base ∧
    (chained (std p) it [.until e]).call 1 0 = none ∧ (chained (std p) (wholeIter it) [.until e]).call 1 0 ≠ none :=
  ⟨⟨.moment { at_ 2017 6 15 12 0 0 with nano := 500000000 }, .days 1, false⟩, { at_ 2017 6 15 12 0 0 with nano := 500000000 },
    by cases p <;> decide +kernel, by unfold Unsigned AllMoments; decide, by cases p <;> decide +kernel, by cases p <;> decide +kernel⟩

/-! ### concrete cases -/

/-- Noon and a half second, on 30 January. -/
def noonAndHalf : Moment := { at_ 2017 1 30 12 0 0 with nano := 500000000 }

example (p : Profile) : calculate (std p) (.moment noonAndHalf + .days 3) = .ok (.moment (at_ 2017 2 2 12 0 0)) := by
  cases p <;> decide +kernel

example (p : Profile) := C149_same_value (std p) (.moment noonAndHalf + .days 3) (.moment (at_ 2017 1 30 12 0 0) + .days 3)
  (.moment (at_ 2017 2 2 12 0 0)) rfl (fun m h => by cases h) (by cases p <;> decide +kernel)

example (p : Profile) : calculate (std p) (.days 3 - .moment noonAndHalf) = .err (.cannotSub (.days 3) (.moment noonAndHalf)) ∧
    calculate (std p) (whole (.days 3 - .moment noonAndHalf)) = .err (.cannotSub (.days 3) (.moment (at_ 2017 1 30 12 0 0))) := by
  cases p <;> decide +kernel

example (p : Profile) := C149_iterators (std p) ⟨.moment noonAndHalf, .days 1, false⟩ (by unfold Unsigned AllMoments; decide) trivial
  [.every (.day .thursday), .until (at_ 2018 1 1 0 0 0), .times 3]
  (by intro a ha; simp only [List.mem_cons, List.not_mem_nil, or_false] at ha; rcases ha with rfl | rfl | rfl <;> trivial) 10 1

example (p : Profile) : nth (Iter.next (std p)) 0 ⟨.moment noonAndHalf, .days 1, false⟩ = some (.ok (.moment noonAndHalf)) ∧
    nth (Iter.next (std p)) 1 ⟨.moment noonAndHalf, .days 1, false⟩ = some (.ok (.moment (at_ 2017 1 31 12 0 0))) := by
  cases p <;> decide +kernel

end Props
