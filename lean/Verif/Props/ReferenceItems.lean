import Verif.Props.Order

/-!
# C135, C28: the items of an iterator and the fields of an error, from the reference
-/

namespace Props
open Kairos Spec

private theorem next_live (c : Cfg) (b inc : TT) :
    (Iter.next c ⟨b, inc, true⟩ = (match calculate c (b + inc) with
      | .ok v => (⟨v, inc, true⟩, some (.ok v))
      | .err e => (⟨b + inc, inc, true⟩, some (.err e))
      | .panic => (⟨b + inc, inc, true⟩, some .panic)
      | .oof => (⟨b + inc, inc, true⟩, some .oof))) := by
  simp only [Iter.next, Iter.skip, Iter.recalculate]
  cases h : calculate c (b + inc) <;> rfl

private theorem items_core (c : Cfg) (hc : Sane c) (m : Moment) (hm : m.Valid c) (u : TUnit) (n : Int)
    (hn : InI64 n) (it : Iter) (hit : Iter.build m (amt u n) = .ok it) (k : Nat) :
    ∃ o, nth (Iter.next c) k it = some o ∧ Says (referenceItem c m u n k) o := by
  rw [(C33_build m (amt u n)).1 ⟨u, n, rfl⟩] at hit
  cases hit
  have fit : AmountsFit (amt u n) := by cases u <;> exact hn
  have leaf : (amt u n).isLeaf := by cases u <;> rfl
  have ka : kind (amt u n) = some .amount := by cases u <;> rfl
  have none_valid : AllMoments (Moment.Valid c) (amt u n) := by cases u <;> trivial
  have kk : ∀ b : TT, kind b = some .moment → b.isSubtraction = false → endMarked b = false →
      kind (b + amt u n) = some .moment := by
    intro b h1 h2 h3
    rw [TT.hadd_def]
    unfold kind
    simp [ka, h1, h2, h3]
  have key : ∀ k, ∃ b o, after (Iter.next c) (k + 1) ⟨.moment m, amt u n, false⟩ = ⟨b, amt u n, true⟩ ∧
      kind b = some .moment ∧ b.isSubtraction = false ∧ endMarked b = false ∧ AllMoments (Moment.Valid c) b ∧
      nth (Iter.next c) k ⟨.moment m, amt u n, false⟩ = some o ∧ calculate c b = o ∧ Says (referenceItem c m u n k) o := by
    intro k
    induction k with
    | zero => exact ⟨.moment m, .ok (.moment m), rfl, rfl, rfl, rfl, hm, rfl, calculate_leaf c rfl, rfl⟩
    | succ k ih =>
      obtain ⟨b, o, h1, h2, h3, h4, h5, -, h6, h7⟩ := ih
      have hk := kk b h2 h3 h4
      have hs : Says (referenceItem c m u n (k + 1)) (calculate c (b + amt u n)) := by
        rw [C136_sum c b (amt u n) (by rw [hk]; simp), h6]
        show Says ((referenceItem c m u n k).andThen _) _
        cases hr : referenceItem c m u n k with
        | value v =>
          rw [hr] at h7
          rw [show o = .ok v from h7] at h6 ⊢
          simp only [OutE.ok_bind]
          rw [calculate_leaf c leaf, OutE.ok_bind]
          have hv : ∃ x, v = .moment x := by
            rcases C76_moments c b h2 with ⟨x, hx⟩ | ⟨_, _, _, _, _, _, hx⟩ | ⟨hx, -⟩ <;> rw [hx] at h6 <;> cases h6
            exact ⟨x, rfl⟩
          obtain ⟨x, rfl⟩ := hv
          exact (C135_sum_and_difference c hc (.moment x) (amt u n) rfl leaf ⟨C15_results_are_dates c b x h5 h6, none_valid⟩
            ⟨trivial, fit⟩).1
        | refused e => rw [hr] at h7; rw [show o = .err e from h7]; rfl
        | overflow => rw [hr] at h7; rw [show o = .panic from h7]; rfl
      rw [after_succ', nth_eq, h1, next_live]
      cases hv : calculate c (b + amt u n) with
      | ok w =>
        rw [hv] at hs
        obtain ⟨x, rfl⟩ : ∃ x, w = .moment x := by
          rcases C76_moments c (b + amt u n) hk with ⟨x, hx⟩ | ⟨_, _, _, _, _, _, hx⟩ | ⟨hx, -⟩ <;> rw [hx] at hv <;> cases hv
          exact ⟨x, rfl⟩
        exact ⟨_, _, rfl, rfl, rfl, rfl, C15_results_are_dates c (.addition b (amt u n)) x ⟨h5, none_valid⟩ hv, rfl,
          calculate_leaf c rfl, hs⟩
      | err e => rw [hv] at hs; exact ⟨_, _, rfl, hk, rfl, rfl, ⟨h5, none_valid⟩, rfl, hv, hs⟩
      | panic => rw [hv] at hs; exact ⟨_, _, rfl, hk, rfl, rfl, ⟨h5, none_valid⟩, rfl, hv, hs⟩
      | oof => exact absurd hv (by unfold calculate; exact exec_ne_oof c _)
  obtain ⟨-, o, -, -, -, -, -, h, -, hs⟩ := key k
  exact ⟨o, h, hs⟩

/-- **C135.** The items of an iterator are exactly those of the reference, one step after the other: the same date, and where a step
is refused the same error for this and every later item. -/
theorem C135_iterators (c : Cfg) (hc : Sane c) (m : Moment) (hm : m.Valid c) (u : TUnit) (n : Int)
    (hn : InI64 n) (it : Iter) (hit : Iter.build m (amt u n) = .ok it) (k : Nat) :
    (∀ v, nth (Iter.next c) k it = some (.ok v) ↔ referenceItem c m u n k = .value v) ∧
    (∀ e, nth (Iter.next c) k it = some (.err e) ↔ referenceItem c m u n k = .refused e) ∧
    (nth (Iter.next c) k it = some .panic ↔ referenceItem c m u n k = .overflow) := by
  obtain ⟨o, h1, h2⟩ := items_core c hc m hm u n hn it hit k
  rw [h1]
  cases hr : referenceItem c m u n k with
  | value v =>
    rw [hr] at h2; rw [show o = .ok v from h2]
    refine ⟨fun w => ⟨fun h => ?_, fun h => ?_⟩, fun w => ⟨fun h => ?_, fun h => ?_⟩, ⟨fun h => ?_, fun h => ?_⟩⟩ <;> cases h <;> rfl
  | refused e =>
    rw [hr] at h2; rw [show o = .err e from h2]
    refine ⟨fun w => ⟨fun h => ?_, fun h => ?_⟩, fun w => ⟨fun h => ?_, fun h => ?_⟩, ⟨fun h => ?_, fun h => ?_⟩⟩ <;> cases h <;> rfl
  | overflow =>
    rw [hr] at h2; rw [show o = .panic from h2]
    refine ⟨fun w => ⟨fun h => ?_, fun h => ?_⟩, fun w => ⟨fun h => ?_, fun h => ?_⟩, ⟨fun h => ?_, fun h => ?_⟩⟩ <;> cases h <;> rfl

/-- The 1000th item of `2017-01-31 + 1 month + 1 month + …`, far beyond what can be computed step by step in the library's loops; and
the items from 15 June 2017 in steps of -40 days, which end at once. -/
example : nth (Iter.next (std .debug)) 1000 ⟨.moment (at_ 2017 1 31 0 0 0), .months 1, false⟩ = some (.ok (.moment (at_ 2100 6 3 0 0 0))) ∧
    nth (Iter.next (std .debug)) 50 ⟨.moment (at_ 2017 6 15 7 8 9), .days (-40), false⟩ = some (.err (.outOfBounds 2017 6 7 7 8 9)) :=
  ⟨((C135_iterators (std .debug) (by decide) (at_ 2017 1 31 0 0 0) (by decide) .month 1 (by decide) _ rfl 1000).1 _).2 (by decide +kernel),
    ((C135_iterators (std .debug) (by decide) (at_ 2017 6 15 7 8 9) (by decide) .day (-40) (by decide) _ rfl 50).2.1 _).2 (by decide +kernel)⟩

/-- **C28 (partial).** Which six numbers the error of a sum or difference names is known in closed form for every moment and every
amount: those of the reference, where only the day is replaced by the hour. -/
theorem C28_every_field_partial (c : Cfg) (hc : Sane c) (m : Moment) (hm : m.Valid c) (u : TUnit) (n : Int) (hn : InI64 n)
    (e : ErrorKind) :
    (calculate c (.moment m + amt u n) = .err e ↔ plusAmount c m u n = .refused e) ∧
    (calculate c (.moment m - amt u n) = .err e ↔ minusAmount c m u n = .refused e) := by
  have key : ∀ {a : Answer} {o : Out TT}, Says a o → (o = .err e ↔ a = .refused e) := by
    intro a o h
    cases a with
    | value v => rw [show o = .ok v from h]; constructor <;> intro h <;> cases h
    | refused e' => rw [show o = .err e' from h]; constructor <;> intro h <;> cases h <;> rfl
    | overflow => rw [show o = .panic from h]; constructor <;> intro h <;> cases h
  exact ⟨key (plus_says c hc m hm u n hn), key (minus_says c hc m hm u n hn)⟩

/-- 100 seconds before 15 June 2017, 00:00:30, when subtracted, and when added as a negative number. -/
example : calculate (std .debug) (.moment (at_ 2017 6 15 0 0 30) - .seconds 100) = .err (.outOfBounds 2017 6 23 23 58 4294967286) ∧
    calculate (std .debug) (.moment (at_ 2017 6 15 0 0 30) + .seconds (-100)) = .err (.outOfBounds 2017 6 0 0 4294967295 4294967286) :=
  ⟨(C28_every_field_partial (std .debug) (by decide) (at_ 2017 6 15 0 0 30) (by decide) .second 100 (by decide) _).2.2 (by decide +kernel),
    (C28_every_field_partial (std .debug) (by decide) (at_ 2017 6 15 0 0 30) (by decide) .second (-100) (by decide) _).1.2
      (by decide +kernel)⟩

end Props
