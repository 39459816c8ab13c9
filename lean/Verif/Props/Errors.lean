import Verif.Lemmas.Errors
import Verif.Props.EndOf
import Verif.Props.Kinds
import Verif.Props.IterOps
import Verif.Spec.Errors

/-!
# C28, C86: what errors tell
-/

namespace Props
open Kairos Spec

/-- **C86 (partial).** An error of `calculate` names an operand that can never be used like that, or fields of an
impossible date. Missing: the order of the operands and the name of the end-of marker, see the refutations. -/
theorem C86_explained_partial (c : Cfg) (hc : Sane c) (t : TT) (ht : AllMoments (·.Valid c) t) (e : ErrorKind)
    (h : calculate c t = .err e) : Explained e := by
  unfold Sane at hc
  have := (calculate_named (by omega) (by omega) ht).2 e h
  cases e <;> simp_all [Named, Explained, endMarked_eq] <;> omega

example := C86_explained_partial (std .debug) (sane_std _) (.days 3 + .moment (at_ 2017 6 15 0 0 0))
  (by simp [AllMoments, TT.hadd_def]; decide) (.cannotAdd (.days 3) (.moment (at_ 2017 6 15 0 0 0))) (by decide +kernel)

/-- **C86 (partial).** For an expression of a kind that can be calculated (`Spec/Kind.lean`) the error is always
OutOfBounds: the other errors are about the shape of an expression, never about its numbers. -/
theorem C86_only_shapes_partial (c : Cfg) (t : TT) (e : ErrorKind) (h : calculate c t = .err e) (hk : kind t ≠ none) :
    ∃ y mo d hh mi s, e = .outOfBounds y mo d hh mi s := by
  rcases hk' : kind t with _ | (_ | _)
  · exact absurd hk' hk
  · rcases C76_amounts c t hk' with ⟨u, n, h'⟩ | ⟨h', -⟩ <;> rw [h'] at h <;> cases h
  · rcases C76_moments c t hk' with ⟨m, h'⟩ | ⟨y, mo, d, hh, mi, s, h'⟩ | ⟨h', -⟩ <;> rw [h'] at h <;> cases h
    exact ⟨y, mo, d, hh, mi, s, rfl⟩

example := C86_only_shapes_partial (std .debug) (.moment (at_ 2017 3 31 8 0 0) - .months 1) (.outOfBounds 2017 2 8 8 0 0) (by decide +kernel) (by decide)

/-- **C28 refuted, for every expression.** The third field of an OutOfBounds error, which should be the day, always
repeats the fourth, the hour. -/
theorem C28_refuted_everywhere (c : Cfg) (hc : Sane c) (t : TT) (ht : AllMoments (·.Valid c) t) (Y M D H MI S : Int)
    (h : calculate c t = .err (.outOfBounds Y M D H MI S)) : D = H := by
  unfold Sane at hc
  exact ((calculate_named (by omega) (by omega) ht).2 _ h).2.2.1

/-- `(31 Dec 262143 + 5 hours) + 1 day` is past the end. -/
example : AllMoments (·.Valid (std .debug)) (.moment (at_ 262143 12 31 0 0 0) + .hours 5 + .days 1) ∧
    calculate (std .debug) (.moment (at_ 262143 12 31 0 0 0) + .hours 5 + .days 1) =
      .err (.outOfBounds 262144 1 5 5 0 0) ∧
    kind (.moment (at_ 262143 12 31 0 0 0) + .hours 5 + .days 1) ≠ none := by
  refine ⟨⟨⟨?_, trivial⟩, trivial⟩, by decide +kernel, by decide +kernel⟩
  show (at_ 262143 12 31 0 0 0).Valid (std .debug)
  decide +kernel

/-- **C86 (partial).** `end_of_year` and `end_of_month` of an amount are reported as such, with the value of the argument. -/
theorem C86_end_of_partial (c : Cfg) (x : TT) (u : TUnit) (n : Int) (h : calculate c x = .ok (amt u n)) :
    calculate c (.endOfYear x) = .err (.cannotCalculateEndOfYearOn (amt u n)) ∧
    calculate c (.endOfMonth x) = .err (.cannotCalculateEndOfMonthOn (amt u n)) := by
  have ha : (amt u n).isAAmount := by cases u <;> rfl
  simp only [calc_year, calc_month, h, OutE.ok_bind, endVal_amount c _ ha]
  exact ⟨rfl, rfl⟩

example := C86_end_of_partial (std .debug) (.days 2 - .hours 3) .hour 45 (by decide +kernel)

/-- **C86 refuted.** `end_of_day`, `end_of_hour` and `end_of_minute` of an amount are reported as end-of-*month*. -/
theorem C86_refuted_end_of (c : Cfg) (x : TT) (u : TUnit) (n : Int) (h : calculate c x = .ok (amt u n)) :
    calculate c (.endOfDay x) = .err (.cannotCalculateEndOfMonthOn (amt u n)) ∧
    calculate c (.endOfHour x) = .err (.cannotCalculateEndOfMonthOn (amt u n)) ∧
    calculate c (.endOfMinute x) = .err (.cannotCalculateEndOfMonthOn (amt u n)) := by
  have ha : (amt u n).isAAmount := by cases u <;> rfl
  simp only [calc_day, calc_hour, calc_minute, h, OutE.ok_bind, endVal_amount c _ ha]
  exact ⟨rfl, rfl, rfl⟩

example := C86_refuted_end_of (std .debug) (.days 1 + .hours 2) .hour 26 (by decide +kernel)

/-- **C86 refuted.** For an end-of marker on the left of an amount the error has the operands the wrong way round:
`end_of_year(x) - 1 day` is reported as "cannot subtract: 1 day - end_of_year(x)". -/
theorem C86_refuted_order (c : Cfg) (k x : TT) (hk : k = .endOfYear x ∨ k = .endOfMonth x ∨ k = .endOfDay x ∨
      k = .endOfHour x ∨ k = .endOfMinute x) (u : TUnit) (n : Int) :
    calculate c (k + amt u n) = .err (.cannotAdd (amt u n) k) ∧
    calculate c (k - amt u n) = .err (.cannotSub (amt u n) k) := by
  rw [calculate_add, calculate_sub, exec_add, exec_sub]
  rcases hk with rfl | rfl | rfl | rfl | rfl <;> cases u <;> exact ⟨rfl, rfl⟩

example := C86_refuted_order (std .debug) _ (.moment (at_ 2017 6 15 12 0 0)) (.inr (.inl rfl)) .day 1

/-- **C86 (partial).** A moment on the right of anything is reported with the operands as written, whenever the left
operand is an amount or a moment. -/
theorem C86_moment_right_partial (c : Cfg) (m m' : Moment) (u : TUnit) (n : Int) :
    calculate c (.moment m + .moment m') = .err (.cannotAdd (.moment m) (.moment m')) ∧
    calculate c (.moment m - .moment m') = .err (.cannotSub (.moment m) (.moment m')) ∧
    calculate c (amt u n + .moment m') = .err (.cannotAdd (amt u n) (.moment m')) ∧
    calculate c (amt u n - .moment m') = .err (.cannotSub (amt u n) (.moment m')) := by
  simp only [calculate_add, calculate_sub, exec_add, exec_sub]
  cases u <;> exact ⟨rfl, rfl, rfl, rfl⟩

example : calculate (std .debug) (.endOfHour (.days 2 - .hours 1)) = .err (.cannotCalculateEndOfMonthOn (.hours 47)) ∧
    calculate (std .debug) (TT.days 2 - .hours 1) = .ok (amt .hour 47) := by decide +kernel

/-- **C86, iterators (partial).** As long as nothing panics, the items of an iterator are moments or OutOfBounds errors. -/
theorem C86_iterators_partial (c : Cfg) (hc : Sane c) (m : Moment) (hm : m.Valid c) (inc : TT) (it : Iter)
    (hit : Iter.build m inc = .ok it) (k : Nat) (hp : ∀ j, j ≤ k → nth (Iter.next c) j it ≠ some .panic) :
    (∃ r : Moment, r.Valid c ∧ nth (Iter.next c) k it = some (.ok (.moment r))) ∨
    (∃ Y M D H MI S, nth (Iter.next c) k it = some (.err (.outOfBounds Y M D H MI S))) := by
  have hi : inc.isAAmount = true := by
    unfold Iter.build at hit
    cases h : inc.isAAmount <;> simp [h] at hit ⊢
  have hit' : it = ⟨.moment m, inc, false⟩ := by
    unfold Iter.build at hit
    simp [hi] at hit; exact hit.symm
  subst hit'
  have key : (∃ r : Moment, r.Valid c ∧ after (Iter.next c) (k + 1) ⟨.moment m, inc, false⟩ = live r inc ∧
        nth (Iter.next c) k ⟨.moment m, inc, false⟩ = some (.ok (.moment r))) ∨
      (∃ Y M D H MI S, Latched c (.outOfBounds Y M D H MI S) (after (Iter.next c) (k + 1) ⟨.moment m, inc, false⟩) ∧
        nth (Iter.next c) k ⟨.moment m, inc, false⟩ = some (.err (.outOfBounds Y M D H MI S))) := by
    induction k with
    | zero => exact .inl ⟨m, hm, rfl, rfl⟩
    | succ k ih =>
      have hpk := hp (k + 1) (Nat.le_refl _)
      rw [nth_eq] at hpk ⊢
      rw [after_succ']
      rcases ih (fun j hj => hp j (by omega)) with ⟨r, hr, ha, -⟩ | ⟨Y, M, D, H, MI, S, hl, -⟩
      · rw [ha] at hpk ⊢
        obtain ⟨u, n, rfl⟩ := amount_cases hi
        have hk : kind (.moment r + amt u n) = some .moment := by cases u <;> rfl
        rcases C76_moments c _ hk with ⟨m', h'⟩ | ⟨y, mo, d, hh, mi, s, h'⟩ | ⟨h', -⟩
        · unfold Sane at hc
          have ht : AllMoments (·.Valid c) (.moment r + amt u n) := by
            refine And.intro (show r.Valid c from hr) ?_
            cases u <;> trivial
          have hv := ((calculate_named (by omega) (by omega) ht).1 _ h').2
          rw [next_live_ok h']
          exact .inl ⟨m', hv, rfl, rfl⟩
        · refine .inr ⟨y, mo, d, hh, mi, s, latched_of_err hi h', ?_⟩
          rw [next_live_err h']
        · exfalso; apply hpk
          simp only [Iter.next, live, Iter.skip, Iter.recalculate, h']
          rfl
      · exact .inr ⟨Y, M, D, H, MI, S, hl.next.1, hl.next.2⟩
  rcases key with ⟨r, hr, -, h⟩ | ⟨Y, M, D, H, MI, S, -, h⟩
  · exact .inl ⟨r, hr, h⟩
  · exact .inr ⟨Y, M, D, H, MI, S, h⟩

example : nth (Iter.next (std .debug)) 3 ⟨.moment (at_ 262143 12 29 0 0 0), .days 1, false⟩ =
    some (.err (.outOfBounds 262144 1 0 0 0 0)) := by decide +kernel

end Props
