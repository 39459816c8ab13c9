import Verif.Lemmas.Cycle
import Verif.Props.SmallerUnits
import Verif.Model.Indicator

/-!
# C114: the calendar repeats every 400 years
-/

namespace Props
open Kairos Spec

/-- **C114.** Let an expression have the value `v`. Move all dates in it by the same multiple of 400 years, forwards or
backwards, to dates that exist. The expression then has the value `v`, with its date moved the same way; or it
fails because the year, which the error names, is out of bounds, or, in debug builds only, by an overflow. -/
theorem C114_expressions (c : Cfg) (hc : Sane c) (k : Int) (t v : TT) (ht : AllMoments (Moment.Valid c) t)
    (ht' : AllMoments (Moment.Valid c) (mapMoments (cyclesLater k) t)) (h : calculate c t = .ok v) :
    calculate c (mapMoments (cyclesLater k) t) = .ok (mapMoments (cyclesLater k) v) ∨
    (∃ Y M D H MI S, calculate c (mapMoments (cyclesLater k) t) = .err (.outOfBounds Y M D H MI S) ∧
      (Y < c.minYear ∨ c.maxYear < Y)) ∨
    (c.profile = .debug ∧ calculate c (mapMoments (cyclesLater k) t) = .panic) := by
  rcases calculate_cycle hc t ht ht' v h with e | e | e
  · exact .inl e
  · exact .inr (.inr e)
  · exact .inr (.inl e)

example := C114_expressions (std .debug) (sane_std _) 2 (.endOfMonth (.moment (at_ 2000 1 31 8 0 0) + .days 29)) (.moment (at_ 2000 2 29 0 0 0))
  (by simp [AllMoments, TT.hadd_def]; decide) (by simp [AllMoments, mapMoments, TT.hadd_def]; decide) (by decide +kernel)

/-- **C114.** If both succeed, the values differ by exactly that, and amounts are the same. -/
theorem C114_both (c : Cfg) (hc : Sane c) (k : Int) (t v v' : TT) (ht : AllMoments (Moment.Valid c) t)
    (ht' : AllMoments (Moment.Valid c) (mapMoments (cyclesLater k) t)) (h : calculate c t = .ok v)
    (h' : calculate c (mapMoments (cyclesLater k) t) = .ok v') : v' = mapMoments (cyclesLater k) v := by
  rcases C114_expressions c hc k t v ht ht' h with e | ⟨_, _, _, _, _, _, e, -⟩ | ⟨-, e⟩ <;> rw [e] at h' <;> cases h'
  rfl

example := C114_both (std .debug) (sane_std _) 2 (.endOfMonth (.moment (at_ 2000 1 31 8 0 0) + .days 29)) (.moment (at_ 2000 2 29 0 0 0))
  (.moment (at_ 2800 2 29 0 0 0)) (by simp [AllMoments, TT.hadd_def]; decide) (by simp [AllMoments, mapMoments, TT.hadd_def]; decide)
  (by decide +kernel) (by decide +kernel)

private theorem later_later (k : Int) (t : TT) : mapMoments (cyclesLater (-k)) (mapMoments (cyclesLater k) t) = t := by
  induction t with
  | moment m =>
    cases m
    simp only [mapMoments, cyclesLater, TT.moment.injEq, Moment.mk.injEq]
    exact ⟨by omega, trivial, trivial, trivial, trivial, trivial, trivial⟩
  | _ => simp_all [mapMoments]

/-- **C114, errors.** An error other than a year out of bounds (a day that the month does not have, two dates added up) is not
cured by the move. -/
theorem C114_errors (c : Cfg) (hc : Sane c) (k : Int) (t : TT) (ht : AllMoments (Moment.Valid c) t)
    (ht' : AllMoments (Moment.Valid c) (mapMoments (cyclesLater k) t)) (e : ErrorKind) (h : calculate c t = .err e)
    
    (he : ∀ Y M D H MI S, e = .outOfBounds Y M D H MI S → c.minYear ≤ Y ∧ Y ≤ c.maxYear) (v : TT) : calculate c (mapMoments (cyclesLater k) t) ≠ .ok v := by
  intro hv
  rcases C114_expressions c hc (-k) (mapMoments (cyclesLater k) t) v ht' (by rw [later_later]; exact ht) hv with
    g | ⟨_, _, _, _, _, _, g, g'⟩ | ⟨-, g⟩ <;> rw [later_later, h] at g <;> cases g
  have := he _ _ _ _ _ _ rfl
  omega

/-- Into February of a leap year, the same 800 years later, but not 100 years earlier; an error that is not cured; and a year out
of bounds. -/
example : calculate (std .debug) (.endOfMonth (.moment (at_ 2000 1 31 8 0 0) + .days 29)) = .ok (.moment (at_ 2000 2 29 0 0 0)) ∧
    mapMoments (cyclesLater 2) (.endOfMonth (.moment (at_ 2000 1 31 8 0 0) + .days 29)) =
      .endOfMonth (.moment (at_ 2800 1 31 8 0 0) + .days 29) ∧
    calculate (std .debug) (.endOfMonth (.moment (at_ 2800 1 31 8 0 0) + .days 29)) = .ok (.moment (at_ 2800 2 29 0 0 0)) ∧
    calculate (std .debug) (.endOfMonth (.moment (at_ 1900 1 31 8 0 0) + .days 29)) = .ok (.moment (at_ 1900 3 31 0 0 0)) ∧
    calculate (std .debug) (.endOfMonth (.days 29)) = .err (.cannotCalculateEndOfMonthOn (.days 29)) ∧
    calculate (std .debug) (.moment (at_ 2017 3 31 8 0 0) - .months 1) = .err (.outOfBounds 2017 2 8 8 0 0) ∧
    calculate (std .debug) (.moment (at_ 2417 3 31 8 0 0) - .months 1) = .err (.outOfBounds 2417 2 8 8 0 0) ∧
    calculate (std .debug) (.moment (at_ 262000 3 5 7 8 9) + .years 200) = .err (.outOfBounds 262200 3 7 7 8 9) := by
  decide +kernel

/-- **C114, iterators.** The `j`-th date of the iterator that starts `400 · k` years later is the `j`-th date of the first iterator, `400 · k` years later;
or the iterator got out of bounds, or, in debug builds only, it has panicked on the way. -/
theorem C114_iterators (c : Cfg) (hc : Sane c) (k : Int) (m : Moment) (hm : m.Valid c) (hm' : (cyclesLater k m).Valid c)
    (u : TUnit) (n : Int) (it it' : Iter) (hit : Iter.build m (amt u n) = .ok it)
    (hit' : Iter.build (cyclesLater k m) (amt u n) = .ok it') (j : Nat) (r : Moment)
    (h : nth (Iter.next c) j it = some (.ok (.moment r))) :
    nth (Iter.next c) j it' = some (.ok (.moment (cyclesLater k r))) ∨
    (∃ Y M D H MI S, nth (Iter.next c) j it' = some (.err (.outOfBounds Y M D H MI S)) ∧
      (Y < c.minYear ∨ c.maxYear < Y)) ∨
    (c.profile = .debug ∧ ∃ i ≤ j, nth (Iter.next c) i it' = some .panic) := by
  rw [(C33_build m (amt u n)).1 ⟨u, n, rfl⟩] at hit
  rw [(C33_build (cyclesLater k m) (amt u n)).1 ⟨u, n, rfl⟩] at hit'
  cases hit
  cases hit'
  have hi := amt_isAAmount u n
  have key : ∀ (j : Nat) (r : Moment), nth (Iter.next c) j ⟨.moment m, amt u n, false⟩ = some (.ok (.moment r)) → r.Valid c ∧
      ((nth (Iter.next c) j ⟨.moment (cyclesLater k m), amt u n, false⟩ = some (.ok (.moment (cyclesLater k r))) ∧
          (cyclesLater k r).Valid c ∧
          after (Iter.next c) (j + 1) ⟨.moment (cyclesLater k m), amt u n, false⟩ = live (cyclesLater k r) (amt u n)) ∨
        (∃ Y M D H MI S, nth (Iter.next c) j ⟨.moment (cyclesLater k m), amt u n, false⟩ = some (.err (.outOfBounds Y M D H MI S)) ∧ (Y < c.minYear ∨ c.maxYear < Y) ∧
          Latched c (.outOfBounds Y M D H MI S) (after (Iter.next c) (j + 1) ⟨.moment (cyclesLater k m), amt u n, false⟩)) ∨
        (c.profile = .debug ∧ ∃ i ≤ j, nth (Iter.next c) i ⟨.moment (cyclesLater k m), amt u n, false⟩ = some .panic)) := by
    intro j
    induction j with
    | zero => intro r h; cases h; exact ⟨hm, .inl ⟨rfl, hm', rfl⟩⟩
    | succ j ih =>
      intro r h
      obtain ⟨r', h1, h2⟩ := previous_item hi h
      obtain ⟨v, ih⟩ := ih r' h1
      refine ⟨(C15_computed c _ r (fun p hp => by cases hp) h2).1, ?_⟩
      rcases ih with ⟨-, v', ha⟩ | ⟨Y, M, D, H, MI, S, -, hY, hl⟩ | ⟨hd, i, hij, hp⟩
      · have hmap : mapMoments (cyclesLater k) (.moment r' + amt u n) = .moment (cyclesLater k r') + amt u n := by cases u <;> rfl
        have hcyc := C114_expressions c hc k (.moment r' + amt u n) (.moment r) (by cases u <;> exact ⟨v, trivial⟩)
          (by rw [hmap]; cases u <;> exact ⟨v', trivial⟩) h2
        rw [hmap] at hcyc
        rw [nth_eq, after_succ' _ (j + 1), ha]
        rcases hcyc with e | ⟨Y, M, D, H, MI, S, e, hY⟩ | ⟨hd, e⟩
        · exact .inl ⟨by rw [next_live_ok e], (C15_computed c _ _ (fun p hp => by cases hp) e).1, by rw [next_live_ok e]⟩
        · exact .inr (.inl ⟨Y, M, D, H, MI, S, by rw [next_live_err e], hY, latched_of_err hi e⟩)
        · refine .inr (.inr ⟨hd, j + 1, Nat.le_refl _, ?_⟩)
          rw [nth_eq, ha]
          simp only [Iter.next, live, Iter.skip, Iter.recalculate, e]; rfl
      · exact .inr (.inl ⟨Y, M, D, H, MI, S, by rw [nth_eq]; exact hl.next.2, hY, by rw [after_succ']; exact hl.next.1⟩)
      · exact .inr (.inr ⟨hd, i, by omega, hp⟩)
  rcases (key j r h).2 with ⟨e, -⟩ | ⟨Y, M, D, H, MI, S, e, hY, -⟩ | e
  · exact .inl e
  · exact .inr (.inl ⟨Y, M, D, H, MI, S, e, hY⟩)
  · exact .inr (.inr e)

/-- A monthly iterator, 400 years apart. -/
example : ∃ it it', Iter.build (at_ 2020 1 29 8 0 0) (amt .month 1) = .ok it ∧
    Iter.build (cyclesLater (-1) (at_ 2020 1 29 8 0 0)) (amt .month 1) = .ok it' ∧
    nth (Iter.next (std .debug)) 3 it = some (.ok (.moment (at_ 2020 4 29 8 0 0))) ∧
    nth (Iter.next (std .debug)) 3 it' = some (.ok (.moment (at_ 1620 4 29 8 0 0))) :=
  ⟨_, _, rfl, rfl, by decide +kernel, by decide +kernel⟩

/-- **C114, weekdays and months.** The questions `is_a` and `is_in` have the same answers `400 · k` years later: 400 years are
20871 weeks. -/
theorem C114_weekdays (k : Int) (m : Moment) :
    (∀ d : Day, TT.isA (.moment (cyclesLater k m)) d = TT.isA (.moment m) d) ∧
    (∀ x : Month, TT.isIn (.moment (cyclesLater k m)) x = TT.isIn (.moment m) x) ∧
    Cal.dayNumber (cyclesLater k m).year m.month m.day = Cal.dayNumber m.year m.month m.day + 7 * 20871 * k := by
  have hd : Cal.dayNumber (m.year + 400 * k) m.month m.day = Cal.dayNumber m.year m.month m.day + 7 * 20871 * k := by
    unfold Cal.dayNumber Cal.daysBeforeYear Cal.daysBeforeMonth
    rw [isLeap_cycle]
    omega
  refine ⟨fun d => ?_, fun x => rfl, hd⟩
  have : (cyclesLater k m).weekday = m.weekday := by
    simp only [Moment.weekday, cyclesLater, Cal.weekday, hd]
    omega
  simp only [TT.isA, this]

/-- A leap day that is a Saturday. -/
example : TT.isA (.moment (at_ 2020 2 29 0 0 0)) .saturday = .ok true ∧ TT.isA (.moment (at_ 1620 2 29 0 0 0)) .saturday = .ok true ∧
    cyclesLater (-1) (at_ 2020 2 29 0 0 0) = at_ 1620 2 29 0 0 0 := by
  decide +kernel

end Props
