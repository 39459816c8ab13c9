import Verif.Lemmas.ParserSafe
import Verif.Lemmas.ParserIter
import Verif.Lemmas.ShortNumbers
import Verif.Props.ParserAmounts

/-!
# C63, C52, C65: no panics on inputs of reasonable size, and nothing but the grammar is accepted
-/

namespace Props
open Kairos Kairos.Parser Spec

/-! ## C63 -/

/-- **C63.** Whatever the build profile, `calculate` does not panic on an expression of valid moments and amounts of at
most 4·10^18 seconds in total. -/
theorem C63_checked_no_panic (c : Cfg) (hc : Sane c) (t : TT) (hk : AllMoments (·.Valid c) t)
    (hB : total t ≤ 4000000000000000000) : calculate c t ≠ .panic :=
  (calculate_safe c hc t hB hk).1

example := C63_checked_no_panic (std .debug) (sane_std _) (.endOfMonth (.moment (at_ 2017 6 15 0 0 0) + .days 100000) )
  (by simp [AllMoments, TT.hadd_def]; decide) (by decide)

/-- **C63.** If the result is a moment it is valid, and if it is an amount it is no larger than the amounts together. -/
theorem C63_result_bounded (c : Cfg) (hc : Sane c) (t v : TT) (hk : AllMoments (·.Valid c) t)
    (hB : total t ≤ 4000000000000000000) (h : calculate c t = .ok v) :
    total v ≤ total t ∧ AllMoments (·.Valid c) v :=
  (calculate_safe c hc t hB hk).2 v h

example : let t : TT := .endOfMonth (.moment (at_ 2017 2 28 8 30 0) + (.years 100000000000 - .days 5)) - .months (-7)
    AllMoments (·.Valid (std .debug)) t ∧ total t ≤ 4000000000000000000 ∧ 3000000000000000000 ≤ total t := by
  refine ⟨⟨⟨(by decide : (at_ 2017 2 28 8 30 0).Valid (std .debug)), trivial, trivial⟩, trivial⟩, ?_⟩
  decide

/-- Some bound is needed: these amounts add up to 2^63 seconds, and the checked build panics. -/
theorem C63_bound_needed :
    total (.seconds 9223372036854775807 + .seconds 1) = 2 ^ 63 ∧
    calculate (std .debug) (.seconds 9223372036854775807 + .seconds 1) = .panic := by decide +kernel

/-! ## C52 -/

/-- **C52 (partial).** No build panics on a text of at most 1000 characters with no number of more than 8 digits. The ISO
8601 parsers are a dependency; the clock shows valid moments. Missing: longer numbers, on which the checked build can
panic, see `C52_refuted`. -/
theorem C52_short_texts_partial (c : Cfg) (hc : Sane c) (iso : Iso) (hi : IsoSane iso) (now now' : Moment)
    (hn : now.Valid c) (hn' : now'.Valid c) (s : List Char) (hs : ShortNumbers 8 s) (hl : s.length ≤ 1000) :
    parse c iso now now' s ≠ .panic :=
  parse_short_np c hc hi now now' hn hn' s hs hl

example := C52_short_texts_partial (std .debug) (sane_std _) noIso isoSane_noIso (at_ 2017 1 1 0 0 0) (at_ 2017 1 1 0 0 0) (by decide) (by decide)
  "today + 99999999 weeks every 7 years".toList (shortNumbers_of_maxRun (by decide +kernel)) (by decide)

/-- **C52 (partial).** No build panics on a text of any length without a number of more than 18 digits, if the text does
not start with an iterator. -/
theorem C52_no_iterator_partial (c : Cfg) (iso : Iso) (hi : IsoSane iso) (now now' : Moment) (s : List Char)
    (hs : ShortNumbers 18 s) (hno : ∀ d unit n u t rest, s = t ++ rest → ¬ IterAt iso d unit n u t rest) :
    parse c iso now now' s ≠ .panic :=
  parse_short18_np c hi now now' s hs hno

example : parse (std .debug) noIso (at_ 2017 1 1 0 0 0) (at_ 2017 1 1 0 0 0)
    "yesterday - 99999999 years + 99999999 weeks every 99999999 months until tomorrow".toList ≠ .panic :=
  C52_short_texts_partial (std .debug) (by decide) noIso isoSane_noIso _ _ (by decide) (by decide) _
    (shortNumbers_of_maxRun (by decide +kernel)) (by decide)

/-! ## C65 -/

/-- **C65.** A text is accepted only if a part of it from the start on is written in the grammar: what `parse` returns is
the meaning of that part. `rest` is ignored. -/
theorem C65_only_dates_and_amounts (c : Cfg) (iso : Iso) (hi : IsoSane iso) (now now' : Moment) (s : List Char) (v : TT)
    (h : parse c iso now now' s = .ok (.timeType v)) :
    (∃ t rest d, s = t ++ rest ∧ DateAt iso d t rest ∧ dateMeans c now d = .value v) ∨
    (∃ t rest e, s = t ++ rest ∧ ExprText e t ∧ amountsMean c e = .value v) := by
  unmean
  rcases parse_cases c iso now now' s with ⟨r, it, -, e⟩ | ⟨-, r, t, ht, e⟩ | ⟨-, -, e⟩
  · rw [e] at h
    cases hx : it.intoUserIterator c now now' <;> rw [hx] at h <;> cases h
  · rw [e] at h
    have hv : t.intoTimetype c now = .ok v := by
      cases hx : t.intoTimetype c now <;> rw [hx] at h <;> cases h
      rfl
    rcases timetype_done hi ht with ⟨d, tx, rfl, hd, rfl⟩ | ⟨a, tx, rfl, ha, rfl⟩
    · exact .inl ⟨tx, r, d, rfl, hd, hv⟩
    · exact .inr ⟨tx, r, a, rfl, ha, hv⟩
  · rw [e] at h; cases h

example := C65_only_dates_and_amounts (std .debug) noIso isoSane_noIso (at_ 2017 1 1 0 0 0) (at_ 2017 1 1 0 0 0) "today - 5days?".toList
  (.moment (at_ 2017 1 1 0 0 0) - .days 5) (by decide +kernel)

/-- **C65.** An iterator is returned only for the text of an iterator: it starts at the value of its date, has its step and
its bound. -/
theorem C65_only_iterators (c : Cfg) (iso : Iso) (hi : IsoSane iso) (now now' : Moment) (s : List Char)
    (x : Except ErrorKind UserIterator) (h : parse c iso now now' s = .ok (.iterator x)) :
    ∃ t rest d unit n u, s = t ++ rest ∧ IterAt iso d unit n u t rest ∧
      ∀ ui, x = .ok ui → ∃ v m step, dateMeans c now d = .value v ∧ calculate c v = .ok (.moment m) ∧
        ((unit = .week → InI64 (7 * n)) → step = unitAmount unit n) ∧
        match u with
        | none => ui = .iterator ⟨.moment m, step, false⟩
        | some (.times k) => ui = .timesIter (timesNew ⟨.moment m, step, false⟩ k)
        | some (.exact e) => ∃ w m', exactMeans c now' e = .value w ∧ calculate c w = .ok (.moment m') ∧
            ui = .untilIterator ⟨.moment m, step, false⟩ m' := by
  unmean
  have ndt : ∀ v m, intoNdt c v = .ok m → calculate c v = .ok (.moment m) := by
    intro v m hv
    unfold intoNdt at hv
    cases hc : calculate c v with
    | ok w =>
      rw [hc] at hv
      cases w <;> first | (cases hv; done) | (cases hv; rfl)
    | err e => rw [hc] at hv; cases hv
    | panic => rw [hc] at hv; cases hv
    | oof => rw [hc] at hv; cases hv
  have bd : ∀ m t i, Iter.build m t = .ok i → i = ⟨.moment m, t, false⟩ := by
    intro m t i hb
    unfold Iter.build at hb
    split at hb <;> cases hb
    rfl
  rcases parse_cases c iso now now' s with ⟨r, it, hit, e⟩ | ⟨-, r, t, ht, e⟩ | ⟨-, -, e⟩
  · rw [e] at h
    obtain ⟨unit, n, t, hI, rfl, hr, -⟩ := iterator_done c hi hit
    refine ⟨t, r, it.date, unit, n, it.until_, rfl, hI, ?_⟩
    rintro ui rfl
    have hx : it.intoUserIterator c now now' = .ok ui := by
      cases hx : it.intoUserIterator c now now' <;> rw [hx] at h <;> cases h
      rfl
    unfold PIterator.intoUserIterator at hx
    obtain ⟨step, hs, hx⟩ := bind_ok_inv hx
    rw [hr] at hs
    have hstep : (unit = .week → InI64 (7 * n)) → step = unitAmount unit n := by
      intro hw
      rw [unitToAmount_eq c n unit hw] at hs
      cases hs; rfl
    cases hu : it.until_ with
    | none =>
      rw [hu] at hx
      simp only at hx
      obtain ⟨v, h1, hx⟩ := bind_ok_inv hx
      obtain ⟨m, h2, hx⟩ := bind_ok_inv hx
      obtain ⟨i, h3, hx⟩ := bind_ok_inv hx
      cases hx
      exact ⟨v, m, step, h1, ndt _ _ h2, hstep, by rw [bd _ _ _ h3]⟩
    | some u =>
      cases u with
      | exact e =>
        rw [hu] at hx
        simp only at hx
        obtain ⟨v, h1, hx⟩ := bind_ok_inv hx
        obtain ⟨m, h2, hx⟩ := bind_ok_inv hx
        obtain ⟨w, h4, hx⟩ := bind_ok_inv hx
        obtain ⟨m', h5, hx⟩ := bind_ok_inv hx
        obtain ⟨i, h3, hx⟩ := bind_ok_inv hx
        cases hx
        exact ⟨v, m, step, h1, ndt _ _ h2, hstep, w, m', h4, ndt _ _ h5, by rw [bd _ _ _ h3]⟩
      | times k =>
        rw [hu] at hx
        simp only at hx
        obtain ⟨v, h1, hx⟩ := bind_ok_inv hx
        obtain ⟨m, h2, hx⟩ := bind_ok_inv hx
        obtain ⟨i, h3, hx⟩ := bind_ok_inv hx
        cases hx
        exact ⟨v, m, step, h1, ndt _ _ h2, hstep, by simp only [bd _ _ _ h3]⟩
  · rw [e] at h
    cases hx : t.intoTimetype c now <;> rw [hx] at h <;> cases h
  · rw [e] at h; cases h

/-- The rest of the text is ignored, whatever it is. -/
example : parse (std .debug) noIso (at_ 2017 1 1 8 0 0) (at_ 2017 1 1 8 0 0) "tomorrow + 5 minutes every 2 days 3 times or so".toList =
    .ok (.iterator (.ok (.timesIter (timesNew ⟨.moment (at_ 2017 1 2 8 5 0), .days 2, false⟩ 3)))) := by decide +kernel
example : parse (std .debug) noIso (at_ 2017 1 1 8 0 0) (at_ 2017 1 1 8 0 0) "5 minutes every 2 days".toList =
    .ok (.timeType (.minutes 5)) := by decide +kernel

end Props
