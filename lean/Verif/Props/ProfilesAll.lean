import Verif.Lemmas.ProfileIter
import Verif.Lemmas.NoPanic
import Verif.Props.Values
import Verif.Props.ParserDates

/-!
# C26, C61: the two build profiles, beyond `calculate`

C26 compares a run of the overflow-checked build with the run of the wrapping build on the same inputs.
-/

namespace Props
open Kairos Spec Parser

/-- **C26, accessors.** Whenever an accessor does not panic in the checked build, it returns the same number in the wrapping one. -/
theorem C26_accessors (c : Cfg) (t : TT) (u : TUnit) (h : get { c with profile := .debug } u t ≠ .panic) :
    get { c with profile := .release } u t = get { c with profile := .debug } u t := by
  have key : Agree (get c.debug u t) (get c.release u t) := by
    cases u <;> cases t <;> unfold get <;>
      simp only [TT.getSeconds, TT.getMinutes, TT.getHours, TT.getDays, TT.getMonths, TT.getYears] <;>
      first | exact .refl _ | exact agree_mulL c _ _ | exact agree_chk c _
  rcases key with h' | h'
  · exact absurd h' h
  · exact h'.symm

example : get (std .debug) .second (.years 10) ≠ .panic := by decide +kernel
/-- The hypothesis matters: the two builds differ on `get_seconds` of 2^62 minutes. -/
example : get (std .debug) .second (.minutes 4611686018427387904) = .panic ∧
    get (std .release) .second (.minutes 4611686018427387904) = .ok 0 := by decide +kernel

/-- **C26, constructors.** The same for `weeks(n)` and `weekly(n)`, the only constructors that compute something. -/
theorem C26_constructors (c : Cfg) (t : TT) (n : Int) :
    (TT.weeks { c with profile := .debug } n ≠ .panic →
      TT.weeks { c with profile := .release } n = TT.weeks { c with profile := .debug } n) ∧
    (Ext.weekly { c with profile := .debug } t n ≠ .panic →
      Ext.weekly { c with profile := .release } t n = Ext.weekly { c with profile := .debug } t n) := by
  constructor
  · intro h
    exact ((agree_weeks c n).resolve_left h).symm
  · intro h
    have key : Agree (Ext.weekly c.debug t n) (Ext.weekly c.release t n) := by
      unfold Ext.weekly Ext.mk
      split
      · exact Agree.bind ((agree_chk c _).bind fun _ => .refl _) fun _ => .refl _
      · exact .refl _
    exact (key.resolve_left h).symm

example : TT.weeks (std .debug) 3 ≠ .panic ∧ Ext.weekly (std .debug) (.moment (at_ 2017 1 1 0 0 0)) 3 ≠ .panic := by
  decide +kernel

/-- **C26, iterators.** As long as no call of `next` panics in the checked build, both builds deliver the same items. -/
theorem C26_iterator (c : Cfg) (it : Iter) (n : Nat)
    (h : ∀ k, k < n → nth (Iter.next { c with profile := .debug }) k it ≠ some .panic) (k : Nat) (hk : k < n) :
    nth (Iter.next { c with profile := .release }) k it = nth (Iter.next { c with profile := .debug }) k it :=
  (iter_agree c).nth n it h k hk

example := C26_iterator (std .debug) ⟨.moment (at_ 2017 1 31 0 0 0), .days 1, false⟩ 3 (by decide +kernel) 2 (by decide)

/-- **C26, iterators from texts**: the same, with `times` and `until`. -/
theorem C26_user_iterator (c : Cfg) (u : UserIterator) (n : Nat)
    (h : ∀ k, k < n → nth (UserIterator.next { c with profile := .debug }) k u ≠ some .panic) (k : Nat) (hk : k < n) :
    nth (UserIterator.next { c with profile := .release }) k u = nth (UserIterator.next { c with profile := .debug }) k u :=
  (user_agree c).nth n u h k hk

/-- Two items, with no panic; both hypotheses are met. -/
example (k : Nat) (hk : k < 2) :
    nth (Iter.next (std .debug)) k ⟨.moment (at_ 2017 1 1 0 0 0), .days 1, false⟩ ≠ some .panic ∧
    nth (UserIterator.next (std .debug)) k (.untilIterator ⟨.moment (at_ 2017 1 1 0 0 0), .days 1, false⟩ (at_ 2017 1 2 0 0 0)) ≠
      some .panic := by
  revert k
  decide +kernel

/-- **C26, adaptors.** Any pile of `times`, `until`, `every` and `without` on an iterator behaves like that. `nx` is what the checked build does on
the inner iterator, `nx'` what the wrapping build does: if they only differ where the checked build panics, the same holds with one more adaptor around it. -/
theorem C26_adaptors {σ : Type} (c : Cfg) (nx nx' : σ → σ × Item) (h : ∀ s, (nx s).2 = some .panic ∨ nx s = nx' s)
    (ending : Moment) (matcher : TT → Out Bool) (fuel : Nat) :
    (∀ s, (untilNext { c with profile := .debug } nx ending s).2 = some .panic ∨
      untilNext { c with profile := .debug } nx ending s = untilNext { c with profile := .release } nx' ending s) ∧
    (∀ s, (timesNext { c with profile := .debug } nx s).2 = some .panic ∨
      timesNext { c with profile := .debug } nx s = timesNext { c with profile := .release } nx' s) ∧
    (∀ s, (filterNext nx matcher fuel s).2 = some .panic ∨ filterNext nx matcher fuel s = filterNext nx' matcher fuel s) ∧
    (∀ s, (withoutNext nx matcher fuel s).2 = some .panic ∨ withoutNext nx matcher fuel s = withoutNext nx' matcher fuel s) :=
  ⟨until_agree c h ending, times_agree c h, filter_agree h matcher fuel, without_agree h matcher fuel⟩

/-- The innermost layer: `Iter` itself. -/
example (c : Cfg) (s : Iter) : (Iter.next { c with profile := .debug } s).2 = some .panic ∨
    Iter.next { c with profile := .debug } s = Iter.next { c with profile := .release } s := iter_agree c s

/-- **C26, texts.** Whenever `parse` does not panic in the checked build, it returns the same in the wrapping one. -/
theorem C26_parse (c : Cfg) (iso : Iso) (now now' : Moment) (s : List Char)
    (h : parse { c with profile := .debug } iso now now' s ≠ .panic) :
    parse { c with profile := .release } iso now now' s = parse { c with profile := .debug } iso now now' s :=
  ((parse_agree c iso now now' s).resolve_left h).symm

example : parse (std .debug) noIso (at_ 2017 1 1 0 0 0) (at_ 2017 1 1 0 0 0) "today + 3days weekly 5 times".toList ≠ .panic := by
  decide +kernel

/-- **C26, the program.** Whenever the checked build of the program does not panic, the wrapping build prints the same lines and ends in the same way. -/
theorem C26_program (c : Cfg) (iso : Iso) (now now' : Moment) (rounds : Nat) (args : List (List Char))
    (h : (Main.main { c with profile := .debug } iso now now' rounds args).ending ≠ .panicked) :
    Main.main { c with profile := .release } iso now now' rounds args =
      Main.main { c with profile := .debug } iso now now' rounds args :=
  ((main_agree c iso now now' rounds args).resolve_left h).symm

example : (Main.main (std .debug) noIso (at_ 2017 1 1 0 0 0) (at_ 2017 1 1 0 0 0) 10
    ["today".toList, "weekly".toList, "2".toList, "times".toList]).ending ≠ .panicked := by decide +kernel

/-! ## C61: no panics in the wrapping build -/

private theorem iter_np (c : Cfg) (it : Iter) : (Iter.next c.release it).2 ≠ some .panic := by
  have hr : ∀ j : Iter, (j.recalculate c.release).2 ≠ .panic := by
    intro j
    unfold Iter.recalculate
    have := calculate_np c j.base
    cases h : calculate c.release j.base with
    | panic => exact absurd h this
    | ok v => exact (nomatch ·)
    | err e => exact (nomatch ·)
    | oof => exact (nomatch ·)
  unfold Iter.next
  by_cases hf : it.hadFirst = true
  · simp only [hf, Bool.not_true, Bool.false_eq_true, if_false]
    have := hr { it with base := it.base + it.increment }
    unfold Iter.skip
    rcases h : Iter.recalculate c.release { it with base := it.base + it.increment } with ⟨j, r⟩
    rw [h] at this
    cases r with
    | panic => exact absurd rfl this
    | ok v => exact (nomatch ·)
    | err e => exact (nomatch ·)
    | oof => exact (nomatch ·)
  · simp only [hf, Bool.not_false, if_true]
    exact (nomatch ·)

private theorem until_np {σ : Type} (c : Cfg) (nx : σ → σ × Item) (h : ∀ s, (nx s).2 ≠ some .panic) (e : Moment) (s : σ) :
    (untilNext c.release nx e s).2 ≠ some .panic := by
  unfold untilNext
  have hs := h s
  rcases hn : nx s with ⟨s', r⟩
  rw [hn] at hs
  cases r with
  | none => exact (nomatch ·)
  | some r =>
    cases r with
    | ok t =>
      simp only
      have := calculate_np c t
      cases ht : calculate c.release t with
      | ok v =>
        simp only
        cases v.getMoment with
        | none => exact (nomatch ·)
        | some m => simp only; split <;> exact (nomatch ·)
      | err e => exact (nomatch ·)
      | panic => exact absurd ht this
      | oof => exact (nomatch ·)
    | err e => exact (nomatch ·)
    | panic => exact absurd rfl hs
    | oof => exact (nomatch ·)

private theorem times_np {σ : Type} (c : Cfg) (nx : σ → σ × Item) (h : ∀ s, (nx s).2 ≠ some .panic) (s : TimesState σ) :
    (timesNext c.release nx s).2 ≠ some .panic := by
  unfold timesNext
  split
  · exact (nomatch ·)
  · have hk : (c.release.add s.count 1 : Out Int) ≠ .panic := by
      unfold Cfg.add Cfg.chk Cfg.release
      split <;> exact (nomatch ·)
    cases ha : (c.release.add s.count 1 : Out Int) with
    | ok n => exact h s.inner
    | err e => exact (nomatch ·)
    | panic => exact absurd ha hk
    | oof => exact (nomatch ·)

private theorem user_np (c : Cfg) (u : UserIterator) : (UserIterator.next c.release u).2 ≠ some .panic := by
  cases u with
  | iterator it => exact iter_np c it
  | timesIter s => exact times_np c _ (iter_np c) s
  | untilIterator it e => exact until_np c _ (iter_np c) e it

private theorem nth_np {σ : Type} (nx : σ → σ × Item) (h : ∀ s, (nx s).2 ≠ some .panic) (k : Nat) (s : σ) :
    nth nx k s ≠ some .panic := by
  induction k generalizing s with
  | zero => exact h s
  | succ k ih => exact ih _

/-- **C61, iterators.** No item of an iterator, plain or from a text (with `times` or `until`), is a panic in the wrapping build. -/
theorem C61_iterators (c : Cfg) (it : Iter) (u : UserIterator) (k : Nat) :
    nth (Iter.next { c with profile := .release }) k it ≠ some .panic ∧
    nth (UserIterator.next { c with profile := .release }) k u ≠ some .panic :=
  ⟨nth_np _ (iter_np c) k it, nth_np _ (user_np c) k u⟩

/-- **C61, accessors.** -/
theorem C61_accessors (c : Cfg) (u : TUnit) (t : TT) : get { c with profile := .release } u t ≠ .panic := by
  have hm : ∀ (l : List Int) (a : Int), (c.release.mulL a l : Out Int) ≠ .panic := by
    intro l
    induction l with
    | nil => exact fun a => (nomatch ·)
    | cons k ks ih =>
      intro a
      unfold Cfg.mulL Cfg.mul Cfg.chk
      split
      · exact ih _
      · exact ih _
  have hk : ∀ x : Int, (c.release.chk x : Out Int) ≠ .panic := by
    intro x
    unfold Cfg.chk Cfg.release
    split <;> exact (nomatch ·)
  cases u <;> cases t <;> unfold get <;>
    simp only [TT.getSeconds, TT.getMinutes, TT.getHours, TT.getDays, TT.getMonths, TT.getYears] <;>
    first | exact hm _ _ | exact hk _ | exact (nomatch ·)

/-- **C61, the program.** Whatever its arguments, the program does not panic in the wrapping build. -/
theorem C61_program (c : Cfg) (iso : Iso) (now now' : Moment) (rounds : Nat) (args : List (List Char)) :
    (Main.main { c with profile := .release } iso now now' rounds args).ending ≠ .panicked := by
  have hp : ∀ (n : Nat) (u : UserIterator), (Main.printItems c.release n u).ending ≠ .panicked := by
    intro n
    induction n with
    | zero => exact fun u => (nomatch ·)
    | succ n ih =>
      intro u
      unfold Main.printItems
      have hu := user_np c u
      rcases hn : UserIterator.next c.release u with ⟨u', r⟩
      rw [hn] at hu
      cases r with
      | none => exact (nomatch ·)
      | some r =>
        cases r with
        | ok t => exact ih u'
        | err e => exact (nomatch ·)
        | panic => exact absurd rfl hu
        | oof => exact (nomatch ·)
  have hq := C52_release_never_panics_partial c iso now now' (Main.commandLine args)
  unfold Main.main
  cases h : parse { c with profile := .release } iso now now' (Main.commandLine args) with
  | panic => exact absurd h hq
  | oof => exact (nomatch ·)
  | err e => exact (nomatch ·)
  | ok p =>
    cases p with
    | timeType t =>
      simp only
      have := calculate_np c t
      cases ht : calculate { c with profile := .release } t with
      | panic => exact absurd ht this
      | ok v => exact (nomatch ·)
      | err e => exact (nomatch ·)
      | oof => exact (nomatch ·)
    | iterator r =>
      cases r with
      | ok u => exact hp rounds u
      | error e => exact (nomatch ·)

/-- Here the checked build does panic. -/
example : (Main.main (std .debug) noIso (at_ 2017 1 1 0 0 0) (at_ 2017 1 1 0 0 0) 10
      ["today + 9223372036854775807seconds + 9223372036854775807seconds daily".toList]).ending = .panicked := by
  have h : Main.commandLine ["today + 9223372036854775807seconds + 9223372036854775807seconds daily".toList] =
      "today + 9223372036854775807seconds + 9223372036854775807seconds daily".toList := by decide +kernel
  unfold Main.main
  rw [h, C52_refuted]

end Props
