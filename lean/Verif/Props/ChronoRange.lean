import Verif.Lemmas.ChronoRange
import Verif.Spec.Pipeline
import Verif.Spec.Chain
import Verif.Props.ParserDates

/-!
# C148: a release of chrono with a wider range of years
-/

namespace Props
open Kairos Spec Parser

/-- **C148.** With a wider range of years `calculate` gives the same value, error or panic, unless it was an error because of the range: out of
bounds, in a year that the narrower range does not have and the wider one has. -/
theorem C148_calculate (c c' : Cfg) (h : Wider c c') (t : TT)
    (hr : ∀ e, TooNarrow c c' e → calculate c t ≠ .err e) : calculate c' t = calculate c t := by
  rcases calculate_narrow h t with ⟨e, he, h'⟩ | h'
  · exact absurd h' (hr e he)
  · exact h'.symm

/-- **C148.** In particular, values stay what they are. -/
theorem C148_values (c c' : Cfg) (h : Wider c c') (t v : TT) (hv : calculate c t = .ok v) : calculate c' t = .ok v := by
  rw [C148_calculate c c' h t (by rw [hv]; exact fun e _ => nofun), hv]

/-- **C148.** And what fails with the wider range failed with the narrower one: if not with the same error, then because of the range. -/
theorem C148_failures (c c' : Cfg) (h : Wider c c') (t : TT) (e : ErrorKind) (he : calculate c' t = .err e) :
    ∃ e', calculate c t = .err e' ∧ (e' = e ∨ TooNarrow c c' e') := by
  rcases calculate_narrow h t with ⟨e', he', h'⟩ | h'
  · exact ⟨e', h', .inr he'⟩
  · exact ⟨e, by rw [h', he], .inl rfl⟩

/-! ### iterators -/

private def Related (c c' : Cfg) (x y : Chained) : Prop :=
  ∃ (σ : Type) (nx nx' : Nat → σ → σ × Item) (s : σ), x = ⟨σ, nx, s⟩ ∧ y = ⟨σ, nx', s⟩ ∧ ∀ r, StepNarrow c c' (nx r) (nx' r)

private theorem related_chain {c c' : Cfg} (h : Wider c c') (as : List Adaptor) :
    ∀ {x y : Chained}, Related c c' x y → Related c c' (as.foldl (Chained.adapt c) x) (as.foldl (Chained.adapt c') y) := by
  induction as with
  | nil => exact fun h => h
  | cons a as ih =>
    intro x y hx
    refine ih ?_
    obtain ⟨σ, nx, nx', s, rfl, rfl, hn⟩ := hx
    cases a with
    | times n => exact ⟨_, _, _, _, rfl, rfl, fun r => times_narrow h (hn r)⟩
    | «until» e => exact ⟨_, _, _, _, rfl, rfl, fun r => until_narrow h (hn r) e⟩
    | every t => exact ⟨_, _, _, _, rfl, rfl, fun r => filter_narrow (hn r) t.matcher r⟩
    | without t => exact ⟨_, _, _, _, rfl, rfl, fun r => without_narrow (hn r) t.matcher r⟩

/-- **C148, iterators with any adaptors.** With a wider range all calls of `next` return the same, up to the first that returned an error because of
the range. -/
theorem C148_iterators (c c' : Cfg) (h : Wider c c') (it : Iter) (as : List Adaptor) (rounds n : Nat)
    (hr : ∀ k, k < n → ∀ e, TooNarrow c c' e → (chained c it as).call rounds k ≠ some (.err e)) (k : Nat) (hk : k < n) :
    (chained c' it as).call rounds k = (chained c it as).call rounds k := by
  obtain ⟨σ, nx, nx', s, h1, h2, h3⟩ := related_chain h as (x := ⟨Iter, fun _ => Iter.next c, it⟩)
    (y := ⟨Iter, fun _ => Iter.next c', it⟩) ⟨_, _, _, _, rfl, rfl, fun _ => iter_narrow h⟩
  have h1 : chained c it as = ⟨σ, nx, s⟩ := h1
  have h2 : chained c' it as = ⟨σ, nx', s⟩ := h2
  rw [h1] at hr
  rw [h1, h2]
  exact (h3 rounds).nth n s hr k hk

/-- **C148, skipping and going back.** -/
theorem C148_skip_rollback (c c' : Cfg) (h : Wider c c') (it : Iter) :
    ((∀ e, TooNarrow c c' e → (it.skip c).2 ≠ .err e) → it.skip c' = it.skip c) ∧
    ((∀ e, TooNarrow c c' e → (it.rollback c).2 ≠ .err e) → it.rollback c' = it.rollback c) := by
  refine ⟨fun hr => ?_, fun hr => ?_⟩
  · rcases recalculate_narrow h { it with base := it.base + it.increment } with ⟨e, he, h'⟩ | h'
    · exact absurd h' (hr e he)
    · exact h'.symm
  · rcases recalculate_narrow h { it with base := it.base - it.increment } with ⟨e, he, h'⟩ | h'
    · exact absurd h' (hr e he)
    · exact h'.symm

/-! ### texts -/

/-- **C148, texts.** With a wider range a text is read as the same, unless there was an error because of the range. -/
theorem C148_parse (c c' : Cfg) (h : Wider c c') (iso : Iso) (now now' : Moment) (s : List Char)
    (hr : ∀ e, TooNarrow c c' e → parse c iso now now' s ≠ .err e ∧ parse c iso now now' s ≠ .ok (.iterator (.error e))) :
    parse c' iso now now' s = parse c iso now now' s := by
  rcases parse_narrow h iso now now' s with ⟨e, he, h' | h'⟩ | h'
  · exact absurd h' (hr e he).1
  · exact absurd h' (hr e he).2
  · exact h'.symm

/-- **C148, iterators read from texts.** -/
theorem C148_user_iterator (c c' : Cfg) (h : Wider c c') (u : UserIterator) (n : Nat)
    (hr : ∀ k, k < n → ∀ e, TooNarrow c c' e → nth (UserIterator.next c) k u ≠ some (.err e)) (k : Nat) (hk : k < n) :
    nth (UserIterator.next c') k u = nth (UserIterator.next c) k u :=
  (user_narrow h).nth n u hr k hk

/-! ### the program -/

private theorem print_narrow {c c' : Cfg} (h : Wider c c') (n : Nat) : ∀ u : UserIterator,
    (∃ e front, TooNarrow c c' e ∧ (Main.printItems c n u).lines = front ++ [.errorCalculating e] ∧
      front <+: (Main.printItems c' n u).lines) ∨ Main.printItems c n u = Main.printItems c' n u := by
  induction n with
  | zero => exact fun u => .inr rfl
  | succ n ih =>
    intro u
    unfold Main.printItems
    rcases user_narrow h u with ⟨e, he, h'⟩ | h'
    · left
      rcases hn : UserIterator.next c u with ⟨s', r⟩
      rw [hn] at h'
      simp only at h'
      subst h'
      exact ⟨e, [], he, rfl, List.nil_prefix⟩
    · rw [← h']
      rcases hn : UserIterator.next c u with ⟨s', r⟩
      cases r with
      | none => exact .inr rfl
      | some r =>
        cases r with
        | ok t =>
          simp only
          rcases ih s' with ⟨e, front, he, h1, h2⟩ | h'
          · refine .inl ⟨e, Main.prettyPrint t :: front, he, ?_, ?_⟩
            · rw [h1]; rfl
            · exact List.cons_prefix_cons.2 ⟨rfl, h2⟩
          · rw [h']; exact .inr rfl
        | err e => exact .inr rfl
        | panic => exact .inr rfl
        | oof => exact .inr rfl

/-- **C148, the program.** With a wider range the program prints the same and ends in the same way, unless its last line told of an error because of
the range; then the lines before that are still the first it prints. -/
theorem C148_program (c c' : Cfg) (h : Wider c c') (iso : Iso) (now now' : Moment) (rounds : Nat) (args : List (List Char)) :
    Main.main c' iso now now' rounds args = Main.main c iso now now' rounds args ∨
    ∃ e line front, TooNarrow c c' e ∧ (line = .error e ∨ line = .errorCalculating e ∨ line = .failedBuilding e) ∧
      (Main.main c iso now now' rounds args).lines = front ++ [line] ∧ front <+: (Main.main c' iso now now' rounds args).lines := by
  have hp := parse_narrow h iso now now' (Main.commandLine args)
  unfold Main.main
  rcases hp with ⟨e, he, h' | h'⟩ | h'
  · rw [h']
    exact .inr ⟨e, _, [], he, .inl rfl, rfl, List.nil_prefix⟩
  · rw [h']
    exact .inr ⟨e, _, [], he, .inr (.inr rfl), rfl, List.nil_prefix⟩
  · rw [← h']
    cases parse c iso now now' (Main.commandLine args) with
    | ok p =>
      cases p with
      | timeType t =>
        simp only
        rcases calculate_narrow h t with ⟨e, he, ht⟩ | ht
        · rw [ht]; exact .inr ⟨e, _, [], he, .inr (.inl rfl), rfl, List.nil_prefix⟩
        · rw [ht]; exact .inl rfl
      | iterator r =>
        cases r with
        | ok u =>
          rcases print_narrow h rounds u with ⟨e, front, he, h1, h2⟩ | h''
          · exact .inr ⟨e, _, front, he, .inr (.inl rfl), h1, h2⟩
          · exact .inl h''.symm
        | error e => exact .inl rfl
    | err e => exact .inl rfl
    | panic => exact .inl rfl
    | oof => exact .inl rfl

/-! ### examples -/

/-- A range of four-digit years lies within the usual one. -/
private def fourDigits : Cfg := { std .debug with minYear := 0, maxYear := 9999 }

example : Wider fourDigits (std .debug) := ⟨rfl, by decide, by decide⟩
/-- One of the ends may stay, or both. -/
example : Wider fourDigits { fourDigits with maxYear := 262143 } ∧ Wider fourDigits { fourDigits with minYear := -262144 } ∧
    Wider fourDigits fourDigits := ⟨⟨rfl, by decide, by decide⟩, ⟨rfl, by decide, by decide⟩, rfl, by decide, by decide⟩

/-- What is in range is the same; 9999 is the last year of one but not of the other. -/
example : calculate fourDigits (.moment (at_ 2017 1 31 0 0 0) + .months 1) =
      calculate (std .debug) (.moment (at_ 2017 1 31 0 0 0) + .months 1) ∧
    calculate fourDigits (.moment (at_ 9999 12 31 0 0 0) + .days 1) = .err (.outOfBounds 10000 1 0 0 0 0) ∧
    TooNarrow fourDigits (std .debug) (.outOfBounds 10000 1 0 0 0 0) ∧
    calculate (std .debug) (.moment (at_ 9999 12 31 0 0 0) + .days 1) = .ok (.moment (at_ 10000 1 1 0 0 0)) :=
  ⟨by decide +kernel, by decide +kernel, ⟨_, _, _, _, _, _, rfl, by decide⟩, by decide +kernel⟩

/-- An error that has nothing to do with the range stays. -/
example : calculate fourDigits (.moment (at_ 2017 2 28 0 0 0) - .days 28) = calculate (std .debug) (.moment (at_ 2017 2 28 0 0 0) - .days 28) ∧
    ∃ e, calculate (std .debug) (.moment (at_ 2017 3 1 0 0 0) - .days 1) = .err e ∧
      calculate fourDigits (.moment (at_ 2017 3 1 0 0 0) - .days 1) = .err e := by
  refine ⟨by decide +kernel, .outOfBounds 2017 2 0 0 0 0, by decide +kernel, by decide +kernel⟩

private def isValue : Item → Bool
  | some (.ok _) => true
  | _ => false

/-- Steps of a millennium, no Mondays: with four-digit years six items are the same, and then there is an error because of the range. -/
example : (∀ k, k < 6 → ∀ e, TooNarrow fourDigits (std .debug) e →
      (chained fourDigits ⟨.moment (at_ 2999 1 1 0 0 0), .years 1000, false⟩ [.without (.day .monday)]).call 5 k ≠ some (.err e)) ∧
    (chained fourDigits ⟨.moment (at_ 2999 1 1 0 0 0), .years 1000, false⟩ []).call 5 8 = some (.err (.outOfBounds 10999 1 0 0 0 0)) := by
  refine ⟨fun k hk e _ he => ?_, by decide +kernel⟩
  have : ∀ k, k < 6 → isValue ((chained fourDigits ⟨.moment (at_ 2999 1 1 0 0 0), .years 1000, false⟩
    [.without (.day .monday)]).call 5 k) = true := by decide +kernel
  have := this k hk
  rw [he] at this
  cases this

/-- The program: three dates in both cases, then an error, or the rest. -/
example : Main.main fourDigits noIso (at_ 2017 1 1 0 0 0) (at_ 2017 1 1 0 0 0) 9 ["today every 3000 years 4 times".toList] =
      ⟨[.moment (at_ 2017 1 1 0 0 0), .moment (at_ 5017 1 1 0 0 0), .moment (at_ 8017 1 1 0 0 0),
        .errorCalculating (.outOfBounds 11017 1 0 0 0 0)], .exit1⟩ ∧
    Main.main (std .debug) noIso (at_ 2017 1 1 0 0 0) (at_ 2017 1 1 0 0 0) 9 ["today every 3000 years 4 times".toList] =
      ⟨[.moment (at_ 2017 1 1 0 0 0), .moment (at_ 5017 1 1 0 0 0), .moment (at_ 8017 1 1 0 0 0), .moment (at_ 11017 1 1 0 0 0)],
        .finished⟩ := by decide +kernel

/-- A text in which nothing is out of range; an iterator that can be skipped forth and back. -/
example : (∀ e, TooNarrow fourDigits (std .debug) e →
      parse fourDigits noIso (at_ 2017 1 1 0 0 0) (at_ 2017 1 1 0 0 0) "today + 2 days".toList ≠ .err e ∧
      parse fourDigits noIso (at_ 2017 1 1 0 0 0) (at_ 2017 1 1 0 0 0) "today + 2 days".toList ≠ .ok (.iterator (.error e))) ∧
    (Iter.skip fourDigits ⟨.moment (at_ 2017 1 1 0 0 0), .days 1, true⟩).2 = .ok () ∧
    (Iter.rollback fourDigits ⟨.moment (at_ 2017 1 2 0 0 0), .days 1, true⟩).2 = .ok () := by
  refine ⟨fun e _ => ?_, by decide +kernel, by decide +kernel⟩
  rw [show parse fourDigits noIso (at_ 2017 1 1 0 0 0) (at_ 2017 1 1 0 0 0) "today + 2 days".toList =
    .ok (.timeType (.moment (at_ 2017 1 1 0 0 0) + .days 2)) by decide +kernel]
  exact ⟨nofun, nofun⟩

end Props
