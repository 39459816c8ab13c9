import Verif.Props.Acceptance
import Verif.Props.ParserDates

/-!
# C90: texts that start with blanks
-/

namespace Props
open Kairos Kairos.Parser Nom Spec

/-- Blanks at the start do not change what the iterator parser does. -/
theorem iterator_blanks (iso : Iso) {b : List Char} (hb : Blanks b) (t : List Char) : iterator iso (b ++ t) = iterator iso t := by
  unfold iterator
  rw [bind_opt_sp, bind_opt_sp, drop_append_blanks hb]

/-- **C90.** Blanks before an iterator do not matter: the text gives the same iterator. -/
theorem C90_blanks_before_iterator (c : Cfg) (iso : Iso) (now now' : Moment) (b t : List Char) (hb : Blanks b)
    (r : Except ErrorKind UserIterator) (h : parse c iso now now' t = .ok (.iterator r)) :
    parse c iso now now' (b ++ t) = .ok (.iterator r) := by
  rcases parse_cases c iso now now' t with ⟨r', it, hi, e⟩ | ⟨-, r', v, -, e⟩ | ⟨-, -, e⟩
  · rcases parse_cases c iso now now' (b ++ t) with ⟨r2, it2, hi2, e2⟩ | ⟨hno, -⟩ | ⟨hno, -⟩
    · rw [iterator_blanks iso hb, hi] at hi2
      cases hi2
      rw [e2, ← e, h]
    · exact absurd (by rw [iterator_blanks iso hb]; exact hi) (hno r' it)
    · exact absurd (by rw [iterator_blanks iso hb]; exact hi) (hno r' it)
  · rw [e] at h
    cases hx : v.intoTimetype c now <;> rw [hx] at h <;> cases h
  · rw [e] at h; cases h

/-- **C90, every text.** A text with any blanks at its start is rejected as no expression exactly if it starts neither
with an amount (blanks before a number belong to it) nor with a date, and what is behind the blanks is no iterator either,
in the build that never panics. -/
theorem C90_every_text (c : Cfg) (iso : Iso) (hi : IsoSane iso) (now now' : Moment) (b t : List Char) (hb : Blanks b) :
    parse c iso now now' (b ++ t) = .err .nomError ↔
      ¬ StartsWithAmount (b ++ t) ∧ ¬ StartsWithDate iso (b ++ t) ∧
      ∀ r, parse { c with profile := .release } iso now now' t ≠ .ok (.iterator r) := by
  constructor
  · intro h
    refine ⟨fun ha => not_rejected (timetype_starts (.inl ha)) h, fun hd => not_rejected (timetype_starts (.inr hd)) h,
      fun r hr => ?_⟩
    have h2 := C90_blanks_before_iterator _ iso now now' b t hb r hr
    rcases parse_cases { c with profile := .release } iso now now' (b ++ t) with ⟨r', it, hit, -⟩ | ⟨-, r', v, -, e⟩ | ⟨-, -, e⟩
    · rcases parse_cases c iso now now' (b ++ t) with ⟨r2, it2, -, e2⟩ | ⟨hno, -⟩ | ⟨hno, -⟩
      · rw [e2] at h
        cases hx : it2.intoUserIterator c now now' <;> rw [hx] at h <;> cases h
      · exact hno r' it hit
      · exact hno r' it hit
    · rw [e] at h2
      cases hx : v.intoTimetype { c with profile := .release } now <;> rw [hx] at h2 <;> cases h2
    · rw [e] at h2; cases h2
  · rintro ⟨h1, h2, h3⟩
    refine parse_none (fun r it h => ?_) (fun r v h => ?_)
    · rw [iterator_blanks iso hb] at h
      rcases parse_cases { c with profile := .release } iso now now' t with ⟨r', it', hit, e⟩ | ⟨hno, -⟩ | ⟨hno, -⟩
      · have hp := parse_release_np c iso now now' t
        have ho := (C55_definite { c with profile := .release } iso now now' t).1
        change NP (parse { c with profile := .release } iso now now' t) at hp
        rw [e] at hp ho h3
        cases hx : it'.intoUserIterator { c with profile := .release } now now' with
        | ok u => rw [hx] at h3; exact h3 _ rfl
        | err u => rw [hx] at h3; exact h3 _ rfl
        | panic => rw [hx] at hp; exact hp rfl
        | oof => rw [hx] at ho; exact ho rfl
      · exact hno r it h
      · exact hno r it h
    · rcases timetype_done hi h with ⟨d, tx, rfl, hd, e⟩ | ⟨a, tx, rfl, ha, e⟩
      · rw [e] at h2; exact h2 (starts_of_dateAt hd)
      · rw [e] at h1; exact h1 (starts_of_exprText ha _)

/-- Behind a blank `today daily` is accepted, `daily` and `today` alone are not. -/
example : parse (std .debug) noIso (at_ 2017 1 1 0 0 0) (at_ 2017 1 1 0 0 0) " today daily".toList =
      .ok (.iterator (.ok (.iterator ⟨.moment (at_ 2017 1 1 0 0 0), .days 1, false⟩))) ∧
    parse (std .debug) noIso (at_ 2017 1 1 0 0 0) (at_ 2017 1 1 0 0 0) " daily".toList = .err .nomError ∧
    parse (std .debug) noIso (at_ 2017 1 1 0 0 0) (at_ 2017 1 1 0 0 0) " today".toList = .err .nomError :=
  ⟨C90_blanks_before_iterator _ _ _ _ " ".toList "today daily".toList (by decide) _ (by decide +kernel), by decide +kernel, by decide +kernel⟩

example : ¬ StartsWithAmount (" ".toList ++ "daily".toList) ∧ ¬ StartsWithDate noIso (" ".toList ++ "daily".toList) :=
  have h := (C90_every_text (std .debug) noIso isoSane_noIso (at_ 2017 1 1 0 0 0) (at_ 2017 1 1 0 0 0) " ".toList "daily".toList (by decide)).1
    (by decide +kernel)
  ⟨h.1, h.2.1⟩

end Props
