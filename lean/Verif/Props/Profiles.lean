import Verif.Lemmas.NoPanic
import Verif.Spec.Chain

/-!
# C26, C61: the two build profiles
-/

namespace Props
open Kairos Spec

/-! ## C26 -/

/-- **C26.** If the overflow-checked build does not panic on an expression, the wrapping build returns exactly the
same value or error. -/
theorem C26_profiles_agree (c : Cfg) (t : TT) (h : calculate { c with profile := .debug } t ≠ .panic) :
    calculate { c with profile := .release } t = calculate { c with profile := .debug } t := by
  rcases calculate_agree c t with h' | h'
  · exact absurd h' h
  · exact h'.symm

example : calculate (std .debug) (.moment (at_ 2017 1 1 0 0 0) + (.days 2 - .hours 3)) ≠ .panic := by decide +kernel

/-- The hypothesis matters: here the checked build panics and the wrapping build returns a value. -/
example : calculate (std .debug) (.seconds 9223372036854775807 + .seconds 1) = .panic ∧
    calculate (std .release) (.seconds 9223372036854775807 + .seconds 1) = .ok (.seconds (-9223372036854775808)) := by
  decide +kernel

/-! ## C61 -/

/-- **C61.** The wrapping build never panics when calculating, whatever the expression. -/
theorem C61_release_never_panics (c : Cfg) (t : TT) : calculate { c with profile := .release } t ≠ .panic :=
  calculate_np c t

example : calculate (std .release) (.moment (at_ 2017 1 1 0 0 0) + .days 9223372036854775807) ≠ .panic :=
  C61_release_never_panics (std .release) _

end Props
