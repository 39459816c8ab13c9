import Verif.Model.Main

/-!
# Specification: releases of chrono with different ranges of years

The range of years of chrono's dates is not the same in all 0.4.x releases. What may change if the library is built with a release
that has a wider range.
-/

namespace Spec
open Kairos

/-- The same build, and every year that `c` has is one that `c'` has. -/
def Wider (c c' : Cfg) : Prop := c'.profile = c.profile ∧ c'.minYear ≤ c.minYear ∧ c.maxYear ≤ c'.maxYear

/-- An error that `c` gives because of its range: out of bounds, in a year that `c` does not have and `c'` has. -/
def TooNarrow (c c' : Cfg) (e : ErrorKind) : Prop :=
  ∃ year month day hour minute second, e = .outOfBounds year month day hour minute second ∧
    (year < c.minYear ∨ c.maxYear < year) ∧ c'.minYear ≤ year ∧ year ≤ c'.maxYear

end Spec
