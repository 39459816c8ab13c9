import Verif.Model.TimeType

/-! # Specification: what it means that an expression contains only proper moments -/

namespace Spec
open Kairos

/-- Every moment occurring in the expression satisfies `P`. -/
def AllMoments (P : Moment → Prop) : TT → Prop
  | .moment m => P m
  | .addition a b => AllMoments P a ∧ AllMoments P b
  | .subtraction a b => AllMoments P a ∧ AllMoments P b
  | .endOfYear t => AllMoments P t
  | .endOfMonth t => AllMoments P t
  | .endOfDay t => AllMoments P t
  | .endOfHour t => AllMoments P t
  | .endOfMinute t => AllMoments P t
  | _ => True

end Spec
