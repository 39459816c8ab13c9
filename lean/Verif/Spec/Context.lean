import Verif.Spec.Kind
import Verif.Spec.Shape

/-!
# Specification: an expression with a hole
-/

namespace Spec
open Kairos

/-- An expression in which one part is left open. -/
inductive Context where
  | hole
  | addLeft (k : Context) (b : TT)
  | addRight (a : TT) (k : Context)
  | subLeft (k : Context) (b : TT)
  | subRight (a : TT) (k : Context)
  | endOf (e : EndKind) (k : Context)

/-- The expression with `x` in the hole. -/
def Context.fill : Context → TT → TT
  | .hole, x => x
  | .addLeft k b, x => k.fill x + b
  | .addRight a k, x => a + k.fill x
  | .subLeft k b, x => k.fill x - b
  | .subRight a k, x => a - k.fill x
  | .endOf e k, x => e.app (k.fill x)

/-- Calculating from the inside out, on paper: an expression without a kind has no value; an amount and a moment are their
own value; otherwise calculate the operands, and then, with `op`, the one operation that is left. -/
def inside (op : TT → Option TT) : TT → Option TT
  | .addition a b =>
    if kind (a + b) = none then none
    else match inside op a, inside op b with
      | some v, some w => op (v + w)
      | _, _ => none
  | .subtraction a b =>
    if kind (a - b) = none then none
    else match inside op a, inside op b with
      | some v, some w => op (v - w)
      | _, _ => none
  | .endOfYear x => (inside op x).bind fun v => op (.endOfYear v)
  | .endOfMonth x => (inside op x).bind fun v => op (.endOfMonth v)
  | .endOfDay x => (inside op x).bind fun v => op (.endOfDay v)
  | .endOfHour x => (inside op x).bind fun v => op (.endOfHour v)
  | .endOfMinute x => (inside op x).bind fun v => op (.endOfMinute v)
  | x => some x

end Spec
