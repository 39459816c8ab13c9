import Verif.Spec.Reference
import Verif.Spec.Sequence

/-!
# Specification: every item of an iterator

Item by item, how an iterator that starts at a moment goes on: also how it fails.
-/

namespace Spec
open Kairos

/-- How the call for item `k` (counting from 0) ends: item 0 is the start, each other one is the one before plus the step, for which
`Spec/Reference.lean` says what comes out. After an error or an overflow it stays at that. -/
def itemEnds (c : Cfg) (start : Moment) (step : TT) : Nat → Answer
  | 0 => .value (.moment start)
  | k + 1 => (itemEnds c start step k).andThen fun v => oneStep c (v + step)

/-- Where an iterator stops. -/
inductive Limit where
  | never
  | times (n : Int)
  | before (m : Moment)
deriving DecidableEq

/-- The first of two moments is earlier. -/
def Earlier (a b : Moment) : Prop := a.instant < b.instant ∨ (a.instant = b.instant ∧ a.nano < b.nano)

instance (a b : Moment) : Decidable (Earlier a b) := by unfold Earlier; infer_instance

/-- The item at a position, `none` for the end. -/
def Limit.item (l : Limit) (items : Nat → Answer) (k : Nat) : Option Answer :=
  match l with
  | .never => some (items k)
  | .times n => if (k : Int) < n then some (items k) else none
  | .before e =>
    match items k with
    | .value (.moment m) => if Earlier m e then some (items k) else none
    | a => some a

/-- A call of `next` returned this. -/
def Returned : Option Answer → Item → Prop
  | some a, some o => Says a o
  | none, none => True
  | _, _ => False

end Spec
