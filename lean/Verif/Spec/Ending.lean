import Verif.Spec.Reference
import Verif.Spec.Kind

/-!
# Specification: how every expression ends

Also those that have no value: which error is returned, and which operands it names. An operation on two finished values is `oneStep`
of `Spec/Reference.lean`; here is what happens before, when an operand is written as a sum, a difference or an end-of marker. It states
what the library does, including that it exchanges operands.
-/

namespace Spec
open Kairos

/-- The length of the marked period: of two markers the one for the longer period is the one an error names last. -/
def markerRank : TT → Nat
  | .endOfYear _ => 5
  | .endOfMonth _ => 4
  | .endOfDay _ => 3
  | .endOfHour _ => 2
  | .endOfMinute _ => 1
  | _ => 0

/-- A sum. `ea` and `eb` are how its operands end, `ep` how the left part of `b` ends if `b` is a difference.

* A moment as right operand is an error before anything is calculated.
* Left of the `+`, an end-of marker is an error, with the operands exchanged unless the right one is a moment; a sum on the right is
  calculated before, and of a difference its left part.
* Left of the `+`, a difference changes places with what is right of it, so that a moment it comes to is an error; except that two
  differences add up in the order written, and that a sum on the right is calculated first (and is an error itself if it comes to a
  moment).
* Otherwise both operands are calculated, the left one first; an end-of marker on the right is an error once the left one has been
  calculated. -/
def sumEnds (c : Cfg) (a b : TT) (ea eb ep : Answer) : Answer :=
  if b.isMoment then .refused (.cannotAdd a b)
  else if endMarked a then
    if endMarked b then .refused (if markerRank b ≤ markerRank a then .cannotAdd b a else .cannotAdd a b)
    else (if b.isSubtraction then ep else eb).andThen fun w => .refused (if w.isMoment then .cannotAdd a w else .cannotAdd w a)
  else if a.isSubtraction then
    if b.isAddition then eb.andThen fun w => if w.isMoment then .refused (.cannotAdd a w) else ea.andThen fun v => oneStep c (w + v)
    else ea.andThen fun v =>
      if endMarked b then .refused (if v.isMoment then .cannotAdd b v else .cannotAdd v b)
      else if b.isSubtraction then
        if v.isMoment then .refused (.cannotAdd b v) else eb.andThen fun w => oneStep c (v + w)
      else oneStep c (b + v)
  else ea.andThen fun v => if endMarked b then .refused (.cannotAdd v b) else eb.andThen fun w => oneStep c (v + w)

/-- A difference. `ea` and `eb` are how its operands end, `ep` how the left part of `b` ends if `b` is a sum.

* Left of the `-`, an end-of marker is an error, with the operands exchanged; a difference on the right is calculated before, and of a
  sum its left part.
* Otherwise both operands are calculated, the left one first; only for a sum minus a difference the right one is first. An end-of
  marker on the right is an error once the left operand has been calculated. -/
def differenceEnds (c : Cfg) (a b : TT) (ea eb ep : Answer) : Answer :=
  if endMarked a then
    if endMarked b then .refused (if markerRank b ≤ markerRank a then .cannotSub b a else .cannotSub a b)
    else (if b.isAddition then ep else eb).andThen fun w => .refused (.cannotSub w a)
  else if a.isAddition ∧ b.isSubtraction then eb.andThen fun w => ea.andThen fun v => oneStep c (v - w)
  else ea.andThen fun v => if endMarked b then .refused (.cannotSub v b) else eb.andThen fun w => oneStep c (v - w)

/-- How an expression ends. An end-of marker is applied to the value of what it marks. -/
def ending (c : Cfg) : TT → Answer
  | .addition a b =>
    sumEnds c a b (ending c a) (ending c b) (match b with | .subtraction p _ => ending c p | _ => .overflow)
  | .subtraction a b =>
    differenceEnds c a b (ending c a) (ending c b) (match b with | .addition p _ => ending c p | _ => .overflow)
  | .endOfYear t => (ending c t).andThen fun v => oneStep c (.endOfYear v)
  | .endOfMonth t => (ending c t).andThen fun v => oneStep c (.endOfMonth v)
  | .endOfDay t => (ending c t).andThen fun v => oneStep c (.endOfDay v)
  | .endOfHour t => (ending c t).andThen fun v => oneStep c (.endOfHour v)
  | .endOfMinute t => (ending c t).andThen fun v => oneStep c (.endOfMinute v)
  | t => .value t

end Spec
