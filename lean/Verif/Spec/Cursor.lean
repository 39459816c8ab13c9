import Verif.Spec.Sequence

/-!
# An iterator as a position that is moved forth and back

The reference for C115 and C116: a position, moved by one increment forth or back. `skip` moves forth, `rollback` back; `next`
moves forth and shows the position, except the first one, which only shows it.
-/

namespace Spec
open Kairos

/-- One move of the position. -/
inductive Move where
  | forth | back
deriving DecidableEq, Repr

/-- The expression whose value is the position after a move from `a`. -/
def Move.expr (inc : TT) (a : Moment) : Move → TT
  | .forth => .moment a + inc
  | .back => .moment a - inc

/-- The moves lead from one position to another, each intermediate result being a moment. -/
inductive Follows (c : Cfg) (inc : TT) : Moment → List Move → Moment → Prop
  | here (a : Moment) : Follows c inc a [] a
  | step (a b r : Moment) (mv : Move) (mvs : List Move) (h : calculate c (mv.expr inc a) = .ok (.moment b))
      (hr : Follows c inc b mvs r) : Follows c inc a (mv :: mvs) r

/-- The moves that a history of calls makes; `started` says whether `next` was called before. -/
def moves : Bool → List IterOp → List Move
  | _, [] => []
  | false, .next :: ops => moves true ops
  | true, .next :: ops => .forth :: moves true ops
  | started, .skip :: ops => .forth :: moves started ops
  | started, .rollback :: ops => .back :: moves started ops

/-- Every call of the history returns `Ok`. -/
def AllOk (c : Cfg) : Iter → List IterOp → Prop
  | _, [] => True
  | it, op :: ops => (op.run c it).2 = .ok () ∧ AllOk c (op.run c it).1 ops

instance (c : Cfg) : (it : Iter) → (ops : List IterOp) → Decidable (AllOk c it ops)
  | _, [] => .isTrue trivial
  | it, op :: ops =>
    have := instDecidableAllOk c (op.run c it).1 ops
    inferInstanceAs (Decidable (_ ∧ _))

/-- How many increments the position has been moved in total. -/
def net : List Move → Int
  | [] => 0
  | .forth :: mvs => net mvs + 1
  | .back :: mvs => net mvs - 1

end Spec
