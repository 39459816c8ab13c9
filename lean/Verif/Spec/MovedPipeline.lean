import Verif.Spec.Pipeline
import Verif.Spec.Moves

/-!
# Specification: adaptors on an iterator that has been moved

`it.skip(); it.next(); it.rollback(); …` and then `it.every(…).until(…).times(…)…`.
-/

namespace Spec
open Kairos

/-- Where an iterator is after some calls. -/
def Cursor.after (c : Cfg) (step : TT) (p : Cursor) (ops : List IterOp) : Cursor := ops.foldl (fun p op => (p.call c step op).1) p

/-- What `next` comes to there: the place one step on; before the first `next`, the place itself. -/
def Cursor.nextAnswer (c : Cfg) (step : TT) (p : Cursor) : Answer :=
  if p.started then (p.move c step .plus).place else p.place

/-- The calls of `next` from there on. -/
def Cursor.nextCalls (c : Cfg) (step : TT) (p : Cursor) (k : Nat) : Response :=
  .item ((p.after c step (List.replicate k .next)).nextAnswer c step)

/-- The iterator after the calls. -/
def moved (c : Cfg) (it : Iter) (ops : List IterOp) : Iter := ops.foldl (fun it op => (op.call c it).1) it

end Spec
