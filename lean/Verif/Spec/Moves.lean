import Verif.Spec.Reference
import Verif.Spec.Sequence
import Verif.Spec.Chain

/-!
# Specification: an iterator under `next`, `skip` and `rollback`

What every call returns if the three are called in any order, also after an error.
-/

namespace Spec
open Kairos

/-- Where an iterator is. -/
structure Cursor where
  /-- `next` has been called. -/
  started : Bool
  /-- The moment it stands at, or the error (or overflow) that it met. -/
  place : Answer
  /-- What it has in hand: the moment it stands at; after an error the last moment with all the steps since then, not calculated. -/
  held : TT

/-- At the beginning. -/
def Cursor.begin (start : Moment) : Cursor := ⟨false, .value (.moment start), .moment start⟩

/-- One step forth (`plus`) or back (`minus`): what comes out is what `Spec/Reference.lean` says. An error stays. -/
def Cursor.move (c : Cfg) (step : TT) (o : Op) (p : Cursor) : Cursor :=
  let place := p.place.andThen fun v => oneStep c (o.app v step)
  match place with
  | .value v => ⟨p.started, .value v, v⟩
  | bad => ⟨p.started, bad, o.app p.held step⟩

/-- What a call that moves returns. -/
def Answer.reply (f : TT → Option TT) : Answer → Out (Option TT)
  | .value v => .ok (f v)
  | .refused e => .err e
  | .overflow => .panic

/-- What a call does and returns: `next` an item, `skip` and `rollback` nothing. The first `next` does not move and calculates nothing. -/
def Cursor.call (c : Cfg) (step : TT) (p : Cursor) : IterOp → Cursor × Out (Option TT)
  | .next =>
    if p.started then (p.move c step .plus, (p.move c step .plus).place.reply some)
    else ({ p with started := true }, .ok (some p.held))
  | .skip => (p.move c step .plus, (p.move c step .plus).place.reply fun _ => none)
  | .rollback => (p.move c step .minus, (p.move c step .minus).place.reply fun _ => none)

/-- What all the calls return, one after the other. -/
def Cursor.calls (c : Cfg) (step : TT) : Cursor → List IterOp → List (Out (Option TT))
  | _, [] => []
  | p, op :: ops => (p.call c step op).2 :: Cursor.calls c step (p.call c step op).1 ops

/-- The calls of the library: what `next`, `skip` and `rollback` return, and the iterator afterwards. -/
def IterOp.call (c : Cfg) (it : Iter) : IterOp → Iter × Out (Option TT)
  | .next =>
    match it.next c with
    | (it', some r) => (it', r >>= fun v => .ok (some v))
    | (it', none) => (it', .ok none)
  | .skip => ((it.skip c).1, (it.skip c).2 >>= fun _ => .ok none)
  | .rollback => ((it.rollback c).1, (it.rollback c).2 >>= fun _ => .ok none)

/-- What all the calls of the library return, one after the other. -/
def callAll (c : Cfg) : Iter → List IterOp → List (Out (Option TT))
  | _, [] => []
  | it, op :: ops => (op.call c it).2 :: callAll c (op.call c it).1 ops

end Spec
