import Verif.Model.Iter

/-!
# Specification: the sequence of items of an iterator
-/

namespace Spec
open Kairos

variable {σ : Type}

/-- The state after `k` calls of `next`. -/
def after (nx : σ → σ × Item) : Nat → σ → σ
  | 0, s => s
  | k + 1, s => after nx k (nx s).1

/-- What the `(k+1)`-th call of `next` returns (the item at position `k`, counting from 0). -/
def nth (nx : σ → σ × Item) : Nat → σ → Item
  | 0, s => (nx s).2
  | k + 1, s => nth nx k (nx s).1

/-- The first `n` items, as a list. -/
def items (nx : σ → σ × Item) (n : Nat) (s : σ) : List Item := (List.range n).map (fun k => nth nx k s)

/-- What keeping the items `t` with `keep t` makes of an item: an item that is rejected disappears, an item on which
`keep` fails becomes that failure, everything else (errors, the end) stays. -/
def sieve (keep : TT → Out Bool) : Item → Option Item
  | some (.ok t) =>
    match keep t with
    | .ok true => some (some (.ok t))
    | .ok false => none
    | .err e => some (some (.err e))
    | .panic => some (some .panic)
    | .oof => some (some .oof)
  | r => some r

/-- The opposite test. -/
def negated (keep : TT → Out Bool) (t : TT) : Out Bool :=
  match keep t with
  | .ok b => .ok (!b)
  | .err e => .err e
  | .panic => .panic
  | .oof => .oof

/-- The calls a program can make on an `Iter`. -/
inductive IterOp where
  | next | skip | rollback
deriving DecidableEq, Repr

/-- What a call returned: an item, or `()`; an error in either case is an error. -/
def IterOp.run (c : Cfg) (it : Iter) : IterOp → Iter × Out Unit
  | .next =>
    match it.next c with
    | (it', some (.ok _)) => (it', .ok ())
    | (it', some (.err e)) => (it', .err e)
    | (it', some .panic) => (it', .panic)
    | (it', some .oof) => (it', .oof)
    | (it', none) => (it', .ok ())
  | .skip => it.skip c
  | .rollback => it.rollback c

/-- The state after a history of calls. -/
def runOps (c : Cfg) : Iter → List IterOp → Iter
  | it, [] => it
  | it, op :: ops => runOps c (op.run c it).1 ops

end Spec
