import Verif.Source.Adaptors
import Verif.Source.Matcher
import Verif.Spec.Moves
import Verif.Spec.PipelineText
import Verif.Source.Parser

/-!
# Calls of the translated methods

For C153: `next`, `skip` and `rollback` of `Source/Iter.lean`, which is generated from src/iter.rs, called one after the other.
A panic ends the program, so nothing comes after it.
-/

namespace Spec
open Kairos

/-- A returned `Result`, with what it holds. -/
def sourceReply {α : Type} (f : α → Option TT) : Except ErrorKind α → Out (Option TT)
  | .ok v => .ok (f v)
  | .error e => .err e

/-- One call of a method as it is translated from the source: what it returns, and the iterator afterwards. -/
def sourceCall (c : Cfg) (it : Iter) : IterOp → OutE Empty (Out (Option TT) × Iter)
  | .next => do
    let (r, it') ← Source.Iter.next c it
    match r with
    | some x => .ok (sourceReply some x, it')
    | none => .ok (.ok none, it')
  | .skip => do
    let (r, it') ← Source.Iter.skip c it
    .ok (sourceReply (fun _ => none) r, it')
  | .rollback => do
    let (r, it') ← Source.Iter.rollback c it
    .ok (sourceReply (fun _ => none) r, it')

/-- What the calls return, up to a panic. -/
def sourceCalls (c : Cfg) : Iter → List IterOp → List (Out (Option TT))
  | _, [] => []
  | it, op :: ops =>
    match sourceCall c it op with
    | .ok (r, it') => r :: sourceCalls c it' ops
    | .panic => [.panic]
    | .oof => [.oof]

/-- The iterator after the calls, if none of them panics. -/
def sourceMoved (c : Cfg) : Iter → List IterOp → OutE Empty Iter
  | it, [] => .ok it
  | it, op :: ops => do
    let (_, it') ← sourceCall c it op
    sourceMoved c it' ops

/-- A list of replies up to the first panic. -/
def upToPanic : List (Out (Option TT)) → List (Out (Option TT))
  | [] => []
  | .panic :: _ => [.panic]
  | r :: rs => r :: upToPanic rs

/-! ### adaptors -/

/-- An iterator with adaptors, as translated: its states, its `next`, the state it is in. Loops have no bound. -/
structure SourceChained where
  σ : Type
  next : Rs.M σ (Option (Except ErrorKind TT))
  state : σ

/-- The translated matcher for a test. -/
def Test.sourceMatcher (c : Cfg) : Test → TT → Out Bool
  | .day d => Source.Day.matches c d
  | .month m => Source.Month.matches c m
  | .own f => Source.Filter.matches f

/-- `.times(n)`, `.until(e)`, `.every(m)`, `.without(m)`, as translated. -/
def SourceChained.adapt (c : Cfg) (x : SourceChained) : Adaptor → SourceChained
  | .times n => ⟨TimesState x.σ, Source.TimesIter.next c x.next, Source.Times.times x.state n⟩
  | .until e => ⟨x.σ × Moment, Source.UntilIter.next c x.next, Source.Until.until x.state e⟩
  | .every t => ⟨x.σ × (TT → Out Bool), Source.FilterIter.next c x.next, Source.EveryFilter.every x.state (t.sourceMatcher c)⟩
  | .without t => ⟨x.σ × (TT → Out Bool), Source.WithoutIter.next c x.next, Source.WithoutFilter.without x.state (t.sourceMatcher c)⟩

/-- `iterator.a().b().c()…` -/
def sourceChained (c : Cfg) (it : Iter) (as : List Adaptor) : SourceChained :=
  as.foldl (SourceChained.adapt c) ⟨Iter, Source.Iter.next c, it⟩

/-- The same on an iterator the translated `parse` returned. -/
def sourceChainedRead (c : Cfg) (ui : Parser.UserIterator) (as : List Adaptor) : SourceChained :=
  as.foldl (SourceChained.adapt c) ⟨Parser.UserIterator, Source.Parser.UserIterator.next c, ui⟩

/-- What call `k` of `next` returns, after the calls before it (`panic`, `oof`: this call, or one before it, panics or never returns). -/
def sourceNth {σ : Type} (next : Rs.M σ (Option (Except ErrorKind TT))) : Nat → σ → OutE Empty (Option (Except ErrorKind TT))
  | 0, s => do
    let (r, _) ← next s
    .ok r
  | k + 1, s => do
    let (_, s') ← next s
    sourceNth next k s'

/-- What call `k` of `next` on an iterator with adaptors returns. -/
def SourceChained.call (x : SourceChained) (k : Nat) : OutE Empty (Option (Except ErrorKind TT)) := sourceNth x.next k x.state

/-- What a call comes to, as the translation has it. -/
def Response.inSource : Response → OutE Empty (Option (Except ErrorKind TT))
  | .item (.value v) => .ok (some (.ok v))
  | .item (.refused e) => .ok (some (.error e))
  | .item .overflow => .panic
  | .ended => .ok none
  | .never => .oof

end Spec
