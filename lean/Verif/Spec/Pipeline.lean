import Verif.Spec.Walk
import Verif.Model.Indicator

/-!
# Specification: iterators with any number of adaptors

What `iterator.every(…).until(…).times(…)…` yields, call by call, for every chain of `times`, `until`, `every` and `without`.
-/

namespace Spec
open Kairos

/-- What a call of `next` comes to: an item (a value, an error or a panic), the end (`None`), or it never returns. -/
inductive Response where
  | item (a : Answer)
  | ended
  | never
deriving DecidableEq

/-- The calls of an iterator without adaptors (C143). -/
def plainCalls (c : Cfg) (start : Moment) (step : TT) (k : Nat) : Response := .item (itemEnds c start step k)

/-- The tests that can be given to `every` and `without`: a weekday, a month, or a filter of one's own. -/
inductive Test where
  | day (d : Day)
  | month (m : Month)
  | own (f : TT → Bool)

/-- Whether a date passes a test. 1 January 2001 was a Monday. -/
def Test.passes : Test → Moment → Bool
  | .day d, m => decide ((Cal.dayNumber m.year m.month m.day - Cal.dayNumber 2001 1 1) % 7 =
      match d with
      | .monday => 0 | .tuesday => 1 | .wednesday => 2 | .thursday => 3 | .friday => 4 | .saturday => 5 | .sunday => 6)
  | .month mo, m => decide (m.month =
      match mo with
      | .january => 1 | .february => 2 | .march => 3 | .april => 4 | .may => 5 | .june => 6
      | .july => 7 | .august => 8 | .september => 9 | .october => 10 | .november => 11 | .december => 12)
  | .own f, m => f (.moment m)

/-- The adaptors. -/
inductive Adaptor where
  | times (n : Int)
  | until (e : Moment)
  | every (t : Test)
  | without (t : Test)

/-- A filter passes on everything but the dates it rejects. -/
def passedOn (keep : Moment → Bool) : Response → Bool
  | .item (.value (.moment m)) => keep m
  | _ => true

/-- Call `i` is the one that a filter passes on as its call `k`: `k` calls before it were passed on. -/
def IsKept (keep : Moment → Bool) (calls : Nat → Response) (k i : Nat) : Prop :=
  passedOn keep (calls i) = true ∧ (List.range i).countP (fun j => passedOn keep (calls j)) = k

/-- The calls of a filter: those that are passed on, in order. If there are no more of them, the call for the next one never
returns. -/
def Filtered (keep : Moment → Bool) (calls calls' : Nat → Response) : Prop :=
  ∀ k, (∃ i, IsKept keep calls k i ∧ calls' k = calls i) ∨ ((∀ i, ¬ IsKept keep calls k i) ∧ calls' k = .never)

/-- Up to a date: each date is passed on if it is earlier; if not, there is `None` in its place. -/
def upTo (e : Moment) (calls : Nat → Response) (k : Nat) : Response :=
  match calls k with
  | .item (.value (.moment m)) => if Earlier m e then calls k else .ended
  | a => a

/-- The first `n` calls. A negative `n` counts, in effect, up to `2^63 - 1` and then overflows (checked build), or on round to `n`, which
takes `2^64 + n` calls (wrapping build). -/
def firstOnes (p : Profile) (n : Int) (calls : Nat → Response) (k : Nat) : Response :=
  if 0 ≤ n then (if (k : Int) < n then calls k else .ended)
  else match p with
    | .debug => if (k : Int) < 2 ^ 63 - 1 then calls k else .item .overflow
    | .release => if (k : Int) < 2 ^ 64 + n then calls k else .ended

/-- What an adaptor makes of the calls of an iterator. -/
def Adaptor.Makes (p : Profile) (calls calls' : Nat → Response) : Adaptor → Prop
  | .times n => calls' = firstOnes p n calls
  | .until e => calls' = upTo e calls
  | .every t => Filtered t.passes calls calls'
  | .without t => Filtered (fun m => !t.passes m) calls calls'

/-- What a chain of adaptors makes of the calls of an iterator, the first adaptor of the list being the innermost. -/
inductive Chain (p : Profile) : List Adaptor → (Nat → Response) → (Nat → Response) → Prop where
  | none (calls : Nat → Response) : Chain p [] calls calls
  | step {a : Adaptor} {as : List Adaptor} {calls calls' calls'' : Nat → Response} (h : a.Makes p calls calls')
      (hs : Chain p as calls' calls'') : Chain p (a :: as) calls calls''

/-- The numbers and dates given to adaptors are numbers of 64 bits and dates. -/
def Adaptor.Typed (c : Cfg) : Adaptor → Prop
  | .times n => InI64 n
  | .until e => e.Valid c
  | _ => True

/-! ### the program -/

/-- An iterator with adaptors: its states, its `next`, the state it is in. (`next` gets the number of rounds that the loops of filters
are followed for.) -/
structure Chained where
  σ : Type
  next : Nat → σ → σ × Item
  state : σ

/-- The matcher for a test. -/
def Test.matcher : Test → TT → Out Bool
  | .day d => d.matches
  | .month m => m.matches
  | .own f => filterMatches f

/-- `.times(n)`, `.until(e)`, `.every(m)`, `.without(m)`. -/
def Chained.adapt (c : Cfg) (x : Chained) : Adaptor → Chained
  | .times n => ⟨TimesState x.σ, fun rounds => timesNext c (x.next rounds), timesNew x.state n⟩
  | .until e => ⟨x.σ, fun rounds => untilNext c (x.next rounds) e, x.state⟩
  | .every t => ⟨x.σ, fun rounds => filterNext (x.next rounds) t.matcher rounds, x.state⟩
  | .without t => ⟨x.σ, fun rounds => withoutNext (x.next rounds) t.matcher rounds, x.state⟩

/-- `iterator.a().b().c()…` -/
def chained (c : Cfg) (it : Iter) (as : List Adaptor) : Chained :=
  as.foldl (Chained.adapt c) ⟨Iter, fun _ => Iter.next c, it⟩

/-- What call `k` of `next` returns, following loops for a number of rounds. -/
def Chained.call (x : Chained) (rounds k : Nat) : Item := nth (x.next rounds) k x.state

/-- A call of `next` returned this. -/
def Response.Was : Response → Item → Prop
  | .item a, some o => Says a o
  | .ended, none => True
  | _, _ => False

end Spec
