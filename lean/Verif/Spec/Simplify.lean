import Verif.Spec.Pipeline

/-!
# Specification: chains of adaptors that do the same

For C157: tests put together, and the earlier of two dates.
-/

namespace Spec
open Kairos

/-- Passes if both tests do. -/
def Test.and (a b : Test) : Test := .own fun
  | .moment m => a.passes m && b.passes m
  | _ => false

/-- Passes if neither test does. -/
def Test.nor (a b : Test) : Test := .own fun
  | .moment m => !a.passes m && !b.passes m
  | _ => false

/-- Passes if the test does not. -/
def Test.not (a : Test) : Test := .own fun
  | .moment m => !a.passes m
  | _ => false

/-- The earlier of two dates. -/
def earlierOf (a b : Moment) : Moment := if Earlier a b then a else b

/-- Two stretches of a chain that can take each other's place. -/
inductive SameEffect : List Adaptor → List Adaptor → Prop where
  /-- `every(a).every(b)`: `every(a and b)`. -/
  | every_every (a b : Test) : SameEffect [.every a, .every b] [.every (a.and b)]
  /-- `without(a).without(b)`: those that pass neither. -/
  | without_without (a b : Test) : SameEffect [.without a, .without b] [.every (a.nor b)]
  /-- `without(a)`: `every(not a)`. -/
  | without_every (a : Test) : SameEffect [.without a] [.every a.not]
  /-- A filter twice: once. -/
  | every_twice (a : Test) : SameEffect [.every a, .every a] [.every a]
  /-- Filters can be swapped. -/
  | every_swap (a b : Test) : SameEffect [.every a, .every b] [.every b, .every a]
  | without_swap (a b : Test) : SameEffect [.without a, .without b] [.without b, .without a]
  | every_without_swap (a b : Test) : SameEffect [.every a, .without b] [.without b, .every a]
  /-- Two counts: the smaller. -/
  | times_times (m n : Int) (hm : 0 ≤ m) (hn : 0 ≤ n) : SameEffect [.times m, .times n] [.times (min m n)]
  /-- Two dates: the earlier. -/
  | until_until (d e : Moment) : SameEffect [.until d, .until e] [.until (earlierOf d e)]
  /-- A count and a date can be swapped. -/
  | times_until (n : Int) (e : Moment) : SameEffect [.times n, .until e] [.until e, .times n]

/-- One chain becomes the other by replacing stretches, in either direction, any number of times. -/
inductive Rewrites : List Adaptor → List Adaptor → Prop where
  | same (as : List Adaptor) : Rewrites as as
  | forth {pre xs ys post bs : List Adaptor} (h : SameEffect xs ys) (hs : Rewrites (pre ++ ys ++ post) bs) : Rewrites (pre ++ xs ++ post) bs
  | back {pre xs ys post bs : List Adaptor} (h : SameEffect xs ys) (hs : Rewrites (pre ++ xs ++ post) bs) : Rewrites (pre ++ ys ++ post) bs

end Spec
