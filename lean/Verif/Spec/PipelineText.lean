import Verif.Spec.Pipeline
import Verif.Spec.Program

/-!
# Specification: iterators read from a text, with adaptors

`parse(text)` and then `.every(…).until(…).times(…)…` on the iterator it returns.
-/

namespace Spec
open Kairos Kairos.Parser

/-- The bound written for an iterator is an adaptor: the innermost one. -/
def Written (c : Cfg) (now' : Moment) (bound : Option UntilSpec) (as : List Adaptor) : Prop :=
  match bound with
  | none => as = []
  | some (.times n) => as = [.times n]
  | some (.exact e) => ∃ m, calculated c (exactMeans c now' e) = .value (.moment m) ∧ as = [.until m]

/-- The calls of the iterator a text is read as, with adaptors on it: the chain of adaptors, after the bound that was written, on the
iterator from the date that was written with the step that was written. -/
def TextCalls (c : Cfg) (iso : Iso) (now now' : Moment) (t : List Char) (as : List Adaptor) (calls : Nat → Response) : Prop :=
  ∃ r start step bound, read iso t = .iterator r ∧ calculated c (dateMeans c now r.start) = .value (.moment start) ∧
    amountMeans c r.step = .value step ∧ Written c now' r.bound bound ∧
    Chain c.profile (bound ++ as) (plainCalls c start step) calls

/-- `iterator.a().b().c()…` on an iterator that `parse` returned. -/
def chainedRead (c : Cfg) (ui : UserIterator) (as : List Adaptor) : Chained :=
  as.foldl (Chained.adapt c) ⟨UserIterator, fun _ => UserIterator.next c, ui⟩

end Spec
