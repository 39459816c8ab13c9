import Verif.Source.RustIter
import Verif.Model.ParserIterator

/-!
# How src/parser is rendered by `tools/nom2lean.py`

* `named!(p<T>, …)` is a `Nom.P T`; nom's macros are the combinators of `Model/Nom.lean`. A parser
  that needs iso8601's parsers takes them as `iso`. `amount_expr` refers to itself through
  `amount_expr_next`; the reference is a parameter, and so it is in the parsers that use it.
* In the last step of `do_parse!`, an expression of type `Result` is a computation in `Out`.
* `TimeType::today()` reads the clock: `now` is the first reading on an execution path, `now'` the second.
* A local closure is written out where it is called.
* Enums and structs are those of `Model/ParserTimeType.lean` and `Model/ParserIterator.lean`; the
  translator checks variants, fields and their types against the text.
-/

namespace Kairos.Rs

variable {α : Type}

/-- `str::from_utf8` on the digits of src/parser/timetype.rs:16-18: characters stay characters. -/
def fromUtf8 (ds : List Char) : Option (List Char) := some ds

/-- Storing a `Result`, as in src/parser/mod.rs:65. -/
def reify (x : Out α) : Out (Except ErrorKind α) :=
  match x with
  | .ok a => .ok (.ok a)
  | .err e => .ok (.error e)
  | .panic => .panic
  | .oof => .oof

/-- Running a parser whose last step computes a `Result`, as in src/parser/mod.rs:70: a panic in
that step is a panic of the parser. -/
def runParser (r : Nom.IRes (Out α)) : Out (Nom.IRes (Except ErrorKind α)) :=
  match r with
  | .done rest x => do
    let v ← reify x
    .ok (.done rest v)
  | .error => .ok .error
  | .incomplete => .ok .incomplete

/-- The variant `UntilIterator(UntilIter)` of src/parser/iterator.rs:132; the model keeps the two fields of `UntilIter` side by side. -/
def untilIterator (it : Iter × Moment) : Parser.UserIterator := .untilIterator it.1 it.2

end Kairos.Rs

namespace Kairos.Parser.AmountExpr

/-- The field `amount` of `AmountExpr` — src/parser/timetype.rs:146. -/
def amount : AmountExpr → Amount
  | .single a => a
  | .cons a _ _ => a

/-- The field `next` of `AmountExpr` — src/parser/timetype.rs:147. -/
def next : AmountExpr → Option (Operator × AmountExpr)
  | .single _ => none
  | .cons _ op n => some (op, n)

end Kairos.Parser.AmountExpr
