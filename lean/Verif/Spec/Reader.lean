import Verif.Spec.Meaning
import Verif.Model.ParserIterator

/-!
# Specification: how any text is read

A reader for the language of doc/language.md that takes the longest word at every place: given a text, what it starts with and
what is left, or nothing. Blanks may stand in front of numbers, after them, and around operators. What is left at the end is
ignored. Dates of ISO 8601 are read by the given implementation.
-/

namespace Spec
open Kairos Kairos.Parser Nom

/-- The longest of the words the text starts with, and what is left. -/
def longest {α : Type} (words : List (String × α)) (t : List Char) : Option (α × List Char) :=
  let hits := words.filter fun w => w.1.toList.isPrefixOf t
  (hits.find? fun w => hits.all fun v => v.1.length ≤ w.1.length).map fun w => (w.2, t.drop w.1.length)

/-- All units. -/
def allUnits : List TimeUnit := [.second, .minute, .hour, .day, .week, .month, .year]
/-- The words for units. -/
def unitWords : List (String × TimeUnit) := allUnits.flatMap fun u => (spellings u).map fun w => (w, u)
/-- The words for one of a unit. -/
def aliasWords : List (String × TimeUnit) := allUnits.map fun u => (aliasOf u, u)
/-- The words for days. -/
def dayWords : List (String × ExactDate) := [("today", .today), ("yesterday", .yesterday), ("tomorrow", .tomorrow)]
/-- The operators. -/
def operatorWords : List (String × Operator) := [("+", .plus), ("-", .minus)]

/-- The digits a text starts with. -/
def digitsOf (t : List Char) : List Char := t.takeWhile fun ch => "0123456789".toList.contains ch

/-- A number below 2^63, blanks before and after it. -/
def readNumber (t : List Char) : Option (Int × List Char) :=
  let ds := digitsOf (pastBlanks t)
  if ds ≠ [] ∧ decimal ds < 2 ^ 63 then some (decimal ds, pastBlanks ((pastBlanks t).drop ds.length)) else none

/-- A number and a unit. -/
def readCounted (t : List Char) : Option (Amount × List Char) :=
  (readNumber t).bind fun (n, t) => (longest unitWords t).map fun (u, t) => (⟨n, u⟩, t)

/-- A word for one of a unit. -/
def readAlias (t : List Char) : Option (Amount × List Char) := (longest aliasWords t).map fun (u, t) => (⟨1, u⟩, t)

/-- One amount. -/
def readAmount (t : List Char) : Option (Amount × List Char) := (readAlias t).or (readCounted t)

/-- Amounts joined by operators, as many as there are; at most `n` of them are looked for. An operator that no amount follows is
left. -/
def readAmountsN : Nat → List Char → Option (AmountExpr × List Char)
  | 0, _ => none
  | n + 1, t =>
    (readAmount t).map fun (a, t) =>
      let more := (longest operatorWords (pastBlanks t)).bind fun (op, t) =>
        (readAmountsN n (pastBlanks t)).map fun (e, t) => (AmountExpr.cons a op e, t)
      more.getD (.single a, pastBlanks t)

/-- Amounts joined by operators, as many as there are: no more than the text has characters. -/
def readAmounts (t : List Char) : Option (AmountExpr × List Char) := readAmountsN t.length t

/-- What a nom parser reads. -/
def whatIsRead {α : Type} : IRes α → Option (α × List Char)
  | .done rest a => some (a, rest)
  | _ => none

/-- A date: a word for a day; or else a date with a time; or else a date. -/
def readExact (iso : Iso) (t : List Char) : Option (ExactDate × List Char) :=
  (longest dayWords t)
  |>.or ((whatIsRead (iso.parseDatetime t)).map fun (d, t) => (.iso8601DateTime d, t))
  |>.or ((whatIsRead (iso.parseDate t)).map fun (d, t) => (.iso8601Date d, t))

/-- A date and, if there are any, the amounts added to it or subtracted from it. -/
def readDate (iso : Iso) (t : List Char) : Option (PDate × List Char) :=
  (readExact iso t).map fun (e, t) =>
    let more := (longest operatorWords (pastBlanks t)).bind fun (op, t) =>
      (readAmounts (pastBlanks t)).map fun (a, t) => (PDate.mk e (some (op, a)), t)
    more.getD (⟨e, none⟩, t)

/-- The step of an iterator: `every` and an amount, or a word for one of a unit. -/
def readStep (t : List Char) : Option (Amount × List Char) :=
  (readAlias t).or ((longest [("every", ())] t).bind fun (_, t) => readCounted t)

/-- The bound of an iterator: `until` and a date, or a number and `times`. -/
def readBound (iso : Iso) (t : List Char) : Option (UntilSpec × List Char) :=
  ((longest [("until", ())] t).bind fun (_, t) => (readExact iso (pastBlanks t)).map fun (e, t) => (UntilSpec.exact e, t))
  |>.or ((readNumber t).bind fun (n, t) => (longest [("times", ())] t).map fun (_, t) => (UntilSpec.times n, t))

/-- What is written for an iterator. -/
structure Repeated where
  start : PDate
  step : Amount
  bound : Option UntilSpec
deriving DecidableEq

/-- An iterator: a date, a step and, if there is one, a bound. -/
def readIterator (iso : Iso) (t : List Char) : Option (Repeated × List Char) :=
  (readDate iso (pastBlanks t)).bind fun (d, t) =>
  (readStep (pastBlanks t)).map fun (a, t) =>
    let bounded := (readBound iso (pastBlanks t)).map fun (u, t) => (Repeated.mk d a (some u), t)
    bounded.getD (⟨d, a, none⟩, pastBlanks t)

/-- What a text is read as. -/
inductive Reading where
  | iterator (r : Repeated)
  | date (d : PDate)
  | amounts (e : AmountExpr)
  | nothing
deriving DecidableEq

/-- An iterator if it starts with one, else a date if it starts with one, else amounts. -/
def read (iso : Iso) (t : List Char) : Reading :=
  match readIterator iso t, readDate iso t, readAmounts t with
  | some (r, _), _, _ => .iterator r
  | none, some (d, _), _ => .date d
  | none, none, some (e, _) => .amounts e
  | none, none, none => .nothing

/-- The moment a date stands for, calculated. -/
def momentOf (c : Cfg) (a : Answer) : Out Moment :=
  match a with
  | .value v =>
    match calculate c v with
    | .ok (.moment m) => .ok m
    | .ok _ => .err .notADateInsideIterator
    | .err e => .err e
    | .panic => .panic
    | .oof => .oof
  | .refused e => .err e
  | .overflow => .panic

/-- The iterator: it starts at the moment the date stands for and its step is the amount, and it is bounded if a bound was
written. -/
def repeats (c : Cfg) (now now' : Moment) (r : Repeated) : Out UserIterator :=
  match amountMeans c r.step with
  | .value step =>
    match momentOf c (dateMeans c now r.start) with
    | .ok m =>
      let it : Iter := { base := .moment m, increment := step, hadFirst := false }
      match r.bound with
      | none => .ok (.iterator it)
      | some (.times n) => .ok (.timesIter ⟨it, n, 0⟩)
      | some (.exact e) =>
        match momentOf c (exactMeans c now' e) with
        | .ok limit => .ok (.untilIterator it limit)
        | .err k => .err k
        | .panic => .panic
        | .oof => .oof
    | .err k => .err k
    | .panic => .panic
    | .oof => .oof
  | .refused e => .err e
  | .overflow => .panic

/-- What `parse` returns for a text read this way. An iterator that cannot be built is an iterator with an error. -/
def Reading.result (c : Cfg) (now now' : Moment) : Reading → Out Parsed
  | .iterator r =>
    match repeats c now now' r with
    | .ok u => .ok (.iterator (.ok u))
    | .err k => .ok (.iterator (.error k))
    | .panic => .panic
    | .oof => .oof
  | .date d => returned (dateMeans c now d)
  | .amounts e => returned (amountsMean c e)
  | .nothing => .err .nomError

end Spec
