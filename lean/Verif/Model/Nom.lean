/-!
# What is assumed of the `nom` crate (version 3)

`nom` is a dependency; its code is not in `/repo`. This file is the assumed contract of the macros
and parsers the repository uses. Error descriptions and the "needed" size are dropped.
Input is a list of characters. The code reads bytes; `Props/Bytes.lean` proves that running these parsers on
the bytes of a text, each written as a character, gives the same results.
-/

namespace Nom

/-- nom's `IResult`, matched on in src/parser/mod.rs:70-76: `Done(rest, value)`, `Error(_)`, `Incomplete(_)`. -/
inductive IRes (α : Type) where
  | done (rest : List Char) (a : α)
  | error
  | incomplete
deriving DecidableEq, Repr

/-- A nom parser: what `named!` defines (src/parser/timetype.rs:13, 24, …). -/
abbrev P (α : Type) := List Char → IRes α

variable {α β : Type}

/-- One step `x: p >> …` of nom's `do_parse!`, as in src/parser/iterator.rs:58-63. -/
def IRes.andThen (r : IRes α) (k : α → P β) : IRes β :=
  match r with
  | .done rest a => k a rest
  | .error => .error
  | .incomplete => .incomplete

/-- Sequencing of nom's `do_parse!`, as in src/parser/iterator.rs:58-63. -/
def bind (p : P α) (k : α → P β) : P β := fun i => (p i).andThen k

/-- The final `(…)` of nom's `do_parse!`, as in src/parser/timetype.rs:109. -/
def ret (a : α) : P α := fun i => .done i a

/-- nom's `p => { |x| f x }` in `alt!`, as in src/parser/timetype.rs:25. -/
def map (p : P α) (f : α → β) : P β := fun i => (p i).andThen (fun a => ret (f a))

/-- nom's `tag!(t)`, as in src/parser/timetype.rs:25-48: a mismatch within the available input is `Error`, a proper prefix `Incomplete`. -/
def tag : List Char → P Unit
  | [], i => .done i ()
  | _ :: _, [] => .incomplete
  | t :: ts, x :: xs => if t = x then tag ts xs else .error

/-- The characters of nom's `sp`: `" \t\r\n"`. -/
def isSp (c : Char) : Bool := c = ' ' || c = '\t' || c = '\r' || c = '\n'

/-- `nom::whitespace::sp`: eats any number of blanks, never fails. -/
def sp : P Unit := fun i => .done (i.dropWhile isSp) ()

/-- The characters of nom's `digit` (src/parser/timetype.rs:16): `'0'..='9'`. -/
def isDigit (c : Char) : Bool := '0' ≤ c && c ≤ '9'

/-- `nom::digit`: one or more digits; `Incomplete` on empty input. -/
def digit : P (List Char) := fun i =>
  match i with
  | [] => .incomplete
  | x :: xs =>
    if isDigit x then .done ((x :: xs).dropWhile isDigit) ((x :: xs).takeWhile isDigit) else .error

/-- nom's `ws!(p)`, used in src/parser/timetype.rs:16: blanks, `p`, blanks. -/
def ws (p : P α) : P α := bind sp fun _ => bind p fun a => bind sp fun _ => ret a

/-- nom's `map_res!(p, f)`, used in src/parser/timetype.rs:14-15: `None` (an `Err`) becomes a parse error. -/
def mapRes (p : P α) (f : α → Option β) : P β := bind p fun a i =>
  match f a with
  | some b => .done i b
  | none => .error

/-- nom's `complete!(p)`, used in src/parser/timetype.rs:140, 258 and src/parser/iterator.rs:61: `Incomplete` becomes `Error`. -/
def complete (p : P α) : P α := fun i =>
  match p i with
  | .incomplete => .error
  | r => r

/-- nom's `opt!(p)`, used in src/parser/timetype.rs:132, 139-140, 257 and src/parser/iterator.rs:59-61: `Error` becomes `None` at the same position; `Incomplete` stays. -/
def opt (p : P α) : P (Option α) := fun i =>
  match p i with
  | .done rest a => .done rest (some a)
  | .error => .done i none
  | .incomplete => .incomplete

/-- nom's `alt!(p | q | …)`, used in src/parser/timetype.rs:13, 87, 108, 300: the next alternative is tried on `Error` only. -/
def alt : List (P α) → P α
  | [], _ => .error
  | p :: ps, i =>
    match p i with
    | .error => alt ps i
    | r => r

/-- nom's `alt_complete!(p | q | …)`, used in src/parser/timetype.rs:24, 98, 169, src/parser/iterator.rs:11, 39 and src/parser/mod.rs:64: every alternative wrapped in `complete!`. -/
def altComplete (ps : List (P α)) : P α := alt (ps.map complete)

end Nom
