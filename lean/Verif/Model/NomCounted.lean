import Verif.Model.Nom

/-!
# nom's parsers, counting steps

The combinators of `Model/Nom.lean`, with the number of steps taken. A call of one of nom's elementary parsers (`tag!`, `sp`, `digit`) is one
step, and one more for every character that it goes past. The alternatives of `alt!` that fail, and everything else that is given up, count.
-/

namespace Nom.Counted

/-- A nom parser (src/parser/timetype.rs:13, 24, …) that also says how many steps it took. -/
abbrev P (α : Type) := List Char → IRes α × Nat

variable {α β : Type}

/-- Sequencing of nom's `do_parse!`, as in src/parser/iterator.rs:58-63. -/
def bind (p : P α) (k : α → P β) : P β := fun i =>
  match p i with
  | (.done rest a, n) => let (r, m) := k a rest; (r, n + m)
  | (.error, n) => (.error, n)
  | (.incomplete, n) => (.incomplete, n)

/-- The final `(…)` of nom's `do_parse!`, as in src/parser/timetype.rs:109. -/
def ret (a : α) : P α := fun i => (.done i a, 0)

/-- nom's `p => { |x| f x }` in `alt!`, as in src/parser/timetype.rs:25. -/
def map (p : P α) (f : α → β) : P β := bind p fun a => ret (f a)

/-- nom's `tag!(t)`, as in src/parser/timetype.rs:25-48: character by character up to the first difference. -/
def tag : List Char → P Unit
  | [], i => (.done i (), 1)
  | _ :: _, [] => (.incomplete, 1)
  | t :: ts, x :: xs => if t = x then let (r, n) := tag ts xs; (r, n + 1) else (.error, 1)

/-- `nom::whitespace::sp`. -/
def sp : P Unit := fun i => (.done (i.dropWhile isSp) (), (i.takeWhile isSp).length + 1)

/-- `nom::digit`. -/
def digit : P (List Char) := fun i =>
  match i with
  | [] => (.incomplete, 1)
  | x :: xs =>
    if isDigit x then (.done ((x :: xs).dropWhile isDigit) ((x :: xs).takeWhile isDigit), ((x :: xs).takeWhile isDigit).length + 1)
    else (.error, 1)

/-- nom's `ws!(p)`, used in src/parser/timetype.rs:16. -/
def ws (p : P α) : P α := bind sp fun _ => bind p fun a => bind sp fun _ => ret a

/-- nom's `map_res!(p, f)`, used in src/parser/timetype.rs:14-15, where `f` takes the given number of steps. -/
def mapRes (p : P α) (f : α → Option β) (steps : α → Nat) : P β := bind p fun a i =>
  match f a with
  | some b => (.done i b, steps a)
  | none => (.error, steps a)

/-- nom's `complete!(p)`, used in src/parser/timetype.rs:140, 258 and src/parser/iterator.rs:61. -/
def complete (p : P α) : P α := fun i =>
  match p i with
  | (.incomplete, n) => (.error, n)
  | r => r

/-- nom's `opt!(p)`, used in src/parser/timetype.rs:132, 139-140, 257 and src/parser/iterator.rs:59-61. -/
def opt (p : P α) : P (Option α) := fun i =>
  match p i with
  | (.done rest a, n) => (.done rest (some a), n)
  | (.error, n) => (.done i none, n)
  | (.incomplete, n) => (.incomplete, n)

/-- nom's `alt!(p | q | …)`, used in src/parser/timetype.rs:13, 87, 108, 300: the steps of the alternatives that failed count. -/
def alt : List (P α) → P α
  | [], _ => (.error, 0)
  | p :: ps, i =>
    match p i with
    | (.error, n) => let (r, m) := alt ps i; (r, n + m)
    | r => r

/-- nom's `alt_complete!(p | q | …)`, used in src/parser/timetype.rs:24, 98, 169, src/parser/iterator.rs:11, 39 and src/parser/mod.rs:64. -/
def altComplete (ps : List (P α)) : P α := alt (ps.map complete)

end Nom.Counted
