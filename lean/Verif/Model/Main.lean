import Verif.Model.ParserIterator

/-!
# Model of `examples/main.rs`

The command line program: it parses its arguments and prints the result. Printed lines are modelled as data, not as
text; the texts of values are in `Model/Display.lean`.
-/

namespace Kairos.Main
open Kairos.Parser

/-- A line written by `println!` — examples/main.rs:5-16, 24-41. -/
inductive Line where
  /-- `"{n} {label}"` -/
  | amount (n : Int) (label : String)
  /-- `"{ndt} "` -/
  | moment (m : Moment)
  /-- `"Cannot pretty-print: '{:?}'"` -/
  | cannotPrettyPrint (t : TT)
  /-- `"Error -> {:?}"` -/
  | error (e : ErrorKind)
  /-- `"Error calculating: {:?}"` -/
  | errorCalculating (e : ErrorKind)
  /-- `"Failed building iterator: {:?}"` -/
  | failedBuilding (e : ErrorKind)
deriving DecidableEq, Repr

/-- How the process ended: `main` returned, `::std::process::exit(1)`, a panic; or not yet, within the budget of rounds. -/
inductive End where
  | finished | exit1 | panicked | running
deriving DecidableEq, Repr

/-- What the program (examples/main.rs) does: the lines it prints, in order, and how it ends. -/
structure Run where
  lines : List Line
  ending : End
deriving DecidableEq, Repr

/-- `pretty_print` — examples/main.rs:5-16. -/
def prettyPrint : TT → Line
  | .seconds e => .amount e "Seconds"
  | .minutes e => .amount e "Minutes"
  | .hours e => .amount e "Hours"
  | .days e => .amount e "Days"
  | .months e => .amount e "Months"
  | .years e => .amount e "Years"
  | .moment ndt => .moment ndt
  | other => .cannotPrettyPrint other

/-- The property `White_Space` of Unicode, on which `str::trim` is based (std). -/
def isWhiteSpace (ch : Char) : Bool :=
  let n := ch.toNat
  (0x9 ≤ n && n ≤ 0xD) || n == 0x20 || n == 0x85 || n == 0xA0 || n == 0x1680 || (0x2000 ≤ n && n ≤ 0x200A) ||
    n == 0x2028 || n == 0x2029 || n == 0x202F || n == 0x205F || n == 0x3000

/-- `str::trim` (std). -/
def trim (s : List Char) : List Char :=
  ((s.dropWhile isWhiteSpace).reverse.dropWhile isWhiteSpace).reverse

/-- The text handed to the parser — examples/main.rs:20-21. `args` is without the name of the program. -/
def commandLine (args : List (List Char)) : List Char :=
  trim (args.foldl (fun acc obj => acc ++ ' ' :: obj) [])

/-- `for elem in ui { … }` — examples/main.rs:29-37. `rounds` bounds the number of rounds of the loop. -/
def printItems (c : Cfg) : Nat → UserIterator → Run
  | 0, _ => ⟨[], .running⟩
  | rounds + 1, ui =>
    match ui.next c with
    | (_, none) => ⟨[], .finished⟩
    | (ui', some (.ok r)) =>
      let rest := printItems c rounds ui'
      ⟨prettyPrint r :: rest.lines, rest.ending⟩
    | (_, some (.err e)) => ⟨[.errorCalculating e], .exit1⟩
    | (_, some .panic) => ⟨[], .panicked⟩
    | (_, some .oof) => ⟨[], .running⟩

/-- `main` — examples/main.rs:18-42. `now` and `now'` are what the clock shows when the two dates of an iterator are
evaluated. -/
def main (c : Cfg) (iso : Iso) (now now' : Moment) (rounds : Nat) (args : List (List Char)) : Run :=
  match parse c iso now now' (commandLine args) with
  | .err e => ⟨[.error e], .finished⟩
  | .ok (.timeType tt) =>
    match calculate c tt with
    | .ok r => ⟨[prettyPrint r], .finished⟩
    | .err e => ⟨[.errorCalculating e], .finished⟩
    | .panic => ⟨[], .panicked⟩
    | .oof => ⟨[], .running⟩
  | .ok (.iterator (.ok ui)) => printItems c rounds ui
  | .ok (.iterator (.error e)) => ⟨[.failedBuilding e], .finished⟩
  | .panic => ⟨[], .panicked⟩
  | .oof => ⟨[], .running⟩

end Kairos.Main
