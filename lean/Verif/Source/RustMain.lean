import Verif.Source.RustParser
import Verif.Source.Text
import Verif.Model.Main

/-!
# How `main` of examples/main.rs is rendered by `tools/txt2lean.py`

A statement is a `Prog`: the lines it writes and how it ends. A line is `none` if it contains the text of nom's error, which
is not modelled. A `match` on a `Result` that is computed on the spot ends in a panic if the computation does. The number
of rounds of the `for` loop is bounded by a parameter, as in `Model/Main.lean`; the results for all bounds
together are what the program does.
-/

namespace Kairos.Rs

/-- What a statement of examples/main.rs:18-42 does. -/
structure Prog where
  lines : List (Option (List Char))
  ending : Main.End

variable {α β σ : Type}

/-- `println!` — examples/main.rs:25, 28, 34, 39. -/
def println (l : Option (List Char)) : Prog := ⟨[l], .finished⟩

/-- `::std::process::exit(1)` — examples/main.rs:35. -/
def exit1 : Prog := ⟨[], .exit1⟩

/-- One statement after the other, as in examples/main.rs:33-36. -/
def andThen (p q : Prog) : Prog :=
  match p.ending with
  | .finished => ⟨p.lines ++ q.lines, q.ending⟩
  | e => ⟨p.lines, e⟩

/-- `match` on the `Result` of a call, as in examples/main.rs:24, 26. -/
def onResult (x : Out α) (k : Except ErrorKind α → Prog) : Prog :=
  match x with
  | .ok a => k (.ok a)
  | .err e => k (.error e)
  | .panic => ⟨[], .panicked⟩
  | .oof => ⟨[], .running⟩

/-- `for elem in it { … }`, as in examples/main.rs:30-38. -/
def forIn (next : M σ (Option β)) (body : β → Prog) : Nat → σ → Prog
  | 0, _ => ⟨[], .running⟩
  | rounds + 1, it =>
    match next it with
    | .ok (none, _) => ⟨[], .finished⟩
    | .ok (some elem, it) => andThen (body elem) (forIn next body rounds it)
    | .panic => ⟨[], .panicked⟩
    | .oof => ⟨[], .running⟩

/-- `{:?}` of a `failure::Error`, as in examples/main.rs:25, 28, 34, 39: that of the error in it, which is
modelled unless it is nom's. -/
def errorDebug (debug : ErrorKind → List Char) (e : ErrorKind) : Option (List Char) :=
  if e = .nomError then none else some (debug e)

/-- `fold` over the arguments, as in examples/main.rs:20. -/
def fold (args : List (List Char)) (init : List Char) (f : List Char → List Char → List Char) : List Char :=
  args.foldl f init

end Kairos.Rs
