import Verif.Source.Rust

/-!
# How the methods of src/iter.rs that take `&mut self` are rendered by `tools/rs2lean.py`

A method becomes a state transformer over the type of `self`. A `Result` is a value here (an
`Except`), because a method that returns an `Err` still keeps what it did to `self`; only a panic,
or not returning, ends the computation. Tuple structs are pairs; `I` is the state of the inner
iterator, whose `next` is a parameter.
-/

namespace Kairos.Rs

/-- A computation that may change `self`, panic, or not return, as the methods of src/iter.rs:45-269. -/
abbrev M (σ α : Type) := StateT σ (OutE Empty) α

variable {ε α β σ τ : Type}

/-- Calling a function that returns a `Result`, as in src/iter.rs:59, 208: the `Result` is a value. -/
def result (x : Out α) : M σ (Except ErrorKind α) := fun s =>
  match x with
  | .ok a => .ok (.ok a, s)
  | .err e => .ok (.error e, s)
  | .panic => .panic
  | .oof => .oof

/-- Calling a function that does not return a `Result`, as in src/iter.rs:210 (`err` does not occur). -/
def value (x : Out α) : M σ α := fun s =>
  match x with
  | .ok a => .ok (a, s)
  | .err _ => .panic
  | .panic => .panic
  | .oof => .oof

/-- `Result::map`, as in src/iter.rs:60, 85. -/
def exMap (x : Except ErrorKind α) (f : α → M σ β) : M σ (Except ErrorKind β) :=
  match x with
  | .ok a => do
    let b ← f a
    pure (.ok b)
  | .error e => pure (.error e)

/-- `Option::unwrap`, as in src/iter.rs:211. -/
def unwrap (o : Option α) : M σ α := fun s =>
  match o with
  | some a => .ok (a, s)
  | none => .panic

/-- A method call on a field of `self`, as in src/iter.rs:113, 205, 267. -/
def zoom (read : σ → τ) (write : σ → τ → σ) (x : M τ α) : M σ α := fun s =>
  match x (read s) with
  | .ok (a, t) => .ok (a, write s t)
  | .err e => .err e
  | .panic => .panic
  | .oof => .oof

/-- `loop`, as in src/iter.rs:112-122, 160-170: `none` is `continue`, `some r` is `return r`. -/
def loop (step : M σ (Option β)) (s : σ) : OutE Empty (β × σ) := do
  let r ← step s
  match r with
  | (none, s') => loop step s'
  | (some b, s') => .ok (b, s')
partial_fixpoint

end Kairos.Rs
