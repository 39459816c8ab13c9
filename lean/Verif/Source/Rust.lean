import Verif.Model.TimeType

/-!
# How Rust constructs are rendered by `tools/rs2lean.py`

The files `Util`, `Indicator`, `TimeType`, `Filter`, `Matcher` and `IterBuild` of this directory are
generated from the text of /repo/src. A Rust function becomes a Lean function of the same name that
takes the build profile and returns an `Out`: its value, an `Err`, or a panic.

* `let`, `=`, `+=`, `-=` become (shadowing) `let`; operands are evaluated left to right.
* `+`, `-`, `*`, `abs` on `i64` are `Cfg.add`, `Cfg.sub`, `Cfg.mul`, `Cfg.abs`; `/` and `%` (only by
  positive literals) are `Int.tdiv` and `Int.tmod`; `as i32`, `as u32` are `asI32`, `asU32`.
* `while` is `Rs.while` over the variables its body assigns; `if` without `else` likewise.
* `?`, `try!`, `and_then` and `map` on a `Result` are `>>=`; `map` and `and_then` on an `Option` are
  `Rs.optMap` and `Rs.optAndThen`, because the closure may panic; `ok_or` is `OutE.ofOption`.
* `match` keeps its arms in order; `macro_rules!` macros are expanded.
* `Box::new`, `clone`, `&`, `*`, `map_err(Error::from)` and `Error::from` are the identity.
* Mutual recursion is Lean's `partial_fixpoint`, whose least element is `oof`: a function that did
  not return would be `oof`.
-/

namespace Kairos

open Lean.Order

/-- `oof` as "does not return": the order `partial_fixpoint` needs. Not a function of the code; for the recursion of src/timetype.rs:454-1180 and the loops of src/util.rs:22-30. -/
instance {ε α : Type} : PartialOrder (OutE ε α) :=
  inferInstanceAs (PartialOrder (FlatOrder (OutE.oof : OutE ε α)))

noncomputable instance {ε α : Type} : CCPO (OutE ε α) :=
  inferInstanceAs (CCPO (FlatOrder (OutE.oof : OutE ε α)))

noncomputable instance {ε : Type} : MonoBind (OutE ε) where
  bind_mono_left h := by
    cases h
    · exact FlatOrder.rel.bot
    · exact FlatOrder.rel.refl
  bind_mono_right {_ _ a _ _} h := by
    cases a with
    | ok v => exact h v
    | err e => exact FlatOrder.rel.refl
    | panic => exact FlatOrder.rel.refl
    | oof => exact FlatOrder.rel.refl

namespace Rs

variable {ε α β : Type}

/-- Rust's `while`, over the tuple of variables its body assigns, as in src/util.rs:22-30. -/
def «while» (cond : α → OutE ε Bool) (body : α → OutE ε α) (s : α) : OutE ε α := do
  let b ← cond s
  if b then
    let s' ← body s
    Rs.while cond body s'
  else .ok s
partial_fixpoint

/-- `Option::map` with a closure that may panic, as in src/timetype.rs:486-487. -/
def optMap (o : Option α) (f : α → OutE ε β) : OutE ε (Option β) :=
  match o with
  | none => .ok none
  | some a => do
    let b ← f a
    .ok (some b)

/-- `Option::and_then` with a closure that may panic, as in src/timetype.rs:577, 805. -/
def optAndThen (o : Option α) (f : α → OutE ε (Option β)) : OutE ε (Option β) :=
  match o with
  | none => .ok none
  | some a => f a

/-- `assert!`, as in src/iter.rs:325. -/
def assert (b : Bool) : OutE ε Unit := if b then .ok () else .panic

end Rs

end Kairos
