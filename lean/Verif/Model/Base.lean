/-!
# Results, integers, build profile

Outcome of a Rust call, and Rust's machine integer operations.
-/

namespace Kairos

/-- Outcome of a call: `Ok`, `Err` (the `Result` of src/timetype.rs:8, failure's `Fallible`), a panic, or "out of fuel".
`oof` is not a behaviour of the code; it only marks that the model's recursion budget was too small,
and is proved never to come out of `calculate` (see `Props/Evaluation.lean`). The error type is a
parameter so that this file does not depend on `TimeType`. -/
inductive OutE (ε α : Type) where
  | ok (a : α)
  | err (e : ε)
  | panic
  | oof
deriving DecidableEq, Repr

namespace OutE
variable {ε α β : Type}

/-- Sequencing: `?`, `try!`, `and_then`, as in src/timetype.rs:476, 634, 807; a panic unwinds. -/
def bind (x : OutE ε α) (f : α → OutE ε β) : OutE ε β :=
  match x with
  | ok a => f a
  | err e => err e
  | panic => panic
  | oof => oof

instance : Monad (OutE ε) where
  pure := ok
  bind := bind

@[simp] theorem ok_bind (a : α) (f : α → OutE ε β) : (ok a >>= f) = f a := rfl
@[simp] theorem err_bind (e : ε) (f : α → OutE ε β) : ((err e : OutE ε α) >>= f) = err e := rfl
@[simp] theorem panic_bind (f : α → OutE ε β) : ((panic : OutE ε α) >>= f) = panic := rfl
@[simp] theorem oof_bind (f : α → OutE ε β) : ((oof : OutE ε α) >>= f) = oof := rfl
@[simp] theorem pure_eq (a : α) : (pure a : OutE ε α) = ok a := rfl

theorem bind_assoc' {γ : Type} (x : OutE ε α) (f : α → OutE ε β) (g : β → OutE ε γ) :
    ((x >>= f) >>= g) = (x >>= fun a => f a >>= g) := by
  cases x <;> rfl

theorem bind_eq_ok {x : OutE ε α} {f : α → OutE ε β} {b : β} :
    (x >>= f) = ok b ↔ ∃ a, x = ok a ∧ f a = ok b := by
  cases x <;> simp

/-- `Option::ok_or` (std), as in src/timetype.rs:488, 806 and src/matcher.rs:22. -/
def ofOption (o : Option α) (e : ε) : OutE ε α :=
  match o with
  | some a => ok a
  | none => err e

end OutE

/-- Cargo build profile: `debug` checks integer overflow (panics), `release` wraps. -/
inductive Profile where
  | debug
  | release
deriving DecidableEq, Repr

/-- What the model is parametrised by: the build profile, and the range of years chrono can
represent (chrono 0.4 up to 0.4.31: -262144..262143, later 0.4 releases one year less each side). -/
structure Cfg where
  profile : Profile
  minYear : Int
  maxYear : Int
deriving DecidableEq, Repr

/-- `x` is representable as an `i64`, the number type of all amounts (src/timetype.rs:23-28). -/
def InI64 (x : Int) : Prop := -9223372036854775808 ≤ x ∧ x ≤ 9223372036854775807

instance (x : Int) : Decidable (InI64 x) := by unfold InI64; infer_instance

/-- Two's complement truncation to 64 bits: Rust's `i64` arithmetic without overflow checks (see `Cfg.chk`). -/
def wrap64 (x : Int) : Int := Int.bmod x 18446744073709551616

/-- `x as i32` for `x : i64`, as in src/timetype.rs:804: truncation, in both profiles. -/
def asI32 (x : Int) : Int := Int.bmod x 4294967296

/-- `x as u32` for `x : i64`, as in src/timetype.rs:804-806: truncation, in both profiles. -/
def asU32 (x : Int) : Int := x % 4294967296

variable {ε : Type}

/-- The mathematical result `x` of an `i64` operation, as Rust delivers it: the overflow check of the profile (Cargo.toml sets none, so the
defaults hold) or wrapping. -/
def Cfg.chk (c : Cfg) (x : Int) : OutE ε Int :=
  if InI64 x then .ok x
  else match c.profile with
    | .debug => .panic
    | .release => .ok (wrap64 x)

/-- `a + b` on `i64` (Rust), as in src/timetype.rs:668, 800. -/
def Cfg.add (c : Cfg) (a b : Int) : OutE ε Int := c.chk (a + b)
/-- `a - b` on `i64` (Rust), as in src/timetype.rs:949 and src/util.rs:40-61. -/
def Cfg.sub (c : Cfg) (a b : Int) : OutE ε Int := c.chk (a - b)
/-- `a * b` on `i64` (Rust), as in src/timetype.rs:152, 669. -/
def Cfg.mul (c : Cfg) (a b : Int) : OutE ε Int := c.chk (a * b)
/-- `a.abs()` on `i64` (Rust), as in src/util.rs:40-61; overflows for `i64::MIN`. -/
def Cfg.abs (c : Cfg) (a : Int) : OutE ε Int := c.chk (if a < 0 then -a else a)

/-- `a * k₁ * k₂ * …` on `i64` (Rust), left to right, each product checked, as in src/timetype.rs:246-249, 300-301. -/
def Cfg.mulL (c : Cfg) (a : Int) : List Int → OutE ε Int
  | [] => .ok a
  | k :: ks => do
    let p ← c.mul a k
    c.mulL p ks

end Kairos
