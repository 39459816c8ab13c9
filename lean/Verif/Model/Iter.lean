import Verif.Model.Indicator

/-!
# Model of `src/iter.rs`

An iterator is a state `σ` with `next : σ → σ × Option (Out TT)`. `some (.ok t)` is `Some(Ok(t))`,
`some (.err e)` is `Some(Err(e))`, `some .panic` means that the call panicked.
-/

namespace Kairos

/-- What a call of `Iterator::next` returns: `type Item` in src/iter.rs:78, 109, 157, 202, 260. -/
abbrev Item := Option (Out TT)

/-- `struct Iter` — src/iter.rs:12-17. -/
structure Iter where
  base : TT
  increment : TT
  hadFirst : Bool
deriving DecidableEq, Repr

namespace Iter

/-- `Iter::build` — src/iter.rs:28-38. -/
def build (base : Moment) (inc : TT) : Out Iter :=
  if !inc.isAAmount then .err (.argumentErrorNotAnAmount inc)
  else .ok { base := .moment base, increment := inc, hadFirst := false }

/-- `Iter::recalculate` — src/iter.rs:56-63: on an error `base` keeps its (unevaluated) value. -/
def recalculate (c : Cfg) (it : Iter) : Iter × Out Unit :=
  match calculate c it.base with
  | .ok res => ({ it with base := res }, .ok ())
  | .err e => (it, .err e)
  | .panic => (it, .panic)
  | .oof => (it, .oof)

/-- `Iter::skip` — src/iter.rs:45-48. -/
def skip (c : Cfg) (it : Iter) : Iter × Out Unit :=
  recalculate c { it with base := it.base + it.increment }

/-- `Iter::rollback` — src/iter.rs:51-54. -/
def rollback (c : Cfg) (it : Iter) : Iter × Out Unit :=
  recalculate c { it with base := it.base - it.increment }

/-- `Iter::next` — src/iter.rs:80-87. -/
def next (c : Cfg) (it : Iter) : Iter × Item :=
  if !it.hadFirst then ({ it with hadFirst := true }, some (.ok it.base))
  else
    let (it', r) := it.skip c
    (it', some (r >>= fun _ => .ok it'.base))

end Iter

section Adaptors
variable {σ : Type}

/-- `FilterIter::next` — src/iter.rs:111-123. `fuel` bounds the rounds of `loop`. -/
def filterNext (nx : σ → σ × Item) (matches_ : TT → Out Bool) : Nat → σ → σ × Item
  | 0, s => (s, some .oof)
  | fuel + 1, s =>
    match nx s with
    | (s', none) => (s', none)
    | (s', some (.ok tt)) =>
      match matches_ tt with
      | .ok false => filterNext nx matches_ fuel s'
      | .ok true => (s', some (.ok tt))
      | .err e => (s', some (.err e))
      | .panic => (s', some .panic)
      | .oof => (s', some .oof)
    | (s', some r) => (s', some r)

/-- `WithoutIter::next` — src/iter.rs:159-171. `fuel` bounds the rounds of `loop`. -/
def withoutNext (nx : σ → σ × Item) (matches_ : TT → Out Bool) : Nat → σ → σ × Item
  | 0, s => (s, some .oof)
  | fuel + 1, s =>
    match nx s with
    | (s', none) => (s', none)
    | (s', some (.ok tt)) =>
      match matches_ tt with
      | .ok false => (s', some (.ok tt))
      | .ok true => withoutNext nx matches_ fuel s'
      | .err e => (s', some (.err e))
      | .panic => (s', some .panic)
      | .oof => (s', some .oof)
    | (s', some r) => (s', some r)

/-- `UntilIter::next` — src/iter.rs:204-221. The state of `UntilIter` is the inner state and the
fixed end date. -/
def untilNext (c : Cfg) (nx : σ → σ × Item) (ending : Moment) (s : σ) : σ × Item :=
  match nx s with
  | (s', none) => (s', none)
  | (s', some (.ok tt)) =>
    match calculate c tt with
    | .ok tt =>
      match tt.getMoment with
      | some m => if m.lt ending then (s', some (.ok tt)) else (s', none)
      | none => (s', some (.err (.argumentErrorNotAMoment tt.name)))
    | r => (s', some r)
  | (s', some r) => (s', some r)

/-- `struct TimesIter` — src/iter.rs:236-243. -/
structure TimesState (σ : Type) where
  inner : σ
  times : Int
  count : Int
deriving DecidableEq, Repr

/-- `Times::times`, `TimesIter::new` — src/iter.rs:248-254, 279-281. -/
def timesNew (s : σ) (times : Int) : TimesState σ := { inner := s, times := times, count := 0 }

/-- `TimesIter::next` — src/iter.rs:262-269. -/
def timesNext (c : Cfg) (nx : σ → σ × Item) (s : TimesState σ) : TimesState σ × Item :=
  if s.times = s.count then (s, none)
  else
    match (c.add s.count 1 : Out Int) with
    | .ok count =>
      let (inner', r) := nx s.inner
      ({ s with inner := inner', count := count }, r)
    | .err e => (s, some (.err e))
    | .panic => (s, some .panic)
    | .oof => (s, some .oof)

/-- `n` successive calls of `next` (src/iter.rs; std's `Iterator`): the final state and what each call returned. -/
def callNext (nx : σ → σ × Item) : Nat → σ → σ × List Item
  | 0, s => (s, [])
  | n + 1, s =>
    let (s', r) := nx s
    let (s'', rs) := callNext nx n s'
    (s'', r :: rs)

end Adaptors

namespace Ext

/-- The common shape of the six `extensions` constructors (src/iter.rs:319-407): `increment` is evaluated only for a
moment base; the `assert!` panics if it fails. -/
def mk (self : TT) (increment : Out TT) : Out Iter :=
  match self with
  | .moment mom => do
    let increment ← increment
    if increment.isAAmount then Iter.build mom increment else .panic
  | _ => .err (.argumentErrorNotAnAmount self)

/-- `minutely` — src/iter.rs:321-330. -/
def minutely (self : TT) (i : Int) : Out Iter := mk self (.ok (.minutes i))
/-- `hourly` — src/iter.rs:336-345. -/
def hourly (self : TT) (i : Int) : Out Iter := mk self (.ok (.hours i))
/-- `daily` — src/iter.rs:351-360. -/
def daily (self : TT) (i : Int) : Out Iter := mk self (.ok (.days i))
/-- `weekly` — src/iter.rs:367-376. -/
def weekly (c : Cfg) (self : TT) (i : Int) : Out Iter :=
  mk self (do .ok (.days (← c.mul i 7)))
/-- `monthly` — src/iter.rs:382-391. -/
def monthly (self : TT) (i : Int) : Out Iter := mk self (.ok (.months i))
/-- `yearly` — src/iter.rs:397-406. -/
def yearly (self : TT) (i : Int) : Out Iter := mk self (.ok (.years i))

/-- `every` — src/iter.rs:412-417. -/
def every (self inc : TT) : Out Iter :=
  match self with
  | .moment mom => Iter.build mom inc
  | _ => .err (.argumentErrorNotAnAmount self)

end Ext

end Kairos
