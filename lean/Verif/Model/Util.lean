import Verif.Model.Chrono

/-!
# Model of `src/util.rs`
-/

namespace Kairos

variable {ε : Type}

/-- `is_leap_year(y: i32)` — src/util.rs:83-85. `%` is Rust's truncating remainder. -/
def isLeapYear (y : Int) : Bool :=
  (y.tmod 4 == 0) && ((y.tmod 100 != 0) || (y.tmod 400 == 0))

/-- `get_num_of_days_in_month(y: i64, m: i64)` — src/util.rs:68-80. Any `m` outside 1..12 falls
into the last `else` and counts 30 days, as in the code. -/
def getNumOfDaysInMonth (y m : Int) : Int :=
  if m = 1 ∨ m = 3 ∨ m = 5 ∨ m = 7 ∨ m = 8 ∨ m = 10 ∨ m = 12 then 31
  else if m = 2 then (if isLeapYear (asI32 y) then 29 else 28)
  else 30

/-- The `fix!` macro of `adjust_times_add` — src/util.rs:7-16. Returns the new `($next, $base)`. -/
def fix (c : Cfg) (base border next : Int) : OutE ε (Int × Int) := do
  let diff ← c.sub base (base.tmod border)
  let next ← c.add next (diff.tdiv border)
  .ok (next, base.tmod border)

/-- `while d > get_num_of_days_in_month(y, mo) { d -= …; mo += 1; }` — src/util.rs:22-25.
Fuel counts loop rounds; `dayLoop_ne_oof` shows `d` rounds suffice. Returns `(mo, d)`. -/
def dayLoop (c : Cfg) (y : Int) : Nat → Int → Int → OutE ε (Int × Int)
  | 0, mo, d => if d > getNumOfDaysInMonth y mo then .oof else .ok (mo, d)
  | n + 1, mo, d =>
    if d > getNumOfDaysInMonth y mo then do
      let d' ← c.sub d (getNumOfDaysInMonth y mo)
      let mo' ← c.add mo 1
      dayLoop c y n mo' d'
    else .ok (mo, d)

/-- `while mo > 12 { y += 1; mo -= 12; }` — src/util.rs:27-30. Returns `(y, mo)`. -/
def monthLoop (c : Cfg) : Nat → Int → Int → OutE ε (Int × Int)
  | 0, y, mo => if mo > 12 then .oof else .ok (y, mo)
  | n + 1, y, mo =>
    if mo > 12 then do
      let y' ← c.add y 1
      let mo' ← c.sub mo 12
      monthLoop c n y' mo'
    else .ok (y, mo)

/-- The six components passed through `adjust_times_add` and `adjust_times_sub` — src/util.rs:2-33, 36-65. -/
structure Parts where
  y : Int
  mo : Int
  d : Int
  h : Int
  mi : Int
  s : Int
deriving DecidableEq, Repr

/-- `adjust_times_add` — src/util.rs:1-33. -/
def adjustTimesAdd (c : Cfg) (p : Parts) : OutE ε Parts := do
  let (mi, s) ← fix c p.s 60 p.mi
  let (h, mi) ← fix c mi 60 p.h
  let (d, h) ← fix c h 24 p.d
  let (mo, d) ← dayLoop c p.y d.toNat p.mo d
  let (y, mo) ← monthLoop c mo.toNat p.y mo
  .ok ⟨y, mo, d, h, mi, s⟩

/-- One borrow step of `adjust_times_sub` — src/util.rs:39-62:
`if base < low { next -= (base.abs() / div) + 1; base = top - (0 - base).abs(); }`.
Returns the new `(next, base)`. -/
def borrow (c : Cfg) (base low div top next : Int) : OutE ε (Int × Int) :=
  if base < low then do
    let a ← c.abs base
    let q ← c.add (a.tdiv div) 1
    let next ← c.sub next q
    let z ← c.sub 0 base
    let za ← c.abs z
    let base ← c.sub top za
    .ok (next, base)
  else .ok (next, base)

/-- `adjust_times_sub` — src/util.rs:35-65. -/
def adjustTimesSub (c : Cfg) (p : Parts) : OutE ε Parts := do
  let (mi, s) ← borrow c p.s 0 60 60 p.mi
  let (h, mi) ← borrow c mi 0 60 60 p.h
  let (d, h) ← borrow c h 0 24 24 p.d
  let (mo, d) ← borrow c d 1 32 31 p.mo
  let (y, mo) ← borrow c mo 1 13 12 p.y
  .ok ⟨y, mo, d, h, mi, s⟩

end Kairos
