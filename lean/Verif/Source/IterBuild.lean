import Verif.Source.TimeType
import Verif.Model.Iter

/-! Generated from src/iter.rs by tools/rs2lean.py; do not edit. The translation of each construct is
described in `Verif/Source/Rust.lean`. -/

set_option linter.all false
set_option autoImplicit false

namespace Kairos.Source

/-- `fn build` — src/iter.rs:28-38. -/
def Iter.build (cfg : Cfg) (base : Moment) (inc : TT) : Out Iter := do
  let t1 ← TimeType.is_a_amount cfg inc
  (if (!t1) then do
      (.err (.argumentErrorNotAnAmount inc))
    else do
      let t2 ← TimeType.moment cfg base
      (.ok ({ base := t2, increment := inc, hadFirst := false } : Iter))
    )

/-- `fn minutely` — src/iter.rs:321-330. -/
def Minutely.minutely (cfg : Cfg) (self : TT) (i : Int) : Out Iter := do
  (match self with
    | .moment mom => do
        let t1 ← TimeType.minutes cfg i
        let increment := t1
        let t2 ← TimeType.is_a_amount cfg increment
        Rs.assert t2
        (Iter.build cfg mom increment)
    | _ => do
        (.err (.argumentErrorNotAnAmount self))
    )

/-- `fn hourly` — src/iter.rs:336-345. -/
def Hourly.hourly (cfg : Cfg) (self : TT) (i : Int) : Out Iter := do
  (match self with
    | .moment mom => do
        let t1 ← TimeType.hours cfg i
        let increment := t1
        let t2 ← TimeType.is_a_amount cfg increment
        Rs.assert t2
        (Iter.build cfg mom increment)
    | _ => do
        (.err (.argumentErrorNotAnAmount self))
    )

/-- `fn daily` — src/iter.rs:351-360. -/
def Daily.daily (cfg : Cfg) (self : TT) (i : Int) : Out Iter := do
  (match self with
    | .moment mom => do
        let t1 ← TimeType.days cfg i
        let increment := t1
        let t2 ← TimeType.is_a_amount cfg increment
        Rs.assert t2
        (Iter.build cfg mom increment)
    | _ => do
        (.err (.argumentErrorNotAnAmount self))
    )

/-- `fn weekly` — src/iter.rs:367-376. -/
def Weekly.weekly (cfg : Cfg) (self : TT) (i : Int) : Out Iter := do
  (match self with
    | .moment mom => do
        let t1 ← cfg.mul i 7
        let t2 ← TimeType.days cfg t1
        let increment := t2
        let t3 ← TimeType.is_a_amount cfg increment
        Rs.assert t3
        (Iter.build cfg mom increment)
    | _ => do
        (.err (.argumentErrorNotAnAmount self))
    )

/-- `fn monthly` — src/iter.rs:382-391. -/
def Monthly.monthly (cfg : Cfg) (self : TT) (i : Int) : Out Iter := do
  (match self with
    | .moment mom => do
        let t1 ← TimeType.months cfg i
        let increment := t1
        let t2 ← TimeType.is_a_amount cfg increment
        Rs.assert t2
        (Iter.build cfg mom increment)
    | _ => do
        (.err (.argumentErrorNotAnAmount self))
    )

/-- `fn yearly` — src/iter.rs:397-406. -/
def Yearly.yearly (cfg : Cfg) (self : TT) (i : Int) : Out Iter := do
  (match self with
    | .moment mom => do
        let t1 ← TimeType.years cfg i
        let increment := t1
        let t2 ← TimeType.is_a_amount cfg increment
        Rs.assert t2
        (Iter.build cfg mom increment)
    | _ => do
        (.err (.argumentErrorNotAnAmount self))
    )

/-- `fn every` — src/iter.rs:412-417. -/
def Every.every (cfg : Cfg) (self : TT) (inc : TT) : Out Iter := do
  (match self with
    | .moment mom => do
        (Iter.build cfg mom inc)
    | _ => do
        (.err (.argumentErrorNotAnAmount self))
    )

end Kairos.Source
