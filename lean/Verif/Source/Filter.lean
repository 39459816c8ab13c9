import Verif.Source.TimeType

/-! Generated from src/indicator.rs by tools/rs2lean.py; do not edit. The translation of each construct is
described in `Verif/Source/Rust.lean`. -/

set_option linter.all false
set_option autoImplicit false

namespace Kairos.Source

/-- `fn filter` — src/indicator.rs:78-80. -/
def DayFilter.filter (cfg : Cfg) (self : Day) (tt : TT) : Out Bool := do
  let t1 ← TimeType.get_moment cfg tt
  let t3 ← Rs.optMap t1 (fun mom => do
      let t2 ← Day.into cfg self
      .ok (mom.weekday == t2)
    )
  .ok (Option.getD t3 false)

/-- `fn filter` — src/indicator.rs:99-101. -/
def MonthFilter.filter (cfg : Cfg) (self : Month) (tt : TT) : Out Bool := do
  let t1 ← TimeType.get_moment cfg tt
  let t3 ← Rs.optMap t1 (fun mom => do
      let t2 ← Month.into cfg self
      .ok (mom.month == t2)
    )
  .ok (Option.getD t3 false)

end Kairos.Source
