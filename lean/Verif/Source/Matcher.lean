import Verif.Source.TimeType

/-! Generated from src/matcher.rs by tools/rs2lean.py; do not edit. The translation of each construct is
described in `Verif/Source/Rust.lean`. -/

set_option linter.all false
set_option autoImplicit false

namespace Kairos.Source

/-- `fn matches` — src/matcher.rs:18-23. -/
def Day.matches (cfg : Cfg) (self : Day) (tt : TT) : Out Bool := do
  let t1 ← Day.into cfg self
  let this := t1
  let t2 ← TimeType.get_moment cfg tt
  let t3 ← Rs.optMap t2 (fun mom => .ok (this == mom.weekday))
  let t4 ← TimeType.name cfg tt
  (OutE.ofOption t3 (.argumentErrorNotAMoment t4))

/-- `fn matches` — src/matcher.rs:28-33. -/
def Month.matches (cfg : Cfg) (self : Month) (tt : TT) : Out Bool := do
  let t1 ← Month.into cfg self
  let this := t1
  let t2 ← TimeType.get_moment cfg tt
  let t3 ← Rs.optMap t2 (fun mom => .ok (this == mom.month))
  let t4 ← TimeType.name cfg tt
  (OutE.ofOption t3 (.argumentErrorNotAMoment t4))

end Kairos.Source
