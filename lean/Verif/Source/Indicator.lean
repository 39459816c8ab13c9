import Verif.Source.Rust
import Verif.Model.Indicator

/-! Generated from src/indicator.rs by tools/rs2lean.py; do not edit. The translation of each construct is
described in `Verif/Source/Rust.lean`. -/

set_option linter.all false
set_option autoImplicit false

namespace Kairos.Source

/-- `fn into` — src/indicator.rs:25-35. -/
def Day.into (cfg : Cfg) (self : Day) : Out Int := do
  let t1 ← (match self with
    | .monday => do
        .ok 0
    | .tuesday => do
        .ok 1
    | .wednesday => do
        .ok 2
    | .thursday => do
        .ok 3
    | .friday => do
        .ok 4
    | .saturday => do
        .ok 5
    | .sunday => do
        .ok 6
    )
  .ok t1

/-- `fn into` — src/indicator.rs:55-70. -/
def Month.into (cfg : Cfg) (self : Month) : Out Int := do
  let t1 ← (match self with
    | .january => do
        .ok 1
    | .february => do
        .ok 2
    | .march => do
        .ok 3
    | .april => do
        .ok 4
    | .may => do
        .ok 5
    | .june => do
        .ok 6
    | .july => do
        .ok 7
    | .august => do
        .ok 8
    | .september => do
        .ok 9
    | .october => do
        .ok 10
    | .november => do
        .ok 11
    | .december => do
        .ok 12
    )
  .ok t1

end Kairos.Source
