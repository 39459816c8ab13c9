import Verif.Model.TimeType

/-!
# Addition to a moment with the loops of `adjust_times_add` cut off

The loops of src/util.rs:22-30 are allowed a given number of rounds; `.oof` is the answer if that is too early.
-/

namespace Kairos

/-- `adjust_times_add` — src/util.rs:1-33, with at most `n₁` rounds of the loop over months (lines 22-25) and at most
`n₂` rounds of the loop over years (lines 27-30). The cut-off is not in the code. -/
def adjustTimesAddN {ε : Type} (c : Cfg) (n₁ n₂ : Nat) (p : Parts) : OutE ε Parts := do
  let (mi, s) ← fix c p.s 60 p.mi
  let (h, mi) ← fix c mi 60 p.h
  let (d, h) ← fix c h 24 p.d
  let (mo, d) ← dayLoop c p.y n₁ p.mo d
  let (y, mo) ← monthLoop c n₂ p.y mo
  .ok ⟨y, mo, d, h, mi, s⟩

/-- `add_to_moment` — src/timetype.rs:790-899, with those cut-offs. The arms without loops are as they were. -/
def addToMomentN (c : Cfg) (n₁ n₂ : Nat) (mom : Moment) (tt : TT) : Out TT :=
  match tt with
  | .seconds a => do
    let s ← c.add mom.second a
    let p ← adjustTimesAddN c n₁ n₂ ⟨mom.year, mom.month, mom.day, mom.hour, mom.minute, s⟩
    Eval.buildMoment c p
  | .minutes a => do
    let mi ← c.add mom.minute a
    let p ← adjustTimesAddN c n₁ n₂ ⟨mom.year, mom.month, mom.day, mom.hour, mi, mom.second⟩
    Eval.buildMoment c p
  | .hours a => do
    let h ← c.add mom.hour a
    let p ← adjustTimesAddN c n₁ n₂ ⟨mom.year, mom.month, mom.day, h, mom.minute, mom.second⟩
    Eval.buildMoment c p
  | .days a => do
    let d ← c.add mom.day a
    let p ← adjustTimesAddN c n₁ n₂ ⟨mom.year, mom.month, d, mom.hour, mom.minute, mom.second⟩
    Eval.buildMoment c p
  | .months a => do
    let mo ← c.add mom.month a
    let p ← adjustTimesAddN c n₁ n₂ ⟨mom.year, mo, mom.day, mom.hour, mom.minute, mom.second⟩
    Eval.buildMoment c p
  | .years a => do
    let y ← c.add mom.year a
    let p ← adjustTimesAddN c n₁ n₂ ⟨y, mom.month, mom.day, mom.hour, mom.minute, mom.second⟩
    Eval.buildMoment c p
  | tt => Eval.addToMoment c (exec c) mom tt

end Kairos
