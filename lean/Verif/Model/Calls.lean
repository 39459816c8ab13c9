import Verif.Model.TimeType

/-!
# Which calls the functions of `src/timetype.rs` make

`Eval.body c R k` (`Model/TimeType.lean`) is what the function called by `k` returns if the calls it makes return what
`R` says. This file lists those calls, in order and as often as they are made, arm by arm as in the source; which ones
are made can depend on what earlier ones return. `Props/Work.lean` proves that nothing else is used and that each is
used. How often the same call is made cannot be seen from `Eval.body` (calling twice returns the same twice); it can
from the functions of `Model/Traced.lean`, which write their calls down, and `Props/Work.lean` proves that these are the calls listed here.
-/

namespace Kairos

deriving instance DecidableEq for Call

/-- The calls after a `?`, `try!` or `and_then` (as in src/timetype.rs:476, 634, 807): made with the value if there is one, otherwise none. -/
def OutE.thenCalls (x : Out TT) (f : TT → List Call) : List Call :=
  match x with
  | .ok v => f v
  | _ => []

namespace Eval

/-- The calls `do_calculate` makes — src/timetype.rs:454-467. -/
def callsCalculate : TT → List Call
  | .addition a b => [.add a b]
  | .subtraction a b => [.sub a b]
  | .endOfYear inner => [.endOf .year inner]
  | .endOfMonth inner => [.endOf .month inner]
  | .endOfDay inner => [.endOf .day inner]
  | .endOfHour inner => [.endOf .hour inner]
  | .endOfMinute inner => [.endOf .minute inner]
  | _ => []

/-- The calls `end_of_year` … `end_of_minute` make — src/timetype.rs:473-616. -/
def callsEndOf (R : Call → Out TT) (tt : TT) : List Call :=
  .calculate tt :: (R (.calculate tt)).thenCalls fun v =>
    match v with
    | .endOfYear e => [.calculate e]
    | .endOfMonth e => [.calculate e]
    | .endOfDay e => [.calculate e]
    | .endOfHour e => [.calculate e]
    | .endOfMinute e => [.calculate e]
    | _ => []

/-- The calls `add` makes — src/timetype.rs:618-662, arms in source order. -/
def callsAdd (R : Call → Out TT) (a b : TT) : List Call :=
  match a, b with
  | .moment mom, thing => [.addToMoment mom thing]
  | _, .moment _ => []
  | .seconds a, other => [.addTo .seconds a other]
  | .minutes a, other => [.addTo .minutes a other]
  | .hours a, other => [.addTo .hours a other]
  | .days a, other => [.addTo .days a other]
  | .months a, other => [.addTo .months a other]
  | .years a, other => [.addTo .years a other]
  | .addition a b, other => .add a b :: (R (.add a b)).thenCalls fun bx => [.add bx other]
  | other, .addition a b => .add a b :: (R (.add a b)).thenCalls fun bx => [.add other bx]
  | .subtraction a b, other => .sub a b :: (R (.sub a b)).thenCalls fun bx => [.add other bx]
  | other, .subtraction a b =>
    .calculate a :: (R (.calculate a)).thenCalls fun bx =>
      .add other bx :: (R (.add other bx)).thenCalls fun rx => [.sub rx b]
  | _, _ => []

/-- The calls `sub` makes — src/timetype.rs:901-943, arms in source order. -/
def callsSub (R : Call → Out TT) (a b : TT) : List Call :=
  match a, b with
  | .moment mom, thing => [.subFromMoment mom thing]
  | .seconds a, other => [.subFrom .seconds a other]
  | .minutes a, other => [.subFrom .minutes a other]
  | .hours a, other => [.subFrom .hours a other]
  | .days a, other => [.subFrom .days a other]
  | .months a, other => [.subFrom .months a other]
  | .years a, other => [.subFrom .years a other]
  | .subtraction a b, other => .sub a b :: (R (.sub a b)).thenCalls fun bx => [.sub bx other]
  | other, .subtraction a b => .sub a b :: (R (.sub a b)).thenCalls fun bx => [.sub other bx]
  | .addition a b, other => .add a b :: (R (.add a b)).thenCalls fun bx => [.sub bx other]
  | other, .addition a b =>
    .calculate a :: (R (.calculate a)).thenCalls fun bx =>
      .sub other bx :: (R (.sub other bx)).thenCalls fun rx => [.add rx b]
  | _, _ => []

/-- The calls `add_to_seconds` … `add_to_years` and `add_to_moment`, `sub_from_seconds` … `sub_from_moment` make —
src/timetype.rs:681-682, 702-703, 723-724, 744-745, 765-766, 786-787, 896-897, 962-963, 983-984, 1004-1005, 1025-1026,
1046-1047, 1067-1068, 1177-1178: `again` is the same function, called with the value of the right operand. -/
def callsAmount (R : Call → Out TT) (again : TT → Call) : TT → List Call
  | .addition b c => .add b c :: (R (.add b c)).thenCalls fun r => [again r]
  | .subtraction b c => .sub b c :: (R (.sub b c)).thenCalls fun r => [again r]
  | _ => []

/-- The calls the function called by `k` makes (src/timetype.rs:454-1180), if calls return what `R` says. -/
def calls (R : Call → Out TT) : Call → List Call
  | .calculate t => callsCalculate t
  | .endOf _ t => callsEndOf R t
  | .add a b => callsAdd R a b
  | .sub a b => callsSub R a b
  | .addTo u n t => callsAmount R (.addTo u n) t
  | .subFrom u n t => callsAmount R (.subFrom u n) t
  | .addToMoment m t => callsAmount R (.addToMoment m) t
  | .subFromMoment m t => callsAmount R (.subFromMoment m) t

end Eval

/-- How many calls are made in all when the function called by `k` runs (src/timetype.rs:454-1180), `k` itself
included, counting those that are nested at most `n` deep. Not in the code. -/
def callCount (c : Cfg) : Nat → Call → Nat
  | 0, _ => 0
  | n + 1, k => 1 + ((Eval.calls (exec c) k).map (callCount c n)).sum

end Kairos
