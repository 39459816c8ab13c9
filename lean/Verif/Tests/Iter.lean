import Verif.Model.Iter
import Verif.Spec.Chain

/-!
# The unit tests of `src/iter.rs`, run on the model

Tests that use the current time are run at one fixed moment. The tests that only check that an expression compiles are left out.
-/

namespace Tests.Iter
open Kairos Spec

/-- The tests run in the debug profile. -/
abbrev c : Cfg := std .debug

/-- What the first `n` calls of `next` return. -/
def firsts (it : Out Kairos.Iter) (n : Nat) : Out (List Item) := it >>= fun it => .ok (callNext (Iter.next c) n it).2

def moments (l : List Moment) : List Item := l.map fun m => some (.ok (.moment m))

/-- test_minutely, 431-445 -/
example : firsts (Ext.minutely (.moment (at_ 2000 1 1 0 0 0)) 1) 5
    = .ok (moments [at_ 2000 1 1 0 0 0, at_ 2000 1 1 0 1 0, at_ 2000 1 1 0 2 0, at_ 2000 1 1 0 3 0, at_ 2000 1 1 0 4 0]) := by
  decide +kernel
/-- test_hourly, 447-460 -/
example : firsts (Ext.hourly (.moment (at_ 2000 1 1 0 0 0)) 1) 5
    = .ok (moments [at_ 2000 1 1 0 0 0, at_ 2000 1 1 1 0 0, at_ 2000 1 1 2 0 0, at_ 2000 1 1 3 0 0, at_ 2000 1 1 4 0 0]) := by
  decide +kernel
/-- test_weekly, 462-475 -/
example : firsts (Ext.weekly c (.moment (at_ 2000 1 1 1 0 0)) 1) 5
    = .ok (moments [at_ 2000 1 1 1 0 0, at_ 2000 1 8 1 0 0, at_ 2000 1 15 1 0 0, at_ 2000 1 22 1 0 0, at_ 2000 1 29 1 0 0]) := by
  decide +kernel
/-- test_monthly, 477-490 -/
example : firsts (Ext.monthly (.moment (at_ 2000 1 1 0 0 0)) 1) 5
    = .ok (moments [at_ 2000 1 1 0 0 0, at_ 2000 2 1 0 0 0, at_ 2000 3 1 0 0 0, at_ 2000 4 1 0 0 0, at_ 2000 5 1 0 0 0]) := by
  decide +kernel
/-- test_yearly, 492-505 -/
example : firsts (Ext.yearly (.moment (at_ 2000 1 1 0 0 0)) 1) 5
    = .ok (moments [at_ 2000 1 1 0 0 0, at_ 2001 1 1 0 0 0, at_ 2002 1 1 0 0 0, at_ 2003 1 1 0 0 0, at_ 2004 1 1 0 0 0]) := by
  decide +kernel

/-- A moment in the middle of a month, in place of the current time. -/
def now : Moment := ⟨2017, 8, 16, 13, 37, 11, 123456789⟩

/-- `x.until(end)`, called `n` times. -/
def untils (it : Out Kairos.Iter) (ending : Out TT) (n : Nat) : Out (List Item) := do
  let it ← it
  match ← ending with
  | .moment e => .ok (callNext (untilNext c (Iter.next c) e) n it).2
  | _ => .panic

/-- test_compile_skip, 551-564: the Mondays among the next 20 days that are not Mondays. -/
example : ((Ext.daily (.moment now) 1) >>= fun it => .ok
      (callNext (withoutNext (filterNext (timesNext c (Iter.next c)) (Day.matches .monday) 100) (Day.matches .monday) 100) 1
        (timesNew it 20)).2)
    = (.ok [none] : Out (List Item)) := by decide +kernel
/-- test_until, 573-589 -/
example : untils (Ext.daily (.moment now) 1) (calculate c (TT.moment now - TT.days 1)) 1 = .ok [none] := by decide +kernel
/-- test_until_1, 591-607 -/
example : untils (Ext.daily (.moment now) 1) (calculate c (TT.moment now + TT.days 1)) 2
    = .ok [some (.ok (.moment now)), none] := by decide +kernel
/-- test_until_2, 609-625 -/
example : (untils (Ext.hourly (.moment now) 1) (calculate c (TT.moment now + TT.days 2)) 49 >>= fun l =>
    .ok (l.countP (·.isSome), l.getLast?)) = (.ok (48, some none) : Out (Nat × Option Item)) := by decide +kernel

end Tests.Iter
