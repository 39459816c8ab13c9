import Verif.Model.ParserTimeType

/-!
# Model of `src/parser/iterator.rs` and `src/parser/mod.rs`
-/

namespace Kairos.Parser

open Nom

/-- `enum Iterspec` — src/parser/iterator.rs:27-37. -/
inductive Iterspec where
  | secondly | minutely | hourly | daily | weekly | monthly | yearly
  | every (i : Int) (unit : TimeUnit)
deriving DecidableEq, Repr

/-- `iter_spec` — src/parser/iterator.rs:11-25. -/
def iterSpec : P Iterspec := altComplete [
  map (tok "secondly") fun _ => .secondly,
  map (tok "minutely") fun _ => .minutely,
  map (tok "hourly") fun _ => .hourly,
  map (tok "daily") fun _ => .daily,
  map (tok "weekly") fun _ => .weekly,
  map (tok "monthly") fun _ => .monthly,
  map (tok "yearly") fun _ => .yearly,
  bind (tok "every") fun _ => bind integer fun number => bind unitParser fun unit =>
    ret (.every number unit)]

/-- `enum UntilSpec` — src/parser/iterator.rs:52-56. -/
inductive UntilSpec where
  | exact (e : ExactDate)
  | times (i : Int)
deriving DecidableEq, Repr

/-- `until_spec` — src/parser/iterator.rs:39-50. -/
def untilSpec (iso : Iso) : P UntilSpec := altComplete [
  bind (tok "until") fun _ => bind sp fun _ => bind (exactDateParser iso) fun exact =>
    ret (.exact exact),
  bind integer fun num => bind sp fun _ => bind (tok "times") fun _ => ret (.times num)]

/-- `struct Iterator(Date, Iterspec, Option<UntilSpec>)` — src/parser/iterator.rs:65-66. -/
structure PIterator where
  date : PDate
  spec : Iterspec
  until_ : Option UntilSpec
deriving DecidableEq, Repr

/-- `iterator` — src/parser/iterator.rs:58-63. -/
def iterator (iso : Iso) : P PIterator :=
  bind (opt sp) fun _ => bind (date iso) fun d =>
  bind (opt sp) fun _ => bind iterSpec fun spec =>
  bind (opt sp) fun _ => bind (opt (complete (untilSpec iso))) fun until_ =>
  ret ⟨d, spec, until_⟩

/-- The closure `unit_to_amount` — src/parser/iterator.rs:73-81. -/
def unitToAmount (c : Cfg) (i : Int) : TimeUnit → Out TT
  | .second => .ok (.seconds i)
  | .minute => .ok (.minutes i)
  | .hour => .ok (.hours i)
  | .day => .ok (.days i)
  | .week => TT.weeks c i
  | .month => .ok (.months i)
  | .year => .ok (.years i)

/-- The `match self.1` of `into_user_iterator` — src/parser/iterator.rs:83-92. -/
def Iterspec.recur (c : Cfg) : Iterspec → Out TT
  | .every i unit => unitToAmount c i unit
  | .secondly => unitToAmount c 1 .second
  | .minutely => unitToAmount c 1 .minute
  | .hourly => unitToAmount c 1 .hour
  | .daily => unitToAmount c 1 .day
  | .weekly => unitToAmount c 1 .week
  | .monthly => unitToAmount c 1 .month
  | .yearly => unitToAmount c 1 .year

/-- The closure `into_ndt` — src/parser/iterator.rs:94-98. -/
def intoNdt (c : Cfg) (e : TT) : Out Moment := do
  let v ← calculate c e
  OutE.ofOption v.getMoment .notADateInsideIterator

/-- `enum UserIterator` — src/parser/iterator.rs:126-133 (at `I = Iter`). -/
inductive UserIterator where
  | iterator (it : Iter)
  | timesIter (s : TimesState Iter)
  | untilIterator (it : Iter) (ending : Moment)
deriving DecidableEq, Repr

/-- `UserIterator::next` — src/parser/iterator.rs:140-146. -/
def UserIterator.next (c : Cfg) : UserIterator → UserIterator × Item
  | .iterator i => let (i', r) := i.next c; (.iterator i', r)
  | .timesIter s => let (s', r) := timesNext c (Iter.next c) s; (.timesIter s', r)
  | .untilIterator i e => let (i', r) := untilNext c (Iter.next c) e i; (.untilIterator i' e, r)

/-- `into_user_iterator` — src/parser/iterator.rs:69-122. `now` and `now'` are the clock readings
for the start date and, taken later, for the `until` date. -/
def PIterator.intoUserIterator (c : Cfg) (now now' : Moment) (p : PIterator) : Out UserIterator := do
  let recur ← p.spec.recur c
  match p.until_ with
  | some (.exact e) => do
    let base ← intoNdt c (← p.date.intoTimetype c now)
    let e ← intoNdt c (← e.intoTimetype c now')
    let it ← Iter.build base recur
    .ok (.untilIterator it e)
  | some (.times i) => do
    let base ← intoNdt c (← p.date.intoTimetype c now)
    let it ← Iter.build base recur
    .ok (.timesIter (timesNew it i))
  | none => do
    let base ← intoNdt c (← p.date.intoTimetype c now)
    let it ← Iter.build base recur
    .ok (.iterator it)

deriving instance DecidableEq for Except

/-- `enum Parsed` — src/parser/mod.rs:59-62. The iterator case carries a `Result`. -/
inductive Parsed where
  | iterator (r : Except ErrorKind UserIterator)
  | timeType (t : TT)
deriving DecidableEq

/-- `Ok(Parsed::Iterator(it.into_user_iterator()))` — src/parser/mod.rs:65: the inner `Result` is
stored, a panic unwinds. -/
def wrapIterator : Out UserIterator → Out Parsed
  | .ok u => .ok (.iterator (.ok u))
  | .err e => .ok (.iterator (.error e))
  | .panic => .panic
  | .oof => .oof

/-- `do_parse` — src/parser/mod.rs:64-67. -/
def doParse (c : Cfg) (iso : Iso) (now now' : Moment) : P (Out Parsed) := altComplete [
  bind (iterator iso) fun it => ret (wrapIterator (it.intoUserIterator c now now')),
  bind (timetype iso) fun tt => ret (tt.intoTimetype c now >>= fun t => .ok (.timeType t))]

/-- `parse` — src/parser/mod.rs:69-78. -/
def parse (c : Cfg) (iso : Iso) (now now' : Moment) (s : List Char) : Out Parsed :=
  match doParse c iso now now' s with
  | .done _ r => r
  | .error => .err .nomError
  | .incomplete => .err .unknownParserError

end Kairos.Parser
