import Verif.Model.NomCounted
import Verif.Model.ParserIterator

/-!
# The parsers of `src/parser` once more, counting their steps

The definitions of `Model/ParserTimeType.lean` and `Model/ParserIterator.lean`, line by line, with the counting combinators of
`Model/NomCounted.lean`. `Props/ReadingTime.lean` proves that what they return is what those return.
-/

namespace Kairos.Parser.Counted

open Nom.Counted

/-- The two parsers of the `iso8601` crate (a dependency) with their steps, left open. -/
structure CountedIso where
  parseDatetime : P IsoDateTime
  parseDate : P IsoDate

/-- nom's `tag!("…")` on a literal, as in src/parser/timetype.rs:25-48. -/
def tok (s : String) : P Unit := tag s.toList

/-- `integer` — src/parser/timetype.rs:13-21 (`str::from_utf8` and `from_str` go through the digits once each). -/
def integer : P Int := alt [mapRes (ws digit) i64FromStr (fun ds => 2 * ds.length)]

/-- `unit_parser` — src/parser/timetype.rs:24-49. -/
def unitParser : P TimeUnit := altComplete [
  map (tok "seconds") fun _ => .second,
  map (tok "second") fun _ => .second,
  map (tok "secs") fun _ => .second,
  map (tok "sec") fun _ => .second,
  map (tok "s") fun _ => .second,
  map (tok "minutes") fun _ => .minute,
  map (tok "minute") fun _ => .minute,
  map (tok "mins") fun _ => .minute,
  map (tok "min") fun _ => .minute,
  map (tok "hours") fun _ => .hour,
  map (tok "hour") fun _ => .hour,
  map (tok "hrs") fun _ => .hour,
  map (tok "hr") fun _ => .hour,
  map (tok "days") fun _ => .day,
  map (tok "day") fun _ => .day,
  map (tok "d") fun _ => .day,
  map (tok "weeks") fun _ => .week,
  map (tok "week") fun _ => .week,
  map (tok "w") fun _ => .week,
  map (tok "months") fun _ => .month,
  map (tok "month") fun _ => .month,
  map (tok "years") fun _ => .year,
  map (tok "year") fun _ => .year,
  map (tok "yrs") fun _ => .year]

/-- `operator_parser` — src/parser/timetype.rs:87-90. -/
def operatorParser : P Operator := alt [
  map (tok "+") fun _ => .plus,
  map (tok "-") fun _ => .minus]

/-- `unit_alias` — src/parser/timetype.rs:98-106. -/
def unitAlias : P UnitAlias := altComplete [
  map (tok "secondly") fun _ => .secondly,
  map (tok "minutely") fun _ => .minutely,
  map (tok "hourly") fun _ => .hourly,
  map (tok "daily") fun _ => .daily,
  map (tok "weekly") fun _ => .weekly,
  map (tok "monthly") fun _ => .monthly,
  map (tok "yearly") fun _ => .yearly]

/-- `amount_parser` — src/parser/timetype.rs:108-111. -/
def amountParser : P Amount := alt [
  bind integer fun number => bind unitParser fun unit => ret ⟨number, unit⟩,
  bind unitAlias fun unitalias => ret ⟨1, unitalias.into⟩]

/-- `amount_expr_next` — src/parser/timetype.rs:130-135, given the recursive parser. -/
def amountExprNext (rec : P AmountExpr) : P (Operator × AmountExpr) :=
  bind operatorParser fun op =>
  bind (opt sp) fun _ =>
  bind rec fun amexp =>
  ret (op, amexp)

/-- Body of `amount_expr` — src/parser/timetype.rs:137-142, given the recursive parser. -/
def amountExprBody (rec : P AmountExpr) : P AmountExpr :=
  bind amountParser fun amount =>
  bind (opt sp) fun _ =>
  bind (opt (complete (amountExprNext rec))) fun o =>
  ret (AmountExpr.mk amount o)

/-- `amount_expr` — src/parser/timetype.rs:137-142, with a bound on the recursion depth. -/
def amountExprN : Nat → P AmountExpr
  | 0 => fun _ => (.error, 0)
  | n + 1 => amountExprBody (amountExprN n)

/-- `amount_expr` — src/parser/timetype.rs:137-142. The input length is enough depth (`Lemmas/Parser.lean`). -/
def amountExpr : P AmountExpr := fun i => amountExprN (i.length + 1) i

/-- `exact_date_parser` — src/parser/timetype.rs:169-175. -/
def exactDateParser (iso : CountedIso) : P ExactDate := altComplete [
  map (tok "today") fun _ => .today,
  map (tok "yesterday") fun _ => .yesterday,
  map (tok "tomorrow") fun _ => .tomorrow,
  bind iso.parseDatetime fun d => ret (.iso8601DateTime d),
  bind iso.parseDate fun d => ret (.iso8601Date d)]

/-- `date` — src/parser/timetype.rs:255-261. -/
def date (iso : CountedIso) : P PDate :=
  bind (exactDateParser iso) fun exact =>
  bind (opt (complete (
    bind sp fun _ =>
    bind operatorParser fun op =>
    bind sp fun _ =>
    bind amountExpr fun a =>
    ret (op, a)))) fun o =>
  ret ⟨exact, o⟩

/-- `timetype` — src/parser/timetype.rs:300-303. -/
def timetype (iso : CountedIso) : P PTimeType := alt [
  bind (date iso) fun d => ret (.date d),
  bind amountExpr fun a => ret (.amountExpr a)]

/-- `iter_spec` — src/parser/iterator.rs:11-25. -/
def iterSpec : P Iterspec := altComplete [
  map (tok "secondly") fun _ => .secondly,
  map (tok "minutely") fun _ => .minutely,
  map (tok "hourly") fun _ => .hourly,
  map (tok "daily") fun _ => .daily,
  map (tok "weekly") fun _ => .weekly,
  map (tok "monthly") fun _ => .monthly,
  map (tok "yearly") fun _ => .yearly,
  bind (tok "every") fun _ => bind integer fun number => bind unitParser fun unit =>
    ret (.every number unit)]

/-- `until_spec` — src/parser/iterator.rs:39-50. -/
def untilSpec (iso : CountedIso) : P UntilSpec := altComplete [
  bind (tok "until") fun _ => bind sp fun _ => bind (exactDateParser iso) fun exact =>
    ret (.exact exact),
  bind integer fun num => bind sp fun _ => bind (tok "times") fun _ => ret (.times num)]

/-- `iterator` — src/parser/iterator.rs:58-63. -/
def iterator (iso : CountedIso) : P PIterator :=
  bind (opt sp) fun _ => bind (date iso) fun d =>
  bind (opt sp) fun _ => bind iterSpec fun spec =>
  bind (opt sp) fun _ => bind (opt (complete (untilSpec iso))) fun until_ =>
  ret ⟨d, spec, until_⟩

/-- `do_parse` — src/parser/mod.rs:64-67. -/
def doParse (c : Cfg) (iso : CountedIso) (now now' : Moment) : P (Out Parsed) := altComplete [
  bind (iterator iso) fun it => ret (wrapIterator (it.intoUserIterator c now now')),
  bind (timetype iso) fun tt => ret (tt.intoTimetype c now >>= fun t => .ok (.timeType t))]

end Kairos.Parser.Counted
