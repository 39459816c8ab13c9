import Verif.Model.ParserIterator
import Verif.Spec.Amount

/-!
# Specification: the language of doc/language.md

Which texts are written for which amount expression, independently of how the parser works, and what
they mean.
-/

namespace Spec
open Kairos Kairos.Parser

/-- doc/language.md, "Units". -/
def spellings : TimeUnit → List String
  | .second => ["seconds", "second", "secs", "sec", "s"]
  | .minute => ["minutes", "minute", "mins", "min"]
  | .hour => ["hours", "hour", "hrs", "hr"]
  | .day => ["days", "day", "d"]
  | .week => ["weeks", "week", "w"]
  | .month => ["months", "month"]
  | .year => ["years", "year", "yrs"]

/-- doc/language.md, "Aliases". -/
def aliasOf : TimeUnit → String
  | .second => "secondly"
  | .minute => "minutely"
  | .hour => "hourly"
  | .day => "daily"
  | .week => "weekly"
  | .month => "monthly"
  | .year => "yearly"

/-- A lower-case letter. -/
def Letter (ch : Char) : Prop := ch ∈ "abcdefghijklmnopqrstuvwxyz".toList
/-- A blank: space, tab, carriage return or newline. -/
def Blank (ch : Char) : Prop := ch = ' ' ∨ ch = '\t' ∨ ch = '\r' ∨ ch = '\n'
/-- Any number of blanks. -/
def Blanks (b : List Char) : Prop := ∀ ch ∈ b, Blank ch
/-- A text without the blanks at its beginning. -/
def pastBlanks : List Char → List Char
  | [] => []
  | ch :: t => if ch = ' ' ∨ ch = '\t' ∨ ch = '\r' ∨ ch = '\n' then pastBlanks t else ch :: t
/-- doc/language.md, "Basics": `number = digit+`. -/
def Digits (ds : List Char) : Prop := ds ≠ [] ∧ ∀ ch ∈ ds, ch ∈ "0123456789".toList

instance (ch : Char) : Decidable (Letter ch) := by unfold Letter; infer_instance
instance (ch : Char) : Decidable (Blank ch) := by unfold Blank; infer_instance
instance (b : List Char) : Decidable (Blanks b) := by unfold Blanks; infer_instance
instance (b : List Char) : Decidable (Digits b) := by unfold Digits; infer_instance

/-- The number written by a digit string. -/
def decimal : List Char → Nat
  | [] => 0
  | d :: ds => "0123456789".toList.idxOf d * 10 ^ ds.length + decimal ds

/-- `t` is a text for the amount `a`: a number below 2^63 and a unit, or an alias. Blanks may surround the number. -/
inductive AmountText : Amount → List Char → Prop
  | number {b ds b' : List Char} {unit : TimeUnit} {name : String} (hb : Blanks b) (hd : Digits ds) (hb' : Blanks b')
      (hn : name ∈ spellings unit) (hmax : decimal ds < 2 ^ 63) :
      AmountText ⟨decimal ds, unit⟩ (b ++ ds ++ b' ++ name.toList)
  | alias (unit : TimeUnit) : AmountText ⟨1, unit⟩ (aliasOf unit).toList

/-- The operator symbols. -/
def opChar : Operator → Char
  | .plus => '+'
  | .minus => '-'

/-- `t` is a text for the amount expression `e`: `amount_expression = amount (operator
amount_expression)?`. Blanks may follow an amount and an operator. -/
inductive ExprText : AmountExpr → List Char → Prop
  | single {a : Amount} {t b : List Char} (ha : AmountText a t) (hb : Blanks b) : ExprText (.single a) (t ++ b)
  | cons {a : Amount} {op : Operator} {e : AmountExpr} {t b b' t' : List Char} (ha : AmountText a t) (hb : Blanks b)
      (hb' : Blanks b') (he : ExprText e t') : ExprText (.cons a op e) (t ++ b ++ opChar op :: (b' ++ t'))

/-- The text does not go on with a letter. -/
def NoLetter (rest : List Char) : Prop := ∀ ch, rest.head? = some ch → ¬ Letter ch

/-- The text does not go on in a way that could belong to an amount expression. -/
def Stop (rest : List Char) : Prop :=
  ∀ ch, rest.head? = some ch → ¬ Letter ch ∧ ¬ Blank ch ∧ ch ≠ '+' ∧ ch ≠ '-'

/-- Length of a unit in seconds. -/
def unitSecs : TimeUnit → Int
  | .second => 1
  | .minute => 60
  | .hour => 3600
  | .day => 86400
  | .week => 7 * 86400
  | .month => 30 * 86400
  | .year => 360 * 86400

/-- The value of an amount expression in seconds, by the grammar: everything after an operator is its right operand. -/
def exprSecs : AmountExpr → Int
  | .single a => a.number * unitSecs a.unit
  | .cons a .plus e => a.number * unitSecs a.unit + exprSecs e
  | .cons a .minus e => a.number * unitSecs a.unit - exprSecs e

/-- Going through an amount expression from left to right, adding to or subtracting from what has been computed so far. -/
def leftFrom (acc : Int) (op : Operator) : AmountExpr → Int
  | .single a => if op = .plus then acc + a.number * unitSecs a.unit else acc - a.number * unitSecs a.unit
  | .cons a op' e =>
    leftFrom (if op = .plus then acc + a.number * unitSecs a.unit else acc - a.number * unitSecs a.unit) op' e

/-- The value in seconds of an amount expression read from left to right, as in ordinary arithmetic. -/
def leftSecs (e : AmountExpr) : Int := leftFrom 0 .plus e

/-- No `-` is followed by a further operator. -/
def MinusLast : AmountExpr → Prop
  | .single _ => True
  | .cons _ .plus e => MinusLast e
  | .cons _ .minus (.single _) => True
  | .cons _ .minus (.cons ..) => False

/-- The sum of the sizes of its amounts, in seconds. -/
def exprMag : AmountExpr → Int
  | .single a => a.number * unitSecs a.unit
  | .cons a _ e => a.number * unitSecs a.unit + exprMag e

/-- None of the date keywords starts the text. -/
def NoKeyword (i : List Char) : Prop :=
  ¬ "today".toList <+: i ∧ ¬ "yesterday".toList <+: i ∧ ¬ "tomorrow".toList <+: i

/-- `t`, followed by `rest`, is a text for the exact date `e`: a keyword, or what the ISO 8601 parsers (a dependency)
recognise as a date-time or else as a date. -/
inductive ExactText (iso : Iso) : ExactDate → List Char → List Char → Prop
  | today (rest : List Char) : ExactText iso .today "today".toList rest
  | yesterday (rest : List Char) : ExactText iso .yesterday "yesterday".toList rest
  | tomorrow (rest : List Char) : ExactText iso .tomorrow "tomorrow".toList rest
  | datetime {x : Char} {xs rest : List Char} {d : IsoDateTime} (hx : ¬ Blank x) (hk : NoKeyword (x :: xs ++ rest))
      (h : iso.parseDatetime (x :: xs ++ rest) = .done rest d) : ExactText iso (.iso8601DateTime d) (x :: xs) rest
  | date {x : Char} {xs rest : List Char} {d : IsoDate} (hx : ¬ Blank x) (hk : NoKeyword (x :: xs ++ rest))
      (h0 : ∀ r d, iso.parseDatetime (x :: xs ++ rest) ≠ .done r d)
      (h : iso.parseDate (x :: xs ++ rest) = .done rest d) : ExactText iso (.iso8601Date d) (x :: xs) rest

/-- An optional offset: `exact_date_expression = exact_date (operator amount_expression)?`. -/
inductive OffsetText : Option (Operator × AmountExpr) → List Char → Prop
  | none : OffsetText none []
  | some {op : Operator} {e : AmountExpr} {b b' t : List Char} (hb : Blanks b) (hb' : Blanks b') (he : ExprText e t) :
      OffsetText (some (op, e)) (b ++ opChar op :: (b' ++ t))

/-- The step of an iterator: an alias, or `every` with a number and a unit. -/
inductive StepText : TimeUnit → Int → List Char → Prop
  | alias (unit : TimeUnit) : StepText unit 1 (aliasOf unit).toList
  | every {b ds b' : List Char} {unit : TimeUnit} {name : String} (hb : Blanks b) (hd : Digits ds) (hb' : Blanks b')
      (hn : name ∈ spellings unit) (hmax : decimal ds < 2 ^ 63) :
      StepText unit (decimal ds) ("every".toList ++ (b ++ ds ++ b' ++ name.toList))

/-- The bound of an iterator: nothing, `until` with a date, or a number of `times`. -/
inductive BoundText (iso : Iso) : Option UntilSpec → List Char → Prop
  | none : BoundText iso none []
  | untilDate {b t : List Char} {e : ExactDate} (hb : Blanks b) (he : ExactText iso e t []) :
      BoundText iso (some (.exact e)) ("until".toList ++ (b ++ t))
  | times {ds b : List Char} (hd : Digits ds) (hb : Blanks b) (hmax : decimal ds < 2 ^ 63) :
      BoundText iso (some (.times (decimal ds))) (ds ++ (b ++ "times".toList))

/-- The text of an iterator: date, offset, step and bound, separated by blanks (a blank after the offset and one before
the bound are obligatory). -/
inductive IterText (iso : Iso) : PDate → TimeUnit → Int → Option UntilSpec → List Char → Prop
  | mk {b0 dt ot b1 st b2 ut : List Char} {e : ExactDate} {o : Option (Operator × AmountExpr)} {unit : TimeUnit} {n : Int}
      {u : Option UntilSpec} (hb0 : Blanks b0) (he : ExactText iso e dt (ot ++ (b1 ++ (st ++ (b2 ++ ut)))))
      (ho : OffsetText o ot) (hb1 : Blanks b1) (hsep : o ≠ none → b1 ≠ []) (hs : StepText unit n st) (hb2 : Blanks b2)
      (hu : BoundText iso u ut) (hsep' : u ≠ none → b2 ≠ []) :
      IterText iso ⟨e, o⟩ unit n u (b0 ++ (dt ++ (ot ++ (b1 ++ (st ++ (b2 ++ ut))))))

/-- `n` of a unit as an amount of the library: a week is seven days. -/
def unitAmount : TimeUnit → Int → TT
  | .second, n => .seconds n
  | .minute, n => .minutes n
  | .hour, n => .hours n
  | .day, n => .days n
  | .week, n => .days (7 * n)
  | .month, n => .months n
  | .year, n => .years n

/-- The text of a date expression: `date_expression = exact_date (operator amount_expression)?`; `rest` is what follows it
in the input. -/
inductive DateText (iso : Iso) : PDate → List Char → List Char → Prop
  | mk {dt ot rest : List Char} {e : ExactDate} {o : Option (Operator × AmountExpr)} (he : ExactText iso e dt (ot ++ rest))
      (ho : OffsetText o ot) : DateText iso ⟨e, o⟩ (dt ++ ot) rest

/-- The date a week date denotes in ISO 8601, as a day number: week 1 is the week, from Monday to Sunday, in which
4 January lies; days are counted from Monday = 1. -/
def isoWeekDay (y ww d : Int) : Int := Cal.dayNumber y 1 4 - Cal.weekday y 1 4 + 7 * (ww - 1) + (d - 1)

/-- The two ISO 8601 parsers do not recognise a date at the start of the text. -/
def NoIso (iso : Iso) (s : List Char) : Prop :=
  (∀ r d, iso.parseDatetime s ≠ .done r d) ∧ (∀ r d, iso.parseDate s ≠ .done r d)

end Spec
