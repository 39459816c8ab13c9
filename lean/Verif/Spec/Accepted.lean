import Verif.Spec.Grammar

/-!
# Specification: what may be accepted at all

The grammar of doc/language.md for dates and iterators, without any condition on separators or on what follows: the most
that `parse` may accept. `rest` is the text after the part that is described.
-/

namespace Spec
open Kairos Kairos.Parser

/-- The declared types of the fields of a date. -/
def DateTyped : IsoDate → Prop
  | .ymd y m d => (-2 ^ 31 ≤ y ∧ y < 2 ^ 31) ∧ (0 ≤ m ∧ m < 2 ^ 32) ∧ (0 ≤ d ∧ d < 2 ^ 32)
  | .week y w d => (-2 ^ 31 ≤ y ∧ y < 2 ^ 31) ∧ (0 ≤ w ∧ w < 2 ^ 32) ∧ (0 ≤ d ∧ d < 2 ^ 32)
  | .ordinal y d => (-2 ^ 31 ≤ y ∧ y < 2 ^ 31) ∧ (0 ≤ d ∧ d < 2 ^ 32)

/-- What is assumed of the ISO 8601 parsers (a dependency): what they leave over is the end of their input, and numbers
have the types the crate declares: `i32` for the year, `u32` for the rest of the date and the time of day. -/
structure IsoSane (iso : Iso) : Prop where
  datetimeRest : ∀ i r d, iso.parseDatetime i = .done r d → r <:+ i
  dateRest : ∀ i r d, iso.parseDate i = .done r d → r <:+ i
  datetimeTyped : ∀ i r d, iso.parseDatetime i = .done r d →
    DateTyped d.date ∧ (0 ≤ d.hour ∧ d.hour < 2 ^ 32) ∧ (0 ≤ d.minute ∧ d.minute < 2 ^ 32) ∧ (0 ≤ d.second ∧ d.second < 2 ^ 32)
  dateTyped : ∀ i r d, iso.parseDate i = .done r d → DateTyped d

/-- An exact date: a keyword, or an ISO date-time or date. -/
inductive ExactAt (iso : Iso) : ExactDate → List Char → List Char → Prop
  | today (rest : List Char) : ExactAt iso .today "today".toList rest
  | yesterday (rest : List Char) : ExactAt iso .yesterday "yesterday".toList rest
  | tomorrow (rest : List Char) : ExactAt iso .tomorrow "tomorrow".toList rest
  | datetime {t rest : List Char} {d : IsoDateTime} (h : iso.parseDatetime (t ++ rest) = .done rest d) :
      ExactAt iso (.iso8601DateTime d) t rest
  | date {t rest : List Char} {d : IsoDate} (h : iso.parseDate (t ++ rest) = .done rest d) :
      ExactAt iso (.iso8601Date d) t rest

/-- A date: an exact date with an optional offset. -/
inductive DateAt (iso : Iso) : PDate → List Char → List Char → Prop
  | mk {dt ot rest : List Char} {e : ExactDate} {o : Option (Operator × AmountExpr)} (he : ExactAt iso e dt (ot ++ rest))
      (ho : OffsetText o ot) : DateAt iso ⟨e, o⟩ (dt ++ ot) rest

/-- The bound of an iterator. -/
inductive BoundAt (iso : Iso) : Option UntilSpec → List Char → List Char → Prop
  | none (rest : List Char) : BoundAt iso none [] rest
  | untilDate {b t rest : List Char} {e : ExactDate} (hb : Blanks b) (he : ExactAt iso e t rest) :
      BoundAt iso (some (.exact e)) ("until".toList ++ (b ++ t)) rest
  | times {b0 ds b rest : List Char} (hb0 : Blanks b0) (hd : Digits ds) (hb : Blanks b) (hmax : decimal ds < 2 ^ 63) :
      BoundAt iso (some (.times (decimal ds))) (b0 ++ (ds ++ (b ++ "times".toList))) rest

/-- An iterator: a date, a step and a bound. -/
inductive IterAt (iso : Iso) : PDate → TimeUnit → Int → Option UntilSpec → List Char → List Char → Prop
  | mk {b0 dt b1 st b2 ut rest : List Char} {d : PDate} {unit : TimeUnit} {n : Int} {u : Option UntilSpec} (hb0 : Blanks b0)
      (hd : DateAt iso d dt (b1 ++ (st ++ (b2 ++ (ut ++ rest))))) (hb1 : Blanks b1) (hs : StepText unit n st)
      (hb2 : Blanks b2) (hu : BoundAt iso u ut rest) :
      IterAt iso d unit n u (b0 ++ (dt ++ (b1 ++ (st ++ (b2 ++ ut))))) rest

/-- No run of more than `k` digits occurs in the text. -/
def ShortNumbers (k : Nat) (s : List Char) : Prop := ∀ p ds q, s = p ++ ds ++ q → Digits ds → ds.length ≤ k

/-- Every amount expression written anywhere in the text has at most `B` seconds in total (counting subtracted amounts as positive). -/
def SmallTotals (B : Int) (s : List Char) : Prop := ∀ p e t q, s = p ++ t ++ q → ExprText e t → exprMag e ≤ B

/-- The amounts of an expression. -/
def exprAmounts : AmountExpr → List Amount
  | .single a => [a]
  | .cons a _ e => a :: exprAmounts e

end Spec
