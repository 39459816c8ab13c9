import Verif.Props.ParserDates

/-!
# C57: the other forms of ISO dates, and dates that do not exist
-/

namespace Props
open Kairos Kairos.Parser Spec

/-- **C57 (partial).** What becomes of ordinal dates and week dates, without and with a time of day: an expression that starts at
1 January of the year and adds the numbers of the text; if that year is out of range, an error that names its 1 January. Missing:
that it is the right date (`C57_refuted_ordinal`, `C57_refuted_week`). -/
theorem C57_other_forms_partial (c : Cfg) (iso : Iso) (now now' : Moment) (y ddd ww d hh mi s ms th tm : Int)
    (hw : InI64 (7 * ww)) (t rest : List Char) (hr : Stop rest) :
    (DateText iso ⟨.iso8601Date (.ordinal y ddd), none⟩ t rest → parse c iso now now' (t ++ rest) =
      if c.minYear ≤ y ∧ y ≤ c.maxYear then .ok (.timeType (.moment (at_ y 1 1 0 0 0) + .days ddd))
      else .err (.outOfBounds y 1 1 0 0 0)) ∧
    (DateText iso ⟨.iso8601Date (.week y ww d), none⟩ t rest → parse c iso now now' (t ++ rest) =
      if c.minYear ≤ y ∧ y ≤ c.maxYear then .ok (.timeType (.moment (at_ y 1 1 0 0 0) + .days (7 * ww) + .days d))
      else .err (.outOfBounds y 1 1 0 0 0)) ∧
    (DateText iso ⟨.iso8601DateTime ⟨.ordinal y ddd, hh, mi, s, ms, th, tm⟩, none⟩ t rest → parse c iso now now' (t ++ rest) =
      if c.minYear ≤ y ∧ y ≤ c.maxYear then
        .ok (.timeType (.moment (at_ y 1 1 0 0 0) + .days ddd + .hours hh + .minutes mi + .seconds s))
      else .err (.outOfBounds y 1 1 0 0 0)) ∧
    (DateText iso ⟨.iso8601DateTime ⟨.week y ww d, hh, mi, s, ms, th, tm⟩, none⟩ t rest → parse c iso now now' (t ++ rest) =
      if c.minYear ≤ y ∧ y ≤ c.maxYear then
        .ok (.timeType (.moment (at_ y 1 1 0 0 0) + .days (7 * ww) + .days d + .hours hh + .minutes mi + .seconds s))
      else .err (.outOfBounds y 1 1 0 0 0)) := by
  have hy : newYear c y = if c.minYear ≤ y ∧ y ≤ c.maxYear then .ok (.moment (at_ y 1 1 0 0 0)) else .err (.outOfBounds y 1 1 0 0 0) := by
    split
    · rename_i h; exact newYear_ok c y h.1 h.2
    · rename_i h
      simp only [newYear, fromYmdOpt]
      rw [if_neg (fun h' => h ⟨h'.1, h'.2.1⟩)]
      rfl
  have hk := weeks_ok (c := c) (n := ww) hw
  refine ⟨?_, ?_, ?_, ?_⟩ <;> intro h <;>
    rw [parse_dateText h hr] <;>
    simp only [PDate.intoTimetype, ExactDate.intoTimetype, hy, hk] <;>
    split <;> rfl

/-- `"2017-123"`, read as day 123 of 2017, and a week date with a time in a year that is out of range. -/
example (iso : Iso) (now now' : Moment) (h0 : ∀ r d, iso.parseDatetime "2017-123".toList ≠ .done r d)
    (h : iso.parseDate "2017-123".toList = .done [] (.ordinal 2017 123)) :
    parse (std .debug) iso now now' "2017-123".toList = .ok (.timeType (.moment (at_ 2017 1 1 0 0 0) + .days 123)) :=
  (C57_other_forms_partial (std .debug) iso now now' 2017 123 1 1 0 0 0 0 0 0 (by decide) "2017-123".toList []
    (by intro ch h; cases h)).1 (DateText.mk (dt := "2017-123".toList) (ot := [])
    (.date (x := '2') (by decide) (by refine ⟨?_, ?_, ?_⟩ <;> decide) h0 h) .none)

example (iso : Iso) (now now' : Moment) (t : List Char)
    (h : DateText iso ⟨.iso8601DateTime ⟨.week 300000 5 3, 7, 8, 9, 0, 0, 0⟩, none⟩ t []) :
    parse (std .debug) iso now now' (t ++ []) = .err (.outOfBounds 300000 1 1 0 0 0) :=
  (C57_other_forms_partial (std .debug) iso now now' 300000 1 5 3 7 8 9 0 0 0 (by decide) t [] (by intro ch h; cases h)).2.2.2 h

/-- **C64.** A date that does not exist stays an error, the same one, whatever is added to it or subtracted from it in the text. -/
theorem C64_bad_date (c : Cfg) (iso : Iso) (now now' : Moment) (e : ExactDate) (k : ErrorKind) (t rest : List Char)
    (o : Option (Operator × AmountExpr)) (h : DateText iso ⟨e, o⟩ t rest) (hr : Stop rest)
    (hb : exactMeans c now e = .refused k) : parse c iso now now' (t ++ rest) = .err k := by
  unmean
  rw [parse_dateText h hr]
  unfold PDate.intoTimetype
  simp only [hb, OutE.err_bind]

example (iso : Iso) (now now' : Moment) (t : List Char)
    (h : DateText iso ⟨.iso8601Date (.ymd 2017 2 30), some (.plus, .single ⟨3, .day⟩)⟩ t []) :
    parse (std .debug) iso now now' (t ++ []) = .err (.outOfBounds 2017 2 30 0 0 0) :=
  C64_bad_date (std .debug) iso now now' _ _ t [] _ h (by intro ch h; cases h) rfl

end Props
