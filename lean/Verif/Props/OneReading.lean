import Verif.Props.ParserAmounts
import Verif.Props.ParserDates

/-!
# C108: a text has one reading, and nothing else matters
-/

namespace Props
open Kairos Kairos.Parser Spec

private theorem stop_nil : Stop [] := fun _ h => nomatch h

/-- **C108, dates.** No text is written for two date expressions. -/
theorem C108_dates (iso : Iso) (d d' : PDate) (t : List Char) (h : DateText iso d t []) (h' : DateText iso d' t []) :
    d = d' := by
  have h1 := date_text h stop_nil
  have h2 := date_text h' stop_nil
  rw [h1] at h2
  cases h2
  rfl

example (d : PDate) (h : DateText noIso d "today - 5days".toList []) : d = ⟨.today, some (.minus, .single ⟨5, .day⟩)⟩ :=
  C108_dates noIso _ _ _ h (sample_date [])

/-- **C108, iterators.** No text is written for two iterators: its date with offset, its unit, its number and its bound
can be told from it (one week and seven days included). -/
theorem C108_iterators (iso : Iso) (d d' : PDate) (unit unit' : TimeUnit) (n n' : Int) (u u' : Option UntilSpec) (t : List Char)
    (h : IterText iso d unit n u t) (h' : IterText iso d' unit' n' u' t) : d = d' ∧ unit = unit' ∧ n = n' ∧ u = u' := by
  obtain ⟨s, h1, e1⟩ := iterator_step h
  obtain ⟨s', h2, e2⟩ := iterator_step h'
  rw [h1] at h2
  cases h2
  rw [e1] at e2
  cases e2
  exact ⟨rfl, rfl, rfl, rfl⟩

example (d : PDate) (unit : TimeUnit) (n : Int) (u : Option UntilSpec) (h : IterText noIso d unit n u "tomorrow  every 3 hours 5 times".toList) :=
  C108_iterators noIso _ _ _ _ _ _ _ _ _ h sample_every

/-- **C108, kinds.** No text is written both for a date expression and for an iterator, and none that does not start
like an ISO date both for an amount expression and for one of these. -/
theorem C108_kinds (iso : Iso) (t : List Char) (e : AmountExpr) (d d' : PDate) (unit : TimeUnit) (n : Int) (u : Option UntilSpec) :
    ¬ (DateText iso d t [] ∧ IterText iso d' unit n u t) ∧
    (NoIso iso t → NoIso iso (pastBlanks t) →
      ¬ (ExprText e t ∧ DateText iso d t []) ∧ ¬ (ExprText e t ∧ IterText iso d' unit n u t)) := by
  refine ⟨?_, fun hi hi' => ⟨?_, ?_⟩⟩
  · rintro ⟨h1, h2⟩
    have h3 := (dateText_readings h1 stop_nil).1
    rw [List.append_nil] at h3
    obtain ⟨s, h4, -⟩ := iterator_step h2
    exact h3 _ _ h4
  · rintro ⟨h1, h2⟩
    have h3 := (exprText_readings (iso := iso) h1 stop_nil (by simpa using hi) (by simpa [pastBlanks_eq] using hi')).2
    rw [(dateText_readings h2 stop_nil).2] at h3
    cases h3
  · rintro ⟨h1, h2⟩
    have h3 := (exprText_readings (iso := iso) h1 stop_nil (by simpa using hi) (by simpa [pastBlanks_eq] using hi')).1
    obtain ⟨s, h4, -⟩ := iterator_step h2
    rw [List.append_nil, h4] at h3
    cases h3

/-- **C108, blanks and spellings.** Two texts with the same reading, however blanks are set and units and numbers are
spelt, are parsed to the same value, iterator, error or panic. -/
theorem C108_only_the_reading (c : Cfg) (iso : Iso) (now now' : Moment) (t t' : List Char) :
    (∀ e, ExprText e t → ExprText e t' → NoIso iso t → NoIso iso (pastBlanks t) → NoIso iso t' →
      NoIso iso (pastBlanks t') → parse c iso now now' t = parse c iso now now' t') ∧
    (∀ d, DateText iso d t [] → DateText iso d t' [] → parse c iso now now' t = parse c iso now now' t') ∧
    (∀ d unit n u, IterText iso d unit n u t → IterText iso d unit n u t' →
      parse c iso now now' t = parse c iso now now' t') := by
  refine ⟨?_, ?_, ?_⟩
  · intro e h h' i1 i2 i3 i4
    rw [parse_wholeExpr c iso now now' e t h i1 i2, parse_wholeExpr c iso now now' e t' h' i3 i4]
  · intro d h h'
    have h1 := parse_dateText (c := c) (now := now) (now' := now') h stop_nil
    have h2 := parse_dateText (c := c) (now := now) (now' := now') h' stop_nil
    rw [List.append_nil] at h1 h2
    rw [h1, h2]
  · intro d unit n u h h'
    obtain ⟨s, hs, h1⟩ := parse_iterText (c := c) (now := now) (now' := now') h
    obtain ⟨s', hs', h2⟩ := parse_iterText (c := c) (now := now) (now' := now') h'
    rw [h1, h2]
    unfold PIterator.intoUserIterator
    simp only [hs, hs']

/-- Two texts for the same iterator, and a text for another one. -/
example : IterText noIso ⟨.today, none⟩ .week 1 (some (.times 3)) "today weekly 3 times".toList ∧
    IterText noIso ⟨.today, none⟩ .week 1 (some (.times 3)) "todayevery01w  3times".toList ∧
    IterText noIso ⟨.today, none⟩ .day 7 (some (.times 3)) "today every 7 days 3 times".toList := by
  refine ⟨?_, ?_, ?_⟩
  · exact IterText.mk (b0 := []) (dt := "today".toList) (ot := []) (b1 := " ".toList) (st := "weekly".toList) (b2 := " ".toList)
      (ut := "3 times".toList) (by decide) (ExactText.today _) OffsetText.none (by decide) (by decide) (StepText.alias (unit := .week))
      (by decide) (BoundText.times (ds := "3".toList) (b := " ".toList) (by decide) (by decide) (by decide)) (by decide)
  · exact IterText.mk (b0 := []) (dt := "today".toList) (ot := []) (b1 := []) (st := "every01w".toList) (b2 := "  ".toList)
      (ut := "3times".toList) (by decide) (ExactText.today _) OffsetText.none (by decide) (by decide)
      (StepText.every (b := []) (ds := "01".toList) (b' := []) (unit := .week) (name := "w") (by decide) (by decide) (by decide)
        (by decide) (by decide))
      (by decide) (BoundText.times (ds := "3".toList) (b := []) (by decide) (by decide) (by decide)) (by decide)
  · exact IterText.mk (b0 := []) (dt := "today".toList) (ot := []) (b1 := " ".toList) (st := "every 7 days".toList) (b2 := " ".toList)
      (ut := "3 times".toList) (by decide) (ExactText.today _) OffsetText.none (by decide) (by decide)
      (StepText.every (b := " ".toList) (ds := "7".toList) (b' := " ".toList) (unit := .day) (name := "days") (by decide) (by decide)
        (by decide) (by decide) (by decide))
      (by decide) (BoundText.times (ds := "3".toList) (b := " ".toList) (by decide) (by decide) (by decide)) (by decide)

/-- `today` and its blanks: the grammar of dates. -/
example : DateText noIso ⟨.today, none⟩ "today".toList [] := DateText.mk (ExactText.today _) OffsetText.none

end Props
