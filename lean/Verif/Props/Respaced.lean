import Verif.Lemmas.RespacedSample
import Verif.Props.Reading

/-!
# C163: which blanks a text has
-/

namespace Props
open Kairos Kairos.Parser Spec Nom

/-- **C163.** For every text, in the grammar or not: replacing runs of blanks, tabs and line ends by other runs changes nothing about
what `parse` returns. The dates of ISO 8601 are assumed to have no blanks in them. Where they may also stand at the end of the text
as they stand before a blank, blanks at the end may be added and left out. -/
theorem C163_blanks (c : Cfg) (atEnd : Prop) (iso : Iso) (hi : IsoWithoutBlanks atEnd iso) (now now' : Moment) (t t' : List Char)
    (h : Respaced atEnd t t') : parse c iso now now' t = parse c iso now now' t' := by
  rw [C142_every_text, C142_every_text, h.read hi]

/-- **C163.** Amounts need no such assumption: whatever stands at the end or in between, the same amounts are read, and the rests
differ only in their blanks. -/
theorem C163_amounts (atEnd : Prop) (t t' : List Char) (h : Respaced atEnd t t') :
    SameRead atEnd (whatIsRead (amountExpr t)) (whatIsRead (amountExpr t')) := by
  rw [wir_amounts, wir_amounts]; exact h.amounts

/-- **C163.** Blanks at the end of a text may be added and left out. -/
theorem C163_at_the_end (c : Cfg) (iso : Iso) (hi : IsoWithoutBlanks True iso) (now now' : Moment) (t b : List Char) (hb : Blanks b) :
    parse c iso now now' (t ++ b) = parse c iso now now' t := by
  have h : Respaced True (t ++ b) (t ++ []) := respaced_append t (.ending trivial hb (by simp [Blanks]))
  rw [List.append_nil] at h
  exact C163_blanks c True iso hi now now' _ _ h

/-- **C163.** Where a blank has to stay or has to stay away: a number is not read across blanks, nor a word, and some texts are
rejected behind blanks. -/
theorem C163_not_everywhere (p : Profile) (now now' : Moment) :
    (parse (std p) Tests.Parser.extIso now now' "3 0 days".toList = .err .nomError ∧
      parse (std p) Tests.Parser.extIso now now' "30 days".toList ≠ .err .nomError) ∧
    (parse (std p) Tests.Parser.extIso now now' "1 we ek".toList = parse (std p) Tests.Parser.extIso now now' "1 w".toList ∧
      parse (std p) Tests.Parser.extIso now now' "da ily".toList ≠ parse (std p) Tests.Parser.extIso now now' "daily".toList) ∧
    (parse (std p) Tests.Parser.extIso now now' " daily".toList = .err .nomError ∧
      parse (std p) Tests.Parser.extIso now now' "daily".toList ≠ .err .nomError) := by
  simp only [C142_every_text]
  have h1 : Spec.read Tests.Parser.extIso "3 0 days".toList = .nothing := by decide +kernel
  have h2 : Spec.read Tests.Parser.extIso "30 days".toList = .amounts (.single ⟨30, .day⟩) := by decide +kernel
  have h3 : Spec.read Tests.Parser.extIso "1 we ek".toList = Spec.read Tests.Parser.extIso "1 w".toList := by decide +kernel
  have h4 : Spec.read Tests.Parser.extIso "da ily".toList = .nothing := by decide +kernel
  have h5 : Spec.read Tests.Parser.extIso "daily".toList = .amounts (.single ⟨1, .day⟩) := by decide +kernel
  have h6 : Spec.read Tests.Parser.extIso " daily".toList = .nothing := by decide +kernel
  have h7 : Reading.result (std p) now now' (.amounts (.single ⟨30, .day⟩)) ≠ .err .nomError := by cases p <;> intro h <;> cases h
  have h8 : Reading.result (std p) now now' (.amounts (.single ⟨1, .day⟩)) ≠ .err .nomError := by cases p <;> intro h <;> cases h
  rw [h1, h2, h3, h4, h5, h6]
  exact ⟨⟨rfl, h7⟩, ⟨rfl, fun h => h8 h.symm⟩, rfl, h8⟩

example := C163_amounts True "2 d + 1 d".toList "2\td + 1 d  ".toList
  (respaced_append "2".toList (.blanks (b := " ".toList) (b' := "\t".toList) (by decide) (by decide) (by decide) (by decide)
    (respaced_append "d + 1 d".toList (.ending trivial (b := []) (b' := "  ".toList) (by decide) (by decide)))))

/-- A date with an offset, on one line and on three. -/
example (c : Cfg) (now : Moment) : parse c Tests.Parser.extIso now now "2017-06-01 + 2 days every 3 weeks".toList =
    parse c Tests.Parser.extIso now now "2017-06-01\n\t+\r\n2  days every 3\tweeks".toList := by
  refine C163_blanks c False _ (extIso_blanks _) _ _ _ _ ?_
  refine respaced_append "2017-06-01".toList (.blanks (b := " ".toList) (b' := "\n\t".toList) (by decide) (by decide) (by decide)
    (by decide) (.char (by decide) (.blanks (b := " ".toList) (b' := "\r\n".toList) (by decide) (by decide) (by decide) (by decide)
    (.char (by decide) (.blanks (b := " ".toList) (b' := "  ".toList) (by decide) (by decide) (by decide) (by decide) ?_)))))
  exact respaced_append "days every 3".toList (.blanks (b := " ".toList) (b' := "\t".toList) (by decide) (by decide) (by decide)
    (by decide) (respaced_refl _ _))

example (c : Cfg) (now : Moment) : parse c Tests.Parser.extIso now now "2017-06-01 daily \n".toList =
    parse c Tests.Parser.extIso now now "2017-06-01 daily".toList :=
  C163_at_the_end c _ (extIso_blanks _) now now "2017-06-01 daily".toList " \n".toList (by decide)

end Props
