import Verif.Spec.Reader

/-!
# Specification: texts that differ only in their blanks

Every run of blanks may be replaced by another one, as long as some blank stays. Where `atEnd` holds, the end of the text counts
as a blank: blanks at the end may be added and left out.
-/

namespace Spec
open Kairos Kairos.Parser Nom

/-- The second text is the first with other blanks. -/
inductive Respaced (atEnd : Prop) : List Char → List Char → Prop
  | nil : Respaced atEnd [] []
  | char {ch : Char} {t t' : List Char} (hc : ¬ Blank ch) (h : Respaced atEnd t t') : Respaced atEnd (ch :: t) (ch :: t')
  | blanks {b b' t t' : List Char} (hb : Blanks b) (hb' : Blanks b') (ne : b ≠ []) (ne' : b' ≠ []) (h : Respaced atEnd t t') :
      Respaced atEnd (b ++ t) (b' ++ t')
  | ending {b b' : List Char} (he : atEnd) (hb : Blanks b) (hb' : Blanks b') : Respaced atEnd b b'

/-- Nothing is read from either text, or the same from both, and then what is left differs only in its blanks. -/
inductive SameRead {α : Type} (atEnd : Prop) : Option (α × List Char) → Option (α × List Char) → Prop
  | nothing : SameRead atEnd none none
  | same {a : α} {t t' : List Char} (h : Respaced atEnd t t') : SameRead atEnd (some (a, t)) (some (a, t'))

/-- Dates of ISO 8601 have no blanks in them, and where one ends does not depend on what blanks follow. -/
structure IsoWithoutBlanks (atEnd : Prop) (iso : Iso) : Prop where
  datetime : ∀ {t t'}, Respaced atEnd t t' → SameRead atEnd (whatIsRead (iso.parseDatetime t)) (whatIsRead (iso.parseDatetime t'))
  date : ∀ {t t'}, Respaced atEnd t t' → SameRead atEnd (whatIsRead (iso.parseDate t)) (whatIsRead (iso.parseDate t'))

end Spec
