import Verif.Model.ParserCounted

/-!
# Specification: bounds on the steps of parsers
-/

namespace Nom.Counted

variable {α : Type}

/-- A counting parser without the count. -/
def erase (p : P α) : Nom.P α := fun i => (p i).1

/-- At most `a` steps for each character that is left to read and `b` more; what is left to read does not grow. -/
def Bound (a b : Nat) (p : P α) : Prop :=
  ∀ i, (p i).2 ≤ a * i.length + b ∧ ∀ r x, (p i).1 = .done r x → r.length ≤ i.length

end Nom.Counted

namespace Kairos.Parser.Counted
open Nom.Counted

/-- The parsers of iso8601 without the count. -/
def CountedIso.erase (iso : CountedIso) : Iso := ⟨Nom.Counted.erase iso.parseDatetime, Nom.Counted.erase iso.parseDate⟩

/-- The parsers of iso8601 take at most `k` steps for each character and `k` more. -/
def CountedIso.Linear (iso : CountedIso) (k : Nat) : Prop := Bound k k iso.parseDatetime ∧ Bound k k iso.parseDate

end Kairos.Parser.Counted
