import Verif.Source.Text
import Verif.Source.Adaptors
import Verif.Model.Api

/-! The hand-written model of the texts, and of the functions that only wrap iterators, agrees with the
mechanical translation of the source. -/

namespace Kairos.Source

theorem TimeType.debug_eq (t : TT) : TimeType.debug t = Text.debug t := by
  induction t <;> simp only [TimeType.debug, Text.debug, List.append_assoc, List.cons_append, List.nil_append, *]

theorem ErrorKind.debug_eq (e : ErrorKind) : ErrorKind.debug e = Text.errorDebug e := by
  cases e <;> simp only [ErrorKind.debug, Text.errorDebug, TimeType.debug_eq, List.append_assoc, List.cons_append,
    List.nil_append]

theorem ErrorKind.display_eq (e : ErrorKind) : ErrorKind.display e = Text.error e := by
  cases e <;> simp only [ErrorKind.display, Text.error, TimeType.debug_eq, List.append_assoc, List.cons_append,
    List.nil_append]

theorem pretty_print_eq (t : TT) : pretty_print t = Text.prettyPrint t := by
  cases t <;> simp only [pretty_print, Text.prettyPrint, TimeType.debug_eq, List.cons_append, List.nil_append]

variable {σ : Type}

theorem EveryFilter.every_eq (i : σ) (m : TT → Out Bool) :
    EveryFilter.every i m = ((Api.every i m).inner, (Api.every i m).matcher) := rfl
theorem WithoutFilter.without_eq (i : σ) (m : TT → Out Bool) :
    WithoutFilter.without i m = ((Api.without i m).inner, (Api.without i m).matcher) := rfl
theorem Until.until_eq (i : σ) (e : Moment) :
    Until.until i e = ((Api.until_ i e).inner, (Api.until_ i e).date) := rfl
theorem Filter.matches_eq (f : TT → Bool) (t : TT) : Filter.matches f t = filterMatches f t := rfl
theorem Times.times_eq (i : σ) (n : Int) : Times.times i n = timesNew i n := rfl

end Kairos.Source
