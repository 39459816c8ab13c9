import Verif.Model.Api
import Verif.Props.EndOf
import Verif.Props.Forms
import Verif.Props.Cursor

/-!
# C146: the functions that put values and iterators together

The other theorems are about values and states; these say that the functions of the library build those they are named after.
-/

namespace Props
open Kairos Spec

/-- **C146.** The functions for amounts: the value is of the kind the function is named after, and its number can be read back. -/
theorem C146_amounts (c : Cfg) (i : Int) (hi : InI64 i) :
    ((Api.seconds i).name = "Seconds" ∧ TT.getSeconds c (Api.seconds i) = .ok i) ∧
    ((Api.minutes i).name = "Minutes" ∧ TT.getMinutes c (Api.minutes i) = .ok i) ∧
    ((Api.hours i).name = "Hours" ∧ TT.getHours c (Api.hours i) = .ok i) ∧
    ((Api.days i).name = "Days" ∧ TT.getDays c (Api.days i) = .ok i) ∧
    ((Api.months i).name = "Months" ∧ TT.getMonths c (Api.months i) = .ok i) ∧
    ((Api.years i).name = "Years" ∧ TT.getYears c (Api.years i) = .ok i) := by
  have h : ∀ u : TUnit, get c u (amt u i) = .ok i := by
    intro u
    rw [C29_get_coarser c u u i hi (Int.le_refl _), Int.mul_tdiv_cancel _ (by cases u <;> decide)]
  exact ⟨⟨rfl, h .second⟩, ⟨rfl, h .minute⟩, ⟨rfl, h .hour⟩, ⟨rfl, h .day⟩, ⟨rfl, h .month⟩, ⟨rfl, h .year⟩⟩

example := C146_amounts (std .debug) (-9223372036854775808) (by decide)

/-- **C146.** `moment` and `today`: the moment can be read back; with `today` it is what the clock shows. -/
theorem C146_moments (m now : Moment) :
    (Api.moment m).isMoment = true ∧ (Api.moment m).getMoment = some m ∧ (Api.today now).getMoment = some now ∧
    Api.intoTimetype (Api.moment m) = .ok (Api.moment m) := ⟨rfl, rfl, rfl, rfl⟩

/-- **C146.** The functions for the ends of periods, on any expression that comes to a moment. -/
theorem C146_ends (c : Cfg) (x : TT) (m : Moment) (h : EvalsTo c x m) :
    calculate c (Api.endOfYear x) = .ok (.moment (at_ m.year 12 31 0 0 0)) ∧
    (∃ last, calculate c (Api.endOfMonth x) = .ok (.moment (at_ m.year m.month last 0 0 0)) ∧
      Cal.ValidDate m.year m.month last ∧ ∀ d, Cal.ValidDate m.year m.month d → d ≤ last) ∧
    calculate c (Api.endOfDay x) = .ok (.moment (at_ m.year m.month m.day 23 59 59)) ∧
    calculate c (Api.endOfHour x) = .ok (.moment (at_ m.year m.month m.day m.hour 59 59)) ∧
    calculate c (Api.endOfMinute x) = .ok (.moment (at_ m.year m.month m.day m.hour m.minute 59)) :=
  ⟨C10_end_of_year c x m h, C11_end_of_month c x m h, C12_end_of_day_hour_minute c x m h⟩

example := C146_ends (std .debug) (Api.moment (at_ 2016 2 3 4 5 6)) (at_ 2016 2 3 4 5 6) ⟨by decide, by decide +kernel, by decide⟩

/-- **C146.** `a += b` and `a -= b` make of `a` what `a + b` and `a - b` are. -/
theorem C146_assignment (a b : TT) : Api.addAssign a b = a + b ∧ Api.subAssign a b = a - b := ⟨rfl, rfl⟩

/-- **C146.** `increment()` is the step that the iterator was built with, whatever has been called on it since. -/
theorem C146_increment (c : Cfg) (m : Moment) (inc : TT) (it : Iter) (hit : Iter.build m inc = .ok it) (ops : List IterOp) :
    Api.increment (runOps c it ops) = inc := C115_increment c m inc it hit ops

example := C146_increment (std .debug) (at_ 2016 2 3 4 5 6) (.days 3) _ rfl [.next, .skip, .rollback, .next]

section
variable {σ : Type}

/-- **C146.** What the calls of `next` on `every(…)`, `without(…)` and `until(…)` return: that of the filter and the limit that the
other theorems (C41, C43, C145) are about, with the matcher and the date that were passed. (`times` is written out there.) -/
theorem C146_adaptors (c : Cfg) (nx : σ → σ × Item) (s : σ) (matcher : TT → Out Bool) (ending : Moment) (fuel k : Nat) :
    nth (Api.FilterIter.next nx fuel) k (Api.every s matcher) = nth (filterNext nx matcher fuel) k s ∧
    nth (Api.WithoutIter.next nx fuel) k (Api.without s matcher) = nth (withoutNext nx matcher fuel) k s ∧
    nth (Api.UntilIter.next c nx) k (Api.until_ s ending) = nth (untilNext c nx ending) k s := by
  have step {τ : Type} {ny : τ → τ × Item} {nz : σ → σ × Item} (mk : σ → τ)
      (h : ∀ s, ny (mk s) = (mk (nz s).1, (nz s).2)) : ∀ k s, nth ny k (mk s) = nth nz k s := by
    intro k
    induction k with
    | zero => intro s; show (ny (mk s)).2 = _; rw [h]; rfl
    | succ k ih => intro s; show nth ny k (ny (mk s)).1 = nth nz k (nz s).1; rw [h]; exact ih _
  exact ⟨step (fun s => Api.FilterIter.mk s matcher) (fun s => rfl) k s, step (fun s => Api.WithoutIter.mk s matcher) (fun s => rfl) k s,
    step (fun s => Api.UntilIter.mk s ending) (fun s => rfl) k s⟩

end

/-- **C146.** Weekdays and months as filters (feature `with-filters`) test what `is_a` and `is_in` tell; used as matchers
they never fail. -/
theorem C146_filters (d : Day) (mo : Month) (m : Moment) (t : TT) (ht : ∀ r, t ≠ .moment r) :
    (TT.moment m).isA d = .ok ((Api.dayIntoFilter d).filter (.moment m)) ∧
    (TT.moment m).isIn mo = .ok ((Api.monthIntoFilter mo).filter (.moment m)) ∧
    (Api.dayIntoFilter d).filter t = false ∧ (Api.monthIntoFilter mo).filter t = false :=
  ⟨rfl, rfl, (C32_not_a_moment t ht d mo).2.2.1, (C32_not_a_moment t ht d mo).2.2.2.1⟩

example (m : Moment) := C146_filters .friday .may m (.days 5) (fun r h => by cases h)

/-- Fridays, over the constructors: `moment(…).daily(1)` filtered. -/
example : (List.range 2).map (fun k => nth (Api.FilterIter.next (Iter.next (std .debug)) 8) k
      (Api.every ⟨.moment (at_ 2017 1 9 0 0 0), Api.days 1, false⟩ (filterMatches (Api.dayIntoFilter .friday).filter))) =
    [some (.ok (.moment (at_ 2017 1 13 0 0 0))), some (.ok (.moment (at_ 2017 1 20 0 0 0)))] := by decide +kernel

end Props
