import Verif.Spec.Reader
import Verif.Spec.Walk
import Verif.Spec.Ending
import Verif.Model.Main

/-!
# Specification: all that the command line program prints

From the text that was typed in to the lines that come out, by the reader of `Spec/Reader.lean`, the meanings of `Spec/Meaning.lean`, the
endings of `Spec/Ending.lean` and the items of `Spec/Walk.lean`.
-/

namespace Spec
open Kairos Kairos.Parser Kairos.Main

/-- The line for a value: a number and the name of its unit, or a moment. -/
def lineOf (v : TT) : Line :=
  match v with
  | .moment m => .moment m
  | v =>
    match asAmount v with
    | some (u, n) => .amount n (match u with
        | .second => "Seconds" | .minute => "Minutes" | .hour => "Hours" | .day => "Days" | .month => "Months" | .year => "Years")
    | none => .cannotPrettyPrint v

/-- What is printed for a text that stands for one value: an error in the text and an error in the calculation are told apart. -/
def printsValue (c : Cfg) (a : Answer) : Run :=
  match a with
  | .refused e => ⟨[.error e], .finished⟩
  | .overflow => ⟨[], .panicked⟩
  | .value v =>
    match ending c v with
    | .value w => ⟨[lineOf w], .finished⟩
    | .refused e => ⟨[.errorCalculating e], .finished⟩
    | .overflow => ⟨[], .panicked⟩

/-- What is printed for the items from position `k` on, as many rounds as are watched: one line each up to the end; an error is the
last line and the exit code is 1. -/
def printsItems (item : Nat → Option Answer) : Nat → Nat → Run
  | 0, _ => ⟨[], .running⟩
  | rounds + 1, k =>
    match item k with
    | none => ⟨[], .finished⟩
    | some (.value v) =>
      let rest := printsItems item rounds (k + 1)
      ⟨lineOf v :: rest.lines, rest.ending⟩
    | some (.refused e) => ⟨[.errorCalculating e], .exit1⟩
    | some .overflow => ⟨[], .panicked⟩

/-- The moment a date comes to. -/
def calculated (c : Cfg) (a : Answer) : Answer :=
  a.andThen fun v => (ending c v).andThen fun w => if w.isMoment then .value w else .refused .notADateInsideIterator

/-- The limit written for an iterator, and what it comes to. -/
def withLimit (c : Cfg) (now' : Moment) (bound : Option UntilSpec) (k : Limit → Run) : Run :=
  match bound with
  | none => k .never
  | some (.times n) => k (.times n)
  | some (.exact e) =>
    match calculated c (exactMeans c now' e) with
    | .value (.moment m) => k (.before m)
    | .value _ => ⟨[.failedBuilding .notADateInsideIterator], .finished⟩
    | .refused e => ⟨[.failedBuilding e], .finished⟩
    | .overflow => ⟨[], .panicked⟩

/-- What is printed for an iterator. -/
def printsIterator (c : Cfg) (now now' : Moment) (rounds : Nat) (r : Repeated) : Run :=
  match amountMeans c r.step with
  | .refused e => ⟨[.failedBuilding e], .finished⟩
  | .overflow => ⟨[], .panicked⟩
  | .value step =>
    match calculated c (dateMeans c now r.start) with
    | .value (.moment start) =>
      withLimit c now' r.bound fun limit => printsItems (limit.item (itemEnds c start step)) rounds 0
    | .value _ => ⟨[.failedBuilding .notADateInsideIterator], .finished⟩
    | .refused e => ⟨[.failedBuilding e], .finished⟩
    | .overflow => ⟨[], .panicked⟩

/-- What the program prints for a text, and how it ends. -/
def prints (c : Cfg) (iso : Iso) (now now' : Moment) (rounds : Nat) (text : List Char) : Run :=
  match read iso text with
  | .iterator r => printsIterator c now now' rounds r
  | .date d => printsValue c (dateMeans c now d)
  | .amounts e => printsValue c (amountsMean c e)
  | .nothing => ⟨[.error .nomError], .finished⟩

end Spec
