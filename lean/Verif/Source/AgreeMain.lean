import Verif.Source.Main
import Verif.Source.AgreeParser
import Verif.Source.AgreeText

/-! The hand-written model of examples/main.rs agrees with the mechanical translation of the source. -/

namespace Kairos.Source

theorem fold_eq (args : List (List Char)) (acc : List Char) :
    args.foldl (fun acc obj => acc ++ text! " " ++ obj) acc = args.foldl (fun acc obj => acc ++ ' ' :: obj) acc := by
  simp only [List.append_assoc, List.cons_append, List.nil_append]

theorem errorDebug_eq (e : ErrorKind) (l : List Char) (f : ErrorKind → Main.Line)
    (hn : Text.line (f .nomError) = none) (hf : e ≠ .nomError → Text.line (f e) = some (l ++ Text.errorDebug e)) :
    (Rs.errorDebug ErrorKind.debug e).map (l ++ ·) = Text.line (f e) := by
  unfold Rs.errorDebug
  by_cases h : e = .nomError
  · subst h
    simp only [if_true, hn, Option.map_none]
  · rw [if_neg h, hf h, ErrorKind.debug_eq]
    rfl

theorem error_line (e : ErrorKind) :
    (Rs.errorDebug ErrorKind.debug e).map (text! "Error -> " ++ ·) = Text.line (.error e) :=
  errorDebug_eq e _ .error rfl (fun h => by cases e <;> first | rfl | exact absurd rfl h)

theorem errorCalculating_line (e : ErrorKind) :
    (Rs.errorDebug ErrorKind.debug e).map (text! "Error calculating: " ++ ·) = Text.line (.errorCalculating e) :=
  errorDebug_eq e _ .errorCalculating rfl (fun h => by cases e <;> first | rfl | exact absurd rfl h)

theorem failedBuilding_line (e : ErrorKind) :
    (Rs.errorDebug ErrorKind.debug e).map (text! "Failed building iterator: " ++ ·) = Text.line (.failedBuilding e) :=
  errorDebug_eq e _ .failedBuilding rfl (fun h => by cases e <;> first | rfl | exact absurd rfl h)

theorem prettyPrint_line (t : TT) : some (pretty_print t) = Text.line (Main.prettyPrint t) := by
  rw [pretty_print_eq]
  cases t <;> rfl

/-- What a run of the model (examples/main.rs:18-42) prints and how it ends. -/
def ofRun (r : Main.Run) : Rs.Prog := ⟨r.lines.map Text.line, r.ending⟩

theorem printItems_eq (c : Cfg) (rounds : Nat) (ui : Kairos.Parser.UserIterator) :
    Rs.forIn (Source.Parser.UserIterator.next c) (fun elem =>
      match elem with
      | .ok r => Rs.println (some (pretty_print r))
      | .error e => Rs.andThen (Rs.println ((Rs.errorDebug ErrorKind.debug e).map (text! "Error calculating: " ++ ·))) Rs.exit1)
      rounds ui = ofRun (Main.printItems c rounds ui) := by
  induction rounds generalizing ui with
  | zero => rfl
  | succ n ih =>
    unfold Rs.forIn Main.printItems
    rw [Parser.UserIterator.next_eq c ui]
    rcases Kairos.Parser.UserIterator.next c ui with ⟨ui', _ | r⟩
    · rfl
    · cases r with
      | ok t =>
        show Rs.andThen (Rs.println (some (pretty_print t))) (Rs.forIn _ _ n ui') = _
        rw [ih, prettyPrint_line]
        rfl
      | err e =>
        show Rs.andThen (Rs.andThen (Rs.println _) Rs.exit1) _ = _
        rw [errorCalculating_line]
        rfl
      | panic => rfl
      | oof => rfl

theorem main_eq (c : Cfg) (iso : Kairos.Parser.Iso) (f : Nom.P Kairos.Parser.AmountExpr) (hf : f = Parser.amount_expr_body f)
    (now now' : Moment) (rounds : Nat) (args : List (List Char)) :
    main c iso f now now' rounds args = ofRun (Main.main c iso now now' rounds args) := by
  unfold main Main.main Main.commandLine Rs.fold
  rw [fold_eq]
  simp only [Parser.parse_eq c iso f hf]
  generalize Kairos.Parser.parse c iso now now' _ = r
  cases r with
  | ok p =>
    cases p with
    | timeType tt =>
      simp only [Rs.onResult, TimeType.calculate_eq]
      cases Kairos.calculate c tt with
      | ok r => simp only [Rs.println, ofRun, List.map_cons, List.map_nil, prettyPrint_line]
      | err e => simp only [Rs.println, ofRun, List.map_cons, List.map_nil, errorCalculating_line]
      | panic => rfl
      | oof => rfl
    | iterator x =>
      cases x with
      | ok ui => exact printItems_eq c rounds ui
      | error e => simp only [Rs.onResult, Rs.println, ofRun, List.map_cons, List.map_nil, failedBuilding_line]
  | err e => simp only [Rs.onResult, Rs.println, ofRun, List.map_cons, List.map_nil, error_line]
  | panic => rfl
  | oof => rfl

end Kairos.Source
