import Verif.Props.Acceptance
import Verif.Props.Texts

/-!
# C74, C87: what the command line program prints, from its arguments to the text of its lines
-/

namespace Props
open Kairos Kairos.Parser Kairos.Main Spec

/-! ## C87 -/

/-- **C87.** The text of the line that the program prints tells the value: different values are printed as different lines. -/
theorem C87_lines_told_apart (c : Cfg) (t t' : TT) (ht : AllMoments (Proper c) t) (ht' : AllMoments (Proper c) t')
    (h : Text.line (prettyPrint t) = Text.line (prettyPrint t')) : t = t' := by
  rw [line_prettyPrint, line_prettyPrint] at h
  exact C87_told_apart c t t' ht ht' (Option.some.inj h)

example : Text.line (prettyPrint (.months 5)) = some "5 Months".toList ∧ Text.line (prettyPrint (.minutes 5)) = some "5 Minutes".toList ∧
    AllMoments (Proper (std .debug)) (.months 5) := ⟨by decide +kernel, by decide +kernel, trivial⟩

/-! ## C74 -/

/-- **C74.** Called with an amount expression, the program prints one line: a number in decimal digits, a blank and a unit, with the value that
the grammar gives the expression; and finishes. -/
theorem C74_amount_text (c : Cfg) (iso : Iso) (now now' : Moment) (rounds : Nat) (args : List (List Char)) (e : AmountExpr)
    (h : ExprText e (commandLine args)) (hi : NoIso iso (commandLine args))
    (hi' : NoIso iso (pastBlanks (commandLine args))) (hm : exprMag e ≤ 9223372036854775807) :
    ∃ (l : Line) (u : TUnit) (n : Int) (ds : List Char), Main.main c iso now now' rounds args = ⟨[l], .finished⟩ ∧
      n * u.secs = exprSecs e ∧ Numeral ds n.natAbs ∧
      Text.line l = some ((if n < 0 then ['-'] else []) ++ ds ++ ' ' :: (unitLabel u).toList) := by
  have hp := exprText_pos h
  have hw := weeksFit_of_mag hp hm
  obtain ⟨n, h1, h2, h3⟩ := C05_amounts_succeed c e.tree (by rw [e.mag_tree hp]; exact hm)
  obtain ⟨ds, h4, h5⟩ := C87_amount e.tree.finest n
  refine ⟨prettyPrint (amt e.tree.finest n), e.tree.finest, n, ds, ?_, by rw [h2, e.secs_tree], h4, ?_⟩
  · unfold Main.main
    rw [parse_wholeExpr c iso now now' e _ h hi hi', e.into_tree hw]
    simp only [OutE.ok_bind, h1]
  · rw [line_prettyPrint, h5]

/-- `kairos 2 hours - 30 min` -/
example : ExprText (.cons ⟨2, .hour⟩ .minus (.single ⟨30, .minute⟩)) (commandLine ["2".toList, "hours".toList, "-".toList, "30".toList, "min".toList]) ∧
    exprSecs (.cons ⟨2, .hour⟩ .minus (.single ⟨30, .minute⟩)) = 90 * 60 := by
  refine ⟨?_, by decide⟩
  rw [show commandLine ["2".toList, "hours".toList, "-".toList, "30".toList, "min".toList] = "2 hours - 30 min".toList by decide +kernel]
  exact .cons (t := "2 hours".toList) (b := " ".toList) (b' := " ".toList) (t' := "30 min".toList)
    (.number (b := []) (ds := "2".toList) (b' := " ".toList) (unit := .hour) (name := "hours")
      (by decide) (by decide) (by decide) (by decide) (by decide)) (by decide) (by decide)
    (.single (b := []) (.number (b := []) (ds := "30".toList) (b' := " ".toList) (unit := .minute) (name := "min")
      (by decide) (by decide) (by decide) (by decide) (by decide)) (by decide))

/-- **C74.** Called with a date, the program prints that date; if it lies outside the calendar, one line with the error. Either way the exit
code is 0. -/
theorem C74_date (c : Cfg) (iso : Iso) (now now' : Moment) (rounds : Nat) (args : List (List Char)) (e : ExactDate) (v : TT)
    (h : DateText iso ⟨e, none⟩ (commandLine args) []) (hv : exactMeans c now e = .value v) :
    (∀ r, calculate c v = .ok (.moment r) → Main.main c iso now now' rounds args = ⟨[.moment r], .finished⟩) ∧
    (∀ x, calculate c v = .err x → Main.main c iso now now' rounds args = ⟨[.errorCalculating x], .finished⟩) := by
  unmean
  have hp := parse_dateOffset c iso now now' e v _ [] none h (by intro ch hc; cases hc) hv
  rw [List.append_nil] at hp
  refine ⟨fun r hr => ?_, fun x hx => ?_⟩
  · unfold Main.main
    rw [hp]
    simp only [hr, prettyPrint]
  · unfold Main.main
    rw [hp]
    simp only [hx]

example := C74_date (std .debug) noIso (at_ 2017 2 28 8 30 0) (at_ 2017 2 28 8 30 0) 10 ["tomorrow".toList] .tomorrow (.moment (at_ 2017 2 28 8 30 0) + .days 1)
  (by rw [show commandLine ["tomorrow".toList] = "tomorrow".toList by decide +kernel]
      exact .mk (dt := "tomorrow".toList) (ot := []) (.tomorrow _) .none) rfl

/-- **C74.** Called with a date plus or minus an amount expression, it prints the date that many seconds, minutes, ... from it, or one line
with the error of that sum; exit code 0. -/
theorem C74_date_offset (c : Cfg) (iso : Iso) (now now' : Moment) (rounds : Nat) (args : List (List Char)) (e : ExactDate) (m : Moment)
    (op : Operator) (a : AmountExpr) (h : DateText iso ⟨e, some (op, a)⟩ (commandLine args) [])
    (hb : exactMeans c now e = .value (.moment m)) (hm : exprMag a ≤ 9223372036854775807) :
    ∃ u n, n * u.secs = exprSecs a ∧
      (∀ r, calculate c (if op = .plus then .moment m + amt u n else .moment m - amt u n) = .ok (.moment r) →
        Main.main c iso now now' rounds args = ⟨[.moment r], .finished⟩) ∧
      (∀ x, calculate c (if op = .plus then .moment m + amt u n else .moment m - amt u n) = .err x →
        Main.main c iso now now' rounds args = ⟨[.errorCalculating x], .finished⟩) := by
  obtain ⟨v, u, n, hp, hs, hc⟩ := C64_value c iso now now' e m _ [] op a h (by intro ch hc; cases hc) hb hm
  rw [List.append_nil] at hp
  refine ⟨u, n, hs, fun r hr => ?_, fun x hx => ?_⟩
  · unfold Main.main
    rw [hp]
    simp only [hc, hr, prettyPrint]
  · unfold Main.main
    rw [hp]
    simp only [hc, hx]

/-- `kairos today - 5days` -/
example : DateText noIso ⟨.today, some (.minus, .single ⟨5, .day⟩)⟩ (commandLine ["today".toList, "-".toList, "5days".toList]) [] := by
  rw [show commandLine ["today".toList, "-".toList, "5days".toList] = "today - 5days".toList by decide +kernel]
  have h1 : AmountText ⟨5, .day⟩ "5days".toList :=
    .number (b := []) (ds := "5".toList) (b' := []) (unit := .day) (name := "days")
      (by decide) (by decide) (by decide) (by decide) (by decide)
  have h2 : ExprText (.single ⟨5, .day⟩) "5days".toList := .single (b := []) h1 (by decide)
  exact .mk (dt := "today".toList) (.today _) (.some (b := " ".toList) (b' := " ".toList) (by decide) (by decide) h2)

/-- **C74.** Called with anything that begins neither with an amount nor with a date, it prints one line with the parse error; exit code 0. -/
theorem C74_rejected (c : Cfg) (iso : Iso) (hi : IsoSane iso) (now now' : Moment) (rounds : Nat) (args : List (List Char))
    (h1 : ¬ StartsWithAmount (commandLine args)) (h2 : ¬ StartsWithDate iso (commandLine args))
    (hs : ∀ ch, (commandLine args).head? = some ch → ¬ Blank ch) :
    Main.main c iso now now' rounds args = ⟨[.error .nomError], .finished⟩ := by
  unfold Main.main
  rw [(C90_rejected_iff c iso hi now now' _ hs).2 ⟨h1, h2⟩]

/-- Called without arguments. -/
example : ¬ StartsWithAmount (commandLine []) ∧ ¬ StartsWithDate noIso (commandLine []) := by
  have e : commandLine [] = [] := by decide +kernel
  rw [e]
  refine ⟨?_, ?_⟩
  · rintro ⟨a, t, r, h, ha⟩
    have := amountText_ne ha
    simp at h
    exact this h.1
  · rintro ⟨a, t, r, h, ha⟩
    cases ha with
    | today => cases h
    | yesterday => cases h
    | tomorrow => cases h
    | datetime h => cases h
    | date h => cases h

/-- **C74.** Called with an iterator whose first date lies outside the calendar, it prints one line saying so; exit code 0. -/
theorem C74_bad_start (c : Cfg) (iso : Iso) (now now' : Moment) (rounds : Nat) (args : List (List Char)) (d : PDate) (unit : TimeUnit)
    (n : Int) (u : Option UntilSpec) (h : IterText iso d unit n u (commandLine args)) (hw : unit = .week → InI64 (7 * n)) (v : TT)
    (x : ErrorKind) (hv : dateMeans c now d = .refused x ∨ (dateMeans c now d = .value v ∧ calculate c v = .err x)) :
    Main.main c iso now now' rounds args = ⟨[.failedBuilding x], .finished⟩ := by
  unfold Main.main
  rw [C54_bad_start c iso now now' d unit n u _ h hw v x hv]

/-- `kairos yesterday daily` on 1 March. -/
example : IterText noIso ⟨.yesterday, none⟩ .day 1 none (commandLine ["yesterday".toList, "daily".toList]) ∧
    dateMeans (std .debug) (at_ 2017 3 1 12 0 0) ⟨.yesterday, none⟩ = .value (.moment (at_ 2017 3 1 12 0 0) - .days 1) ∧
    calculate (std .debug) (.moment (at_ 2017 3 1 12 0 0) - .days 1) = .err (.outOfBounds 2017 2 12 12 0 0) := by
  refine ⟨?_, by decide +kernel, by decide +kernel⟩
  rw [show commandLine ["yesterday".toList, "daily".toList] = "yesterday daily".toList by decide +kernel]
  exact IterText.mk (b0 := []) (dt := "yesterday".toList) (ot := []) (b1 := " ".toList) (st := "daily".toList) (b2 := []) (ut := [])
    (by decide) (ExactText.yesterday _) .none (by decide) (by decide) (StepText.alias .day) (by decide) .none (by decide)

/-- The ending of the loop over the items. -/
theorem printItems_ending (c : Cfg) (rounds : Nat) (ui : UserIterator) :
    ((printItems c rounds ui).ending = .exit1 ↔ ∃ k e, k < rounds ∧ nth (UserIterator.next c) k ui = some (.err e) ∧
      ∀ j, j < k → ∃ t, nth (UserIterator.next c) j ui = some (.ok t)) ∧
    ((printItems c rounds ui).ending = .finished ↔ ∃ k, k < rounds ∧ nth (UserIterator.next c) k ui = none ∧
      ∀ j, j < k → ∃ t, nth (UserIterator.next c) j ui = some (.ok t)) := by
  induction rounds generalizing ui with
  | zero =>
    unfold printItems
    refine ⟨⟨(nomatch ·), ?_⟩, ⟨(nomatch ·), ?_⟩⟩
    · rintro ⟨k, e, h, -⟩; omega
    · rintro ⟨k, h, -⟩; omega
  | succ rounds ih =>
    have ih := ih (ui.next c).1
    have h0 : nth (UserIterator.next c) 0 ui = (ui.next c).2 := rfl
    have hs : ∀ k, nth (UserIterator.next c) (k + 1) ui = nth (UserIterator.next c) k (ui.next c).1 := fun k => rfl
    unfold printItems
    generalize ui.next c = p at *
    obtain ⟨ui', x⟩ := p
    simp only at h0 hs ih
    have first : ∀ k, (∀ j, j < k → ∃ t, nth (UserIterator.next c) j ui = some (.ok t)) → k = 0 ∨ ∃ t, x = some (.ok t) := by
      intro k h
      by_cases hk : k = 0
      · exact .inl hk
      · obtain ⟨t, ht⟩ := h 0 (by omega)
        rw [h0] at ht
        exact .inr ⟨t, ht⟩
    cases x with
    | none =>
      simp only
      refine ⟨⟨(nomatch ·), ?_⟩, ⟨fun _ => ⟨0, by omega, h0, fun j hj => absurd hj (by omega)⟩, fun _ => trivial⟩⟩
      rintro ⟨k, e, -, h2, h3⟩
      rcases first k h3 with rfl | ⟨t, ht⟩
      · rw [h0] at h2; cases h2
      · cases ht
    | some o =>
      cases o with
      | ok t =>
        simp only
        refine ⟨?_, ?_⟩
        · rw [ih.1]
          constructor
          · rintro ⟨k, e, h1, h2, h3⟩
            refine ⟨k + 1, e, by omega, (hs k).trans h2, fun j hj => ?_⟩
            cases j with
            | zero => exact ⟨t, h0⟩
            | succ j => rw [hs]; exact h3 j (by omega)
          · rintro ⟨k, e, h1, h2, h3⟩
            cases k with
            | zero => rw [h0] at h2; cases h2
            | succ k => exact ⟨k, e, by omega, (hs k).symm.trans h2, fun j hj => by rw [← hs]; exact h3 (j + 1) (by omega)⟩
        · rw [ih.2]
          constructor
          · rintro ⟨k, h1, h2, h3⟩
            refine ⟨k + 1, by omega, (hs k).trans h2, fun j hj => ?_⟩
            cases j with
            | zero => exact ⟨t, h0⟩
            | succ j => rw [hs]; exact h3 j (by omega)
          · rintro ⟨k, h1, h2, h3⟩
            cases k with
            | zero => rw [h0] at h2; cases h2
            | succ k => exact ⟨k, by omega, (hs k).symm.trans h2, fun j hj => by rw [← hs]; exact h3 (j + 1) (by omega)⟩
      | err e =>
        simp only
        refine ⟨⟨fun _ => ⟨0, e, by omega, h0, fun j hj => absurd hj (by omega)⟩, fun _ => trivial⟩, ⟨(nomatch ·), ?_⟩⟩
        rintro ⟨k, -, h2, h3⟩
        rcases first k h3 with rfl | ⟨t, ht⟩
        · rw [h0] at h2; cases h2
        · cases ht
      | panic =>
        simp only
        refine ⟨⟨(nomatch ·), ?_⟩, ⟨(nomatch ·), ?_⟩⟩
        · rintro ⟨k, e, -, h2, h3⟩
          rcases first k h3 with rfl | ⟨t, ht⟩
          · rw [h0] at h2; cases h2
          · cases ht
        · rintro ⟨k, -, h2, h3⟩
          rcases first k h3 with rfl | ⟨t, ht⟩
          · rw [h0] at h2; cases h2
          · cases ht
      | oof =>
        simp only
        refine ⟨⟨(nomatch ·), ?_⟩, ⟨(nomatch ·), ?_⟩⟩
        · rintro ⟨k, e, -, h2, h3⟩
          rcases first k h3 with rfl | ⟨t, ht⟩
          · rw [h0] at h2; cases h2
          · cases ht
        · rintro ⟨k, -, h2, h3⟩
          rcases first k h3 with rfl | ⟨t, ht⟩
          · rw [h0] at h2; cases h2
          · cases ht

/-- **C74.** The exit code is 1 exactly if the text is an iterator that could be built and one of its items, after items that could be printed, is an
error; a text that is rejected, an expression that cannot be calculated and an iterator that cannot be built give exit code 0. -/
theorem C74_exit_code (c : Cfg) (iso : Iso) (now now' : Moment) (rounds : Nat) (args : List (List Char)) :
    (Main.main c iso now now' rounds args).ending = .exit1 ↔
      ∃ ui, parse c iso now now' (commandLine args) = .ok (.iterator (.ok ui)) ∧
        ∃ k e, k < rounds ∧ nth (UserIterator.next c) k ui = some (.err e) ∧
          ∀ j, j < k → ∃ t, nth (UserIterator.next c) j ui = some (.ok t) := by
  unfold Main.main
  cases hp : parse c iso now now' (commandLine args) with
  | ok p =>
    cases p with
    | iterator r =>
      cases r with
      | ok ui =>
        simp only
        rw [(printItems_ending c rounds ui).1]
        constructor
        · intro h; exact ⟨ui, rfl, h⟩
        · rintro ⟨ui', e, h⟩; cases e; exact h
      | error e => exact ⟨(nomatch ·), by rintro ⟨ui, h, -⟩; cases h⟩
    | timeType v =>
      simp only
      cases calculate c v <;> exact ⟨(nomatch ·), by rintro ⟨ui, h, -⟩; cases h⟩
  | err e => exact ⟨(nomatch ·), by rintro ⟨ui, h, -⟩; cases h⟩
  | panic => exact ⟨(nomatch ·), by rintro ⟨ui, h, -⟩; cases h⟩
  | oof => exact ⟨(nomatch ·), by rintro ⟨ui, h, -⟩; cases h⟩

/-- `today every 300000 years`: the second item is past chrono's last year. A text that is rejected, or a sum that cannot be calculated,
does not give exit code 1. -/
example : (Main.main (std .debug) noIso (at_ 2017 1 1 0 0 0) (at_ 2017 1 1 0 0 0) 3 ["today every 300000 years".toList]).ending = .exit1 ∧
    (Main.main (std .debug) noIso (at_ 2017 1 1 0 0 0) (at_ 2017 1 1 0 0 0) 3 ["rubbish".toList]).ending ≠ .exit1 ∧
    (Main.main (std .debug) noIso (at_ 2017 1 1 0 0 0) (at_ 2017 1 1 0 0 0) 3 ["today + 300000 years".toList]).ending ≠ .exit1 := by
  decide +kernel

end Props
