import Verif.Lemmas.Printed
import Verif.Props.Evaluation
import Verif.Props.Safety

/-!
# C100: what the program prints, for any arguments whatsoever
-/

namespace Props
open Kairos Kairos.Parser Kairos.Main Spec

/-- A line that says something true about the calendar: an amount with the name of a unit, a moment that exists, or one of the library's errors,
in which all moments exist. In particular no line shows an expression that was not calculated. -/
def Genuine (c : Cfg) : Line → Prop
  | .amount _ label => ∃ u : TUnit, label = unitLabel u
  | .moment m => Proper c m
  | .cannotPrettyPrint _ => False
  | .error e => e = .nomError ∨ OwnError c e
  | .errorCalculating e | .failedBuilding e => OwnError c e

theorem genuine_plain {c : Cfg} {v : TT} (h : Plain c v) : Genuine c (prettyPrint v) := by
  obtain ⟨h1, h2⟩ := h
  cases v <;> first
    | exact ⟨.second, rfl⟩
    | exact ⟨.minute, rfl⟩
    | exact ⟨.hour, rfl⟩
    | exact ⟨.day, rfl⟩
    | exact ⟨.month, rfl⟩
    | exact ⟨.year, rfl⟩
    | exact h1
    | (exact absurd h2 (by simp [TT.isLeaf, TT.isAAmount, TT.isMoment]))

theorem genuine_items {c : Cfg} (hc : Sane c) (rounds : Nat) : ∀ {ui : UserIterator}, UserFine c ui →
    ∀ l ∈ (printItems c rounds ui).lines, Genuine c l := by
  induction rounds with
  | zero => intro ui _ l hl; simp [printItems] at hl
  | succ n ih =>
    intro ui h l hl
    have hf := fair_user hc h
    unfold printItems at hl
    revert hl
    split
    · intro hl; simp at hl
    · rename_i ui' r e
      rw [e] at hf
      intro hl
      simp only [List.mem_cons] at hl
      rcases hl with rfl | hl
      · exact genuine_plain ((hf.2 _ rfl).1 r rfl)
      · exact ih hf.1 l hl
    · rename_i ui' x e
      rw [e] at hf
      intro hl
      simp only [List.mem_cons, List.not_mem_nil, or_false] at hl
      rw [hl]
      exact (hf.2 _ rfl).2 x rfl
    · intro hl; simp at hl
    · intro hl; simp at hl

/-- **C100.** Whatever its arguments are, and however long it runs, every line the program prints is genuine. -/
theorem C100_genuine (c : Cfg) (hc : Sane c) (iso : Iso) (hi : IsoSane iso) (now now' : Moment) (hn : Proper c now) (hn' : Proper c now')
    (rounds : Nat) (args : List (List Char)) : ∀ l ∈ (Main.main c iso now now' rounds args).lines, Genuine c l := by
  intro l hl
  have calc_case : ∀ t : TT, AllMoments (Proper c) t → ∀ l, (l ∈ (match calculate c t with
      | .ok r => (⟨[prettyPrint r], .finished⟩ : Run)
      | .err e => ⟨[.errorCalculating e], .finished⟩
      | .panic => ⟨[], .panicked⟩
      | .oof => ⟨[], .running⟩).lines) → Genuine c l := by
    intro t ht l hl
    have hf := fair_calculate hc ht
    revert hl
    split
    · rename_i r e
      intro hl
      simp only [List.mem_cons, List.not_mem_nil, or_false] at hl
      rw [hl]; exact genuine_plain (hf.1 r e)
    · rename_i x e
      intro hl
      simp only [List.mem_cons, List.not_mem_nil, or_false] at hl
      rw [hl]; exact hf.2 x e
    · intro hl; simp at hl
    · intro hl; simp at hl
  have tt_case : ∀ r : Out TT, Fair c (AllMoments (Proper c)) r →
      parse c iso now now' (commandLine args) = (r >>= fun v => .ok (.timeType v)) → Genuine c l := by
    intro r hf hp
    unfold Main.main at hl
    rw [hp] at hl
    cases r with
    | ok v => exact calc_case v (hf.1 v rfl) l hl
    | err e =>
      have hl : l ∈ [Line.error e] := hl
      simp only [List.mem_cons, List.not_mem_nil, or_false] at hl
      rw [hl]; exact .inr (hf.2 e rfl)
    | panic => have hl : l ∈ ([] : List Line) := hl; cases hl
    | oof => have hl : l ∈ ([] : List Line) := hl; cases hl
  rcases parse_cases c iso now now' (commandLine args) with ⟨r, it, h, e⟩ | ⟨-, r, t, h, e⟩ | ⟨-, -, e⟩
  · have hf := fair_userIterator hc hi hn hn' h
    unfold Main.main at hl
    rw [e] at hl
    cases hu : it.intoUserIterator c now now' with
    | ok u =>
      rw [hu] at hl
      exact genuine_items hc rounds (hf.1 u hu) l hl
    | err x =>
      rw [hu] at hl
      have hl : l ∈ [Line.failedBuilding x] := hl
      simp only [List.mem_cons, List.not_mem_nil, or_false] at hl
      rw [hl]; exact hf.2 x hu
    | panic => rw [hu] at hl; have hl : l ∈ ([] : List Line) := hl; cases hl
    | oof => rw [hu] at hl; have hl : l ∈ ([] : List Line) := hl; cases hl
  · rcases timetype_done hi h with ⟨d, tx, rfl, hd, -⟩ | ⟨x, tx, rfl, hx, -⟩
    · exact tt_case _ (fair_date hi hn hd) e
    · exact tt_case _ (fair_expr x) e
  · unfold Main.main at hl
    rw [e] at hl
    have hl : l ∈ [Line.error .nomError] := hl
    simp only [List.mem_cons, List.not_mem_nil, or_false] at hl
    rw [hl]; exact .inl rfl

example (rounds : Nat) := C100_genuine (std .debug) (sane_std _) noIso isoSane_noIso (at_ 2017 6 15 7 8 9) (at_ 2017 6 15 7 8 9) ⟨by decide, by decide⟩ ⟨by decide, by decide⟩
  rounds ["today monthly".toList]

theorem shown_of_genuine {c : Cfg} {l : Line} (h : Genuine c l) : Text.ShownLine l := by
  cases l with
  | amount => trivial
  | moment m => exact shown_of_proper h
  | cannotPrettyPrint t => exact h.elim
  | error e => exact h.imp id shown_of_own
  | errorCalculating e => exact shown_of_own h
  | failedBuilding e => exact shown_of_own h

/-- **C100.** What the program prints tells what it found: if two runs (with any arguments, on any days) print the same text, line by line, then
every line stands for the same amount, the same moment or the same error in both. -/
theorem C100_told_apart (c : Cfg) (hc : Sane c) (iso : Iso) (hi : IsoSane iso) (now now' later later' : Moment) (hn : Proper c now)
    (hn' : Proper c now') (hl : Proper c later) (hl' : Proper c later') (rounds rounds' : Nat) (args args' : List (List Char))
    (h : (Main.main c iso now now' rounds args).lines.map Text.line = (Main.main c iso later later' rounds' args').lines.map Text.line) :
    (Main.main c iso now now' rounds args).lines = (Main.main c iso later later' rounds' args').lines := by
  have g1 := C100_genuine c hc iso hi now now' hn hn' rounds args
  have g2 := C100_genuine c hc iso hi later later' hl hl' rounds' args'
  revert h g1 g2
  generalize (Main.main c iso now now' rounds args).lines = ls
  generalize (Main.main c iso later later' rounds' args').lines = ls'
  intro h g1 g2
  induction ls generalizing ls' with
  | nil =>
    cases ls' with
    | nil => rfl
    | cons => cases h
  | cons l ls ih =>
    cases ls' with
    | nil => cases h
    | cons l' ls' =>
      simp only [List.map_cons, List.cons.injEq] at h
      rw [Text.line_inj (shown_of_genuine (g1 l (by simp))) (shown_of_genuine (g2 l' (by simp))) h.1,
        ih ls' h.2 (fun x hx => g1 x (by simp [hx])) (fun x hx => g2 x (by simp [hx]))]

/-- `kairos today - 1month daily`: on 1 March 2017 at noon, and at the end of the last year of a small calendar, where an error is printed. -/
example : IsoSane noIso ∧ Proper (std .debug) (at_ 2017 3 1 12 0 0) ∧
    (Main.main (std .debug) noIso (at_ 2017 3 1 12 0 0) (at_ 2017 3 1 12 0 1) 2 ["today".toList, "-".toList, "1month".toList, "daily".toList]).lines.map
      Text.line = [some "2017-02-01 12:00:00 ".toList, some "2017-02-02 12:00:00 ".toList] := by
  refine ⟨isoSane_noIso, by unfold Proper; decide +kernel, by decide +kernel⟩

example : (Main.main ⟨.debug, 2000, 2017⟩ noIso (at_ 2017 12 31 12 0 0) (at_ 2017 12 31 12 0 0) 5 ["today".toList, "daily".toList]).lines.map
    Text.line = [some "2017-12-31 12:00:00 ".toList, some "Error calculating: OutOfBounds(2018, 1, 12, 12, 0, 0)".toList] := by
  decide +kernel

end Props
