import Verif.Lemmas.Display

/-! The `Debug` text of an error, and the lines of the program, can be read back in one way only. -/

namespace Kairos.Text
open Spec

/-- The name of an error before its parenthesis. -/
def ector : ErrorKind → List Char
  | .unknownError => text! "UnknownError"
  | .cannotAdd .. => text! "CannotAdd"
  | .cannotSub .. => text! "CannotSub"
  | .argumentErrorNotAnAmount _ => text! "ArgumentErrorNotAnAmount"
  | .argumentErrorNotAMoment _ => text! "ArgumentErrorNotAMoment"
  | .cannotCalculateEndOfYearOn _ => text! "CannotCalculateEndOfYearOn"
  | .cannotCalculateEndOfMonthOn _ => text! "CannotCalculateEndOfMonthOn"
  | .cannotCompareDayTo _ => text! "CannotCompareDayTo"
  | .cannotCompareMonthTo _ => text! "CannotCompareMonthTo"
  | .outOfBounds .. => text! "OutOfBounds"
  | .notADateInsideIterator => text! "NotADateInsideIterator"
  | .unknownParserError => text! "UnknownParserError"
  | .nomError => []

/-- The text up to the first parenthesis. -/
def upTo (l : List Char) : List Char := l.takeWhile (· != '(')

theorem upTo_append {a r : List Char} (h : '(' ∉ a) : upTo (a ++ '(' :: r) = a := by
  unfold upTo
  induction a with
  | nil => simp
  | cons x xs ih =>
    have h1 : x ≠ '(' := by rintro rfl; exact h (List.mem_cons_self ..)
    simp only [List.cons_append, List.takeWhile_cons]
    rw [if_pos (by simp [h1]), ih (fun hm => h (List.mem_cons_of_mem _ hm))]

theorem upTo_errorDebug (e : ErrorKind) : upTo (errorDebug e) = ector e := by
  cases e <;> simp only [errorDebug, ector] <;> first
    | exact upTo_append (by decide)
    | decide

theorem errorDebug_inj {e e' : ErrorKind} (he : ShownError e) (he' : ShownError e') (h : errorDebug e = errorDebug e') : e = e' := by
  have hp : ector e = ector e' := by rw [← upTo_errorDebug, h, upTo_errorDebug]
  cases e <;> cases e' <;> first
    | (exfalso; revert hp; simp only [ector]; decide)
    | skip
  all_goals first
    | rfl
    | exact False.elim he
    | exact False.elim he'
    | skip
  all_goals
    simp only [errorDebug] at h
    replace h := List.append_cancel_left h
    simp only [List.cons.injEq, true_and] at h
  case cannotAdd.cannotAdd a b a' b' =>
    obtain ⟨rfl, h⟩ := debug_inj he.1 he'.1 h
    simp only [List.append_cancel_left_eq] at h
    obtain ⟨rfl, -⟩ := debug_inj he.2 he'.2 h
    rfl
  case cannotSub.cannotSub a b a' b' =>
    obtain ⟨rfl, h⟩ := debug_inj he.1 he'.1 h
    simp only [List.append_cancel_left_eq] at h
    obtain ⟨rfl, -⟩ := debug_inj he.2 he'.2 h
    rfl
  case outOfBounds.outOfBounds y mo d hh mi s y' mo' d' hh' mi' s' =>
    obtain ⟨a1, a2, a3, a4, a5⟩ := he
    obtain ⟨b1, b2, b3, b4, b5⟩ := he'
    simp only [nat, List.cons_append, List.nil_append] at h
    have h0 := int_inj (noDig_cons rfl) (noDig_cons rfl) h
    clear h
    obtain ⟨h0, h⟩ := h0
    simp only [List.cons.injEq, true_and] at h
    obtain ⟨h1, h⟩ := digits_inj (noDig_cons rfl) (noDig_cons rfl) h
    simp only [List.cons.injEq, true_and] at h
    obtain ⟨h2, h⟩ := digits_inj (noDig_cons rfl) (noDig_cons rfl) h
    simp only [List.cons.injEq, true_and] at h
    obtain ⟨h3, h⟩ := digits_inj (noDig_cons rfl) (noDig_cons rfl) h
    simp only [List.cons.injEq, true_and] at h
    obtain ⟨h4, h⟩ := digits_inj (noDig_cons rfl) (noDig_cons rfl) h
    simp only [List.cons.injEq, true_and] at h
    obtain ⟨h5, -⟩ := digits_inj (noDig_cons rfl) (noDig_cons rfl) h
    have : mo = mo' := by omega
    have : d = d' := by omega
    have : hh = hh' := by omega
    have : mi = mi' := by omega
    have : s = s' := by omega
    simp_all
  all_goals first
    | (obtain ⟨rfl, -⟩ := debug_inj he he' h; rfl)
    | (rw [String.toList_injective (List.append_cancel_right h)])

/-- What a line needs to be told from its text. -/
def ShownLine : Main.Line → Prop
  | .amount _ _ => True
  | .moment m => Shown m
  | .cannotPrettyPrint t => AllMoments Shown t
  | .error e => e = .nomError ∨ ShownError e
  | .errorCalculating e | .failedBuilding e => ShownError e

/-- The first letters of a line, for lines of words. -/
theorem lead_ne {a b x y : List Char} (h : a ++ x = b ++ y) (h1 : ¬ a <+: b) (h2 : ¬ b <+: a) : False := by
  rcases List.prefix_or_prefix_of_prefix (l₁ := a) (l₂ := b) (l₃ := a ++ x) (List.prefix_append ..)
    (by rw [h]; exact List.prefix_append ..) with h | h
  · exact h1 h
  · exact h2 h

theorem amount_first (n : Int) (r : List Char) : ∃ ch l, int n ++ r = ch :: l ∧ (ch.isDigit = true ∨ ch = '-') := by
  unfold int
  split
  · exact ⟨_, _, rfl, .inr rfl⟩
  · obtain ⟨ch, l, e, hd⟩ := digits_head n.natAbs r
    exact ⟨ch, l, e, .inl hd⟩

theorem year_first (n : Int) (r : List Char) : ∃ ch l, year n ++ r = ch :: l ∧ (ch.isDigit = true ∨ ch = '-' ∨ ch = '+') := by
  unfold year
  split
  · obtain ⟨ch, l, e, hd⟩ := pad_head 4 n.toNat r
    exact ⟨ch, l, e, .inl hd⟩
  · exact ⟨_, _, rfl, .inr (by split <;> simp)⟩

/-- A line that starts with a number, `-` or `+`. -/
def Numeric (l : List Char) : Prop := ∃ ch r, l = ch :: r ∧ (ch.isDigit = true ∨ ch = '-' ∨ ch = '+')

theorem numeric_amount (n : Int) (r : List Char) : Numeric (int n ++ r) := by
  obtain ⟨ch, l, e, h⟩ := amount_first n r
  exact ⟨ch, l, e, by rcases h with h | h <;> simp [h]⟩

theorem numeric_moment (sep : Char) (m : Moment) (r : List Char) : Numeric (moment sep m ++ r) := by
  simp only [moment, date, List.append_assoc]
  exact year_first _ _

theorem not_numeric {ch : Char} {r : List Char} (h : ch.isDigit = false ∧ ch ≠ '-' ∧ ch ≠ '+') : ¬ Numeric (ch :: r) := by
  rintro ⟨c', r', e, h'⟩
  cases e
  rcases h' with h' | h' | h'
  · rw [h.1] at h'; cases h'
  · exact h.2.1 h'
  · exact h.2.2 h'

theorem line_error {e : ErrorKind} (h : e ≠ .nomError) :
    line (.error e) = some (text! "Error -> " ++ errorDebug e) ∧
    line (.errorCalculating e) = some (text! "Error calculating: " ++ errorDebug e) ∧
    line (.failedBuilding e) = some (text! "Failed building iterator: " ++ errorDebug e) := by
  cases e <;> first | exact absurd rfl h | exact ⟨rfl, rfl, rfl⟩

theorem shownError_ne {e : ErrorKind} (h : ShownError e) : e ≠ .nomError := by rintro rfl; exact h

theorem line_inj {l l' : Main.Line} (hl : ShownLine l) (hl' : ShownLine l') (h : line l = line l') : l = l' := by
  -- every line has a text of a certain form, or is nom's error
  have form : ∀ {l : Main.Line}, ShownLine l → l = .error .nomError ∧ line l = none ∨
      ∃ t, line l = some t ∧ ((∃ n s, l = .amount n s ∧ t = int n ++ ' ' :: s.toList) ∨
        (∃ m, l = .moment m ∧ Shown m ∧ t = moment ' ' m ++ [' ']) ∨
        (∃ x, l = .cannotPrettyPrint x ∧ AllMoments Shown x ∧ t = text! "Cannot pretty-print: '" ++ (debug x ++ ['\''])) ∨
        (∃ e, l = .error e ∧ ShownError e ∧ t = text! "Error -> " ++ errorDebug e) ∨
        (∃ e, l = .errorCalculating e ∧ ShownError e ∧ t = text! "Error calculating: " ++ errorDebug e) ∨
        (∃ e, l = .failedBuilding e ∧ ShownError e ∧ t = text! "Failed building iterator: " ++ errorDebug e)) := by
    intro l hl
    cases l with
    | amount n s => exact .inr ⟨_, rfl, .inl ⟨n, s, rfl, rfl⟩⟩
    | moment m => exact .inr ⟨_, rfl, .inr (.inl ⟨m, rfl, hl, rfl⟩)⟩
    | cannotPrettyPrint x => exact .inr ⟨_, rfl, .inr (.inr (.inl ⟨x, rfl, hl, rfl⟩))⟩
    | error e =>
      rcases hl with rfl | hl
      · exact .inl ⟨rfl, rfl⟩
      · exact .inr ⟨_, (line_error (shownError_ne hl)).1, .inr (.inr (.inr (.inl ⟨e, rfl, hl, rfl⟩)))⟩
    | errorCalculating e =>
      exact .inr ⟨_, (line_error (shownError_ne hl)).2.1, .inr (.inr (.inr (.inr (.inl ⟨e, rfl, hl, rfl⟩))))⟩
    | failedBuilding e =>
      exact .inr ⟨_, (line_error (shownError_ne hl)).2.2, .inr (.inr (.inr (.inr (.inr ⟨e, rfl, hl, rfl⟩))))⟩
  have num : ∀ {t : List Char} {ch : Char} {r : List Char}, Numeric t → t = ch :: r →
      (ch.isDigit = false ∧ ch ≠ '-' ∧ ch ≠ '+') → False := by
    intro t ch r hn e hc
    rw [e] at hn
    exact not_numeric hc hn
  rcases form hl with ⟨rfl, e⟩ | ⟨t, e, f⟩ <;> rcases form hl' with ⟨rfl, e'⟩ | ⟨t', e', f'⟩
  · rfl
  · rw [e, e'] at h; cases h
  · rw [e, e'] at h; cases h
  · rw [e, e'] at h
    cases h
    clear e e' hl hl'
    have w : ∀ {ch : Char} {r : List Char}, t = ch :: r → (ch.isDigit = false ∧ ch ≠ '-' ∧ ch ≠ '+') → ¬ Numeric t :=
      fun e hc hn => num hn e hc
    rcases f with ⟨n, s, rfl, e⟩ | ⟨m, rfl, hm, e⟩ | ⟨x, rfl, hx, e⟩ | ⟨x, rfl, hx, e⟩ | ⟨x, rfl, hx, e⟩ | ⟨x, rfl, hx, e⟩ <;>
    rcases f' with ⟨n', s', rfl, e'⟩ | ⟨m', rfl, hm', e'⟩ | ⟨x', rfl, hx', e'⟩ | ⟨x', rfl, hx', e'⟩ | ⟨x', rfl, hx', e'⟩ | ⟨x', rfl, hx', e'⟩ <;>
    first
    | (exfalso; rw [e] at e'; exact lead_ne e' (by decide) (by decide))
    | (exfalso; exact w (by rw [e']; rfl) (by decide) (by rw [e]; first | exact numeric_amount _ _ | exact numeric_moment _ _ _))
    | (exfalso; exact w (by rw [e]; rfl) (by decide) (by rw [e']; first | exact numeric_amount _ _ | exact numeric_moment _ _ _))
    | skip
    all_goals rw [e] at e'
    · obtain ⟨rfl, h⟩ := int_inj (noDig_cons rfl) (noDig_cons rfl) e'
      simp only [List.cons.injEq, true_and] at h
      rw [String.toList_injective h]
    · simp only [moment, date, List.append_assoc, List.cons_append] at e'
      exact absurd e' int_ne_year
    · simp only [moment, date, List.append_assoc, List.cons_append] at e'
      exact absurd e'.symm int_ne_year
    · obtain ⟨rfl, -⟩ := moment_inj rfl hm hm' (over_cons rfl (by decide)) (over_cons rfl (by decide)) e'
      rfl
    · rw [(debug_inj hx hx' (List.append_cancel_left e')).1]
    · rw [errorDebug_inj hx hx' (List.append_cancel_left e')]
    · rw [errorDebug_inj hx hx' (List.append_cancel_left e')]
    · rw [errorDebug_inj hx hx' (List.append_cancel_left e')]

end Kairos.Text
