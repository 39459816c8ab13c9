import Verif.Model.Display
import Verif.Spec.Valid
import Verif.Spec.Amount

/-! Texts can be read back in one way only. -/

namespace Kairos.Text
open Spec

/-- The text does not go on with a digit. -/
def NoDig (r : List Char) : Prop := ∀ ch, r.head? = some ch → ch.isDigit = false

theorem noDig_nil : NoDig [] := by intro ch h; cases h
theorem noDig_cons {ch : Char} {r : List Char} (h : ch.isDigit = false) : NoDig (ch :: r) := by
  intro ch' h'; cases h'; exact h

theorem split_digits {ds ds' r r' : List Char} (hd : ∀ ch ∈ ds, ch.isDigit = true) (hd' : ∀ ch ∈ ds', ch.isDigit = true)
    (hr : NoDig r) (hr' : NoDig r') (h : ds ++ r = ds' ++ r') : ds = ds' ∧ r = r' := by
  induction ds generalizing ds' with
  | nil =>
    cases ds' with
    | nil => exact ⟨rfl, h⟩
    | cons x xs =>
      have h1 : r.head? = some x := by simp only [List.nil_append] at h; rw [h]; rfl
      have := hr x h1
      rw [hd' x (List.mem_cons_self ..)] at this; cases this
  | cons y ys ih =>
    cases ds' with
    | nil =>
      have h1 : r'.head? = some y := by simp only [List.nil_append] at h; rw [← h]; rfl
      have := hr' y h1
      rw [hd y (List.mem_cons_self ..)] at this; cases this
    | cons x xs =>
      simp only [List.cons_append, List.cons.injEq] at h
      obtain ⟨rfl, h⟩ := h
      obtain ⟨rfl, rfl⟩ := ih (fun ch hc => hd ch (List.mem_cons_of_mem _ hc))
        (fun ch hc => hd' ch (List.mem_cons_of_mem _ hc)) h
      exact ⟨rfl, rfl⟩

theorem digits_isDigit (n : Nat) : ∀ ch ∈ digits n, ch.isDigit = true :=
  fun _ h => Nat.isDigit_of_mem_toDigits (by decide) (by decide) h

theorem pad_isDigit (w n : Nat) : ∀ ch ∈ pad w n, ch.isDigit = true := by
  intro ch h
  unfold pad at h
  rcases List.mem_append.1 h with h | h
  · rw [(List.mem_replicate.1 h).2]; rfl
  · exact digits_isDigit n ch h

theorem value_digits (n : Nat) : Nat.ofDigitChars 10 (digits n) 0 = n :=
  Nat.ofDigitChars_toDigits (by decide) (by decide)

theorem value_pad (w n : Nat) : Nat.ofDigitChars 10 (pad w n) 0 = n := by
  unfold pad
  have : ∀ k, Nat.ofDigitChars 10 (List.replicate k '0' ++ digits n) 0 = n := by
    intro k
    induction k with
    | zero => exact value_digits n
    | succ k ih => rw [List.replicate_succ, List.cons_append, Nat.ofDigitChars_cons]; exact ih
  exact this _

theorem digits_inj {n n' : Nat} {r r' : List Char} (hr : NoDig r) (hr' : NoDig r') (h : digits n ++ r = digits n' ++ r') :
    n = n' ∧ r = r' := by
  obtain ⟨h1, h2⟩ := split_digits (digits_isDigit n) (digits_isDigit n') hr hr' h
  exact ⟨by rw [← value_digits n, h1, value_digits], h2⟩

theorem pad_inj {w n n' : Nat} {r r' : List Char} (hr : NoDig r) (hr' : NoDig r') (h : pad w n ++ r = pad w n' ++ r') :
    n = n' ∧ r = r' := by
  obtain ⟨h1, h2⟩ := split_digits (pad_isDigit w n) (pad_isDigit w n') hr hr' h
  exact ⟨by rw [← value_pad w n, h1, value_pad], h2⟩

theorem digits_ne_nil (n : Nat) : digits n ≠ [] := Nat.toDigits_ne_nil

/-- What a number starts with. -/
theorem digits_head (n : Nat) (r : List Char) : ∃ ch l, digits n ++ r = ch :: l ∧ ch.isDigit = true := by
  cases h : digits n with
  | nil => exact absurd h (digits_ne_nil n)
  | cons ch l => exact ⟨ch, l ++ r, rfl, digits_isDigit n ch (by rw [h]; exact List.mem_cons_self ..)⟩

theorem pad_head (w n : Nat) (r : List Char) : ∃ ch l, pad w n ++ r = ch :: l ∧ ch.isDigit = true := by
  cases h : pad w n with
  | nil => unfold pad at h; exact absurd (List.append_eq_nil_iff.1 h).2 (digits_ne_nil n)
  | cons ch l => exact ⟨ch, l ++ r, rfl, pad_isDigit w n ch (by rw [h]; exact List.mem_cons_self ..)⟩

theorem int_inj {n n' : Int} {r r' : List Char} (hr : NoDig r) (hr' : NoDig r') (h : int n ++ r = int n' ++ r') :
    n = n' ∧ r = r' := by
  unfold int at h
  split at h <;> split at h
  · simp only [List.cons_append, List.cons.injEq, true_and] at h
    obtain ⟨h1, h2⟩ := digits_inj hr hr' h
    exact ⟨by omega, h2⟩
  · obtain ⟨ch, l, e, hd⟩ := digits_head n'.natAbs r'
    rw [e] at h; simp only [List.cons_append, List.cons.injEq] at h
    rw [← h.1] at hd; cases hd
  · obtain ⟨ch, l, e, hd⟩ := digits_head n.natAbs r
    rw [e] at h; simp only [List.cons_append, List.cons.injEq] at h
    rw [h.1] at hd; cases hd
  · obtain ⟨h1, h2⟩ := digits_inj hr hr' h
    exact ⟨by omega, h2⟩

theorem year_inj {n n' : Int} {r r' : List Char} (hr : NoDig r) (hr' : NoDig r') (h : year n ++ r = year n' ++ r') :
    n = n' ∧ r = r' := by
  have sign : ∀ y : Int, (if y < 0 then '-' else '+').isDigit = false := by intro y; split <;> rfl
  unfold year at h
  by_cases c1 : 0 ≤ n ∧ n ≤ 9999 <;> by_cases c2 : 0 ≤ n' ∧ n' ≤ 9999 <;>
    simp only [c1, c2, if_true, if_false, and_self] at h
  · obtain ⟨h1, h2⟩ := pad_inj hr hr' h
    exact ⟨by omega, h2⟩
  · obtain ⟨ch, l, e, hd⟩ := pad_head 4 n.toNat r
    rw [e] at h; simp only [List.cons_append, List.cons.injEq] at h
    rw [h.1, sign] at hd; cases hd
  · obtain ⟨ch, l, e, hd⟩ := pad_head 4 n'.toNat r'
    rw [e] at h; simp only [List.cons_append, List.cons.injEq] at h
    rw [← h.1, sign] at hd; cases hd
  · simp only [List.cons_append, List.cons.injEq] at h
    obtain ⟨h0, h⟩ := h
    obtain ⟨h1, h2⟩ := pad_inj hr hr' h
    refine ⟨?_, h2⟩
    split at h0 <;> split at h0 <;> first | omega | (exact absurd h0 (by decide))

/-- The text goes on with something that cannot belong to a number with a fraction. -/
def Over (r : List Char) : Prop := NoDig r ∧ ∀ l, r ≠ '.' :: l

theorem over_nil : Over [] := ⟨noDig_nil, by intro l h; cases h⟩
theorem over_cons {ch : Char} {r : List Char} (h : ch.isDigit = false) (h' : ch ≠ '.') : Over (ch :: r) :=
  ⟨noDig_cons h, by intro l e; cases e; exact h' rfl⟩

theorem pad_length {w n : Nat} (hw : 0 < w) (h : n < 10 ^ w) : (pad w n).length = w := by
  unfold pad
  have : (digits n).length ≤ w := (Nat.length_toDigits_le_iff (by decide) hw).2 h
  simp only [List.length_append, List.length_replicate]
  omega

theorem fraction_noDig {n : Nat} {r : List Char} (hr : NoDig r) : NoDig (fraction n ++ r) := by
  unfold fraction
  repeat' split
  · exact hr
  all_goals exact noDig_cons rfl

theorem fraction_inj {n n' : Nat} (hn : n < 1000000000) (hn' : n' < 1000000000) {r r' : List Char} (hr : Over r)
    (hr' : Over r') (h : fraction n ++ r = fraction n' ++ r') : n = n' ∧ r = r' := by
  -- a fraction is a dot and `w` digits that tell `k`, of which `n` is a multiple
  have key : ∀ {n : Nat}, n < 1000000000 → n ≠ 0 → ∃ w f k, fraction n = '.' :: pad w k ∧ (pad w k).length = w ∧ n = k * f ∧
      (w = 3 ∧ f = 1000000 ∨ w = 6 ∧ f = 1000 ∨ w = 9 ∧ f = 1) := by
    intro n hn h0
    unfold fraction
    rw [if_neg h0]
    split
    · exact ⟨3, 1000000, n / 1000000, rfl, pad_length (by decide) (by omega), by omega, .inl ⟨rfl, rfl⟩⟩
    · split
      · exact ⟨6, 1000, n / 1000, rfl, pad_length (by decide) (by omega), by omega, .inr (.inl ⟨rfl, rfl⟩)⟩
      · exact ⟨9, 1, n, rfl, pad_length (by decide) (by omega), by omega, .inr (.inr ⟨rfl, rfl⟩)⟩
  have zero : fraction 0 = [] := rfl
  by_cases h0 : n = 0 <;> by_cases h0' : n' = 0
  · subst h0 h0'; exact ⟨rfl, h⟩
  · obtain ⟨w, f, k, e, -⟩ := key hn' h0'
    rw [h0, zero, e] at h
    exact absurd h (hr.2 _)
  · obtain ⟨w, f, k, e, -⟩ := key hn h0
    rw [h0', zero, e] at h
    exact absurd h.symm (hr'.2 _)
  · obtain ⟨w, f, k, e, el, en, ew⟩ := key hn h0
    obtain ⟨w', f', k', e', el', en', ew'⟩ := key hn' h0'
    rw [e, e'] at h
    simp only [List.cons_append, List.cons.injEq, true_and] at h
    obtain ⟨h1, h2⟩ := split_digits (pad_isDigit w k) (pad_isDigit w' k') hr.1 hr'.1 h
    have hw : w = w' := by rw [← el, h1, el']
    have hk : k = k' := by rw [← value_pad w k, h1, value_pad]
    have hf : f = f' := by omega
    exact ⟨by rw [en, en', hk, hf], h2⟩

/-- What a moment needs to be told from its text: it is a date with a time, and leap seconds are in second 59. -/
def Shown (m : Moment) : Prop :=
  0 ≤ m.month ∧ 0 ≤ m.day ∧ 0 ≤ m.hour ∧ 0 ≤ m.minute ∧ (0 ≤ m.second ∧ m.second ≤ 59) ∧
    (0 ≤ m.nano ∧ m.nano < 2000000000) ∧ (m.nano < 1000000000 ∨ m.second = 59)

theorem time_inj {m m' : Moment} (hm : Shown m) (hm' : Shown m') {r r' : List Char} (hr : Over r) (hr' : Over r')
    (h : time m ++ r = time m' ++ r') :
    (m.hour = m'.hour ∧ m.minute = m'.minute ∧ m.second = m'.second ∧ m.nano = m'.nano) ∧ r = r' := by
  obtain ⟨-, -, a1, a2, a3, a4, a5⟩ := hm
  obtain ⟨-, -, b1, b2, b3, b4, b5⟩ := hm'
  -- seconds and fraction as they are written
  have key : ∀ m : Moment, 0 ≤ m.second → (0 ≤ m.nano ∧ m.nano < 2000000000) → ∃ s f : Nat, f < 1000000000 ∧
      (m.nano < 1000000000 ∧ m.second = s ∧ m.nano = f ∨ 1000000000 ≤ m.nano ∧ m.second = s - 1 ∧ m.nano = f + 1000000000) ∧
      time m = pad 2 m.hour.toNat ++ ':' :: (pad 2 m.minute.toNat ++ ':' :: (pad 2 s ++ fraction f)) := by
    intro m h1 h2
    by_cases hn : 1000000000 ≤ m.nano
    · refine ⟨(m.second + 1).toNat, (m.nano - 1000000000).toNat, by omega, .inr (by omega), ?_⟩
      simp [time, hn]
    · refine ⟨m.second.toNat, m.nano.toNat, by omega, .inl (by omega), ?_⟩
      simp [time, hn]
  obtain ⟨s, f, hf, hs, e⟩ := key m a3.1 a4
  obtain ⟨s', f', hf', hs', e'⟩ := key m' b3.1 b4
  rw [e, e'] at h
  simp only [List.append_assoc, List.cons_append] at h
  obtain ⟨h1, h⟩ := pad_inj (noDig_cons rfl) (noDig_cons rfl) h
  simp only [List.cons.injEq, true_and] at h
  obtain ⟨h2, h⟩ := pad_inj (noDig_cons rfl) (noDig_cons rfl) h
  simp only [List.cons.injEq, true_and] at h
  obtain ⟨h3, h⟩ := pad_inj (fraction_noDig hr.1) (fraction_noDig hr'.1) h
  obtain ⟨h4, h⟩ := fraction_inj hf hf' hr hr' h
  exact ⟨⟨by omega, by omega, by omega, by omega⟩, h⟩

theorem moment_inj {sep : Char} (hsep : sep.isDigit = false) {m m' : Moment} (hm : Shown m) (hm' : Shown m')
    {r r' : List Char} (hr : Over r) (hr' : Over r') (h : moment sep m ++ r = moment sep m' ++ r') : m = m' ∧ r = r' := by
  simp only [moment, date, List.append_assoc, List.cons_append] at h
  obtain ⟨h1, h⟩ := year_inj (noDig_cons rfl) (noDig_cons rfl) h
  simp only [List.cons.injEq, true_and] at h
  obtain ⟨h2, h⟩ := pad_inj (noDig_cons rfl) (noDig_cons rfl) h
  simp only [List.cons.injEq, true_and] at h
  obtain ⟨h3, h⟩ := pad_inj (noDig_cons hsep) (noDig_cons hsep) h
  simp only [List.cons.injEq, true_and] at h
  obtain ⟨⟨h4, h5, h6, h7⟩, h⟩ := time_inj hm hm' hr hr' h
  obtain ⟨a1, a2, -⟩ := hm
  obtain ⟨b1, b2, -⟩ := hm'
  refine ⟨?_, h⟩
  obtain ⟨y, mo, d, hh, mi, s, n⟩ := m
  obtain ⟨y', mo', d', hh', mi', s', n'⟩ := m'
  simp only at *
  subst h1 h4 h5 h6 h7
  have : mo = mo' := by omega
  have : d = d' := by omega
  simp_all

/-- The name before the parenthesis. -/
def ctor : TT → List Char
  | .seconds _ => text! "Seconds"
  | .minutes _ => text! "Minutes"
  | .hours _ => text! "Hours"
  | .days _ => text! "Days"
  | .months _ => text! "Months"
  | .years _ => text! "Years"
  | .moment _ => text! "Moment"
  | .addition .. => text! "Addition"
  | .subtraction .. => text! "Subtraction"
  | .endOfYear _ => text! "EndOfYear"
  | .endOfMonth _ => text! "EndOfMonth"
  | .endOfDay _ => text! "EndOfDay"
  | .endOfHour _ => text! "EndOfHour"
  | .endOfMinute _ => text! "EndOfMinute"

/-- What is in the parenthesis, and the closing one. -/
def args : TT → List Char
  | .seconds n | .minutes n | .hours n | .days n | .months n | .years n => int n ++ [')']
  | .moment m => moment 'T' m ++ [')']
  | .addition a b => debug a ++ (text! ", " ++ (debug b ++ [')']))
  | .subtraction a b => debug a ++ (text! ", " ++ (debug b ++ [')']))
  | .endOfYear t | .endOfMonth t | .endOfDay t | .endOfHour t | .endOfMinute t => debug t ++ [')']

theorem debug_eq (t : TT) : debug t = ctor t ++ '(' :: args t := by cases t <;> simp only [debug, ctor, args]

theorem ctor_no_paren (t : TT) : '(' ∉ ctor t := by cases t <;> (simp only [ctor]; decide)

theorem split_at_char {x : Char} {a a' r r' : List Char} (ha : x ∉ a) (ha' : x ∉ a') (h : a ++ x :: r = a' ++ x :: r') :
    a = a' ∧ r = r' := by
  induction a generalizing a' with
  | nil =>
    cases a' with
    | nil => simp at h; exact ⟨rfl, h⟩
    | cons y ys => simp at h; rw [h.1] at ha'; exact absurd (List.mem_cons_self ..) ha'
  | cons z zs ih =>
    cases a' with
    | nil => simp at h; rw [h.1] at ha; exact absurd (List.mem_cons_self ..) ha
    | cons y ys =>
      simp only [List.cons_append, List.cons.injEq] at h
      obtain ⟨rfl, h⟩ := h
      obtain ⟨rfl, rfl⟩ := ih (fun hm => ha (List.mem_cons_of_mem _ hm)) (fun hm => ha' (List.mem_cons_of_mem _ hm)) h
      exact ⟨rfl, rfl⟩

theorem debug_inj {t t' : TT} (ht : AllMoments Shown t) (ht' : AllMoments Shown t') {r r' : List Char}
    (h : debug t ++ r = debug t' ++ r') : t = t' ∧ r = r' := by
  induction t generalizing t' r r' <;>
    (rw [debug_eq, debug_eq t', List.append_assoc, List.append_assoc, List.cons_append, List.cons_append] at h
     have h2 := split_at_char (ctor_no_paren _) (ctor_no_paren _) h
     clear h
     obtain ⟨hc, h⟩ := h2
     cases t' <;> first
       | (exfalso; revert hc; simp only [ctor]; decide)
       | skip)
  all_goals simp only [args, List.append_assoc] at h
  case moment.moment m m' =>
    obtain ⟨rfl, h⟩ := moment_inj rfl ht ht' (over_cons rfl (by decide)) (over_cons rfl (by decide)) h
    simp at h; exact ⟨rfl, h⟩
  case addition.addition a b iha ihb a' b' =>
    obtain ⟨rfl, h⟩ := iha ht.1 ht'.1 h
    simp only [List.append_cancel_left_eq] at h
    obtain ⟨rfl, h⟩ := ihb ht.2 ht'.2 h
    simp at h; exact ⟨rfl, h⟩
  case subtraction.subtraction a b iha ihb a' b' =>
    obtain ⟨rfl, h⟩ := iha ht.1 ht'.1 h
    simp only [List.append_cancel_left_eq] at h
    obtain ⟨rfl, h⟩ := ihb ht.2 ht'.2 h
    simp at h; exact ⟨rfl, h⟩
  all_goals first
    | (obtain ⟨rfl, h⟩ := int_inj (noDig_cons rfl) (noDig_cons rfl) h
       simp at h; exact ⟨rfl, h⟩)
    | (rename_i ih t'
       have ht2 : AllMoments Shown t' := ht'
       obtain ⟨rfl, h⟩ := ih ht ht2 h
       simp at h; exact ⟨rfl, h⟩)

/-- The types of the fields of an error, and moments that can be told from their text. -/
def ShownError : ErrorKind → Prop
  | .cannotAdd a b | .cannotSub a b => AllMoments Shown a ∧ AllMoments Shown b
  | .argumentErrorNotAnAmount t | .cannotCalculateEndOfYearOn t | .cannotCalculateEndOfMonthOn t => AllMoments Shown t
  | .outOfBounds _ mo d h mi s => 0 ≤ mo ∧ 0 ≤ d ∧ 0 ≤ h ∧ 0 ≤ mi ∧ 0 ≤ s
  | .nomError => False
  | _ => True

/-- The fixed start of the text of an error. -/
def lead : ErrorKind → List Char
  | .unknownError => text! "Unknown Error"
  | .cannotAdd .. => text! "Cannot add: "
  | .cannotSub .. => text! "Cannot subtract: "
  | .argumentErrorNotAnAmount _ => text! "The passed argument is not an amount: "
  | .argumentErrorNotAMoment _ => text! "The passed argument is not a moment, but a "
  | .cannotCalculateEndOfYearOn _ => text! "Argument Error: Cannot calculate end-of-year on a "
  | .cannotCalculateEndOfMonthOn _ => text! "Argument Error: Cannot calculate end-of-month on a "
  | .cannotCompareDayTo _ => text! "Cannot compare Day to non-Moment TimeType: "
  | .cannotCompareMonthTo _ => text! "Cannot compare Month to non-Moment TimeType: "
  | .outOfBounds .. => text! "Out of bounds: "
  | .notADateInsideIterator => text! "Cannot calculate date for iterator"
  | .unknownParserError => text! "Unknown parser error"
  | .nomError => []

/-- The rest of the text of an error. -/
def tail : ErrorKind → List Char
  | .cannotAdd a b => debug a ++ (text! " + " ++ debug b)
  | .cannotSub a b => debug a ++ (text! " - " ++ debug b)
  | .argumentErrorNotAnAmount t => debug t
  | .argumentErrorNotAMoment name => name.toList
  | .cannotCalculateEndOfYearOn t => debug t
  | .cannotCalculateEndOfMonthOn t => debug t
  | .cannotCompareDayTo name => '"' :: (name.toList ++ ['"'])
  | .cannotCompareMonthTo name => '"' :: (name.toList ++ ['"'])
  | .outOfBounds y mo d h mi s => int y ++ '-' :: (nat mo ++ '-' :: (nat d ++ 'T' :: (nat h ++ ':' :: (nat mi ++ ':' :: nat s))))
  | _ => []

theorem error_eq (e : ErrorKind) : error e = lead e ++ tail e := by
  cases e <;> simp only [error, lead, tail, List.append_nil]

theorem error_inj {e e' : ErrorKind} (he : ShownError e) (he' : ShownError e') (h : error e = error e') : e = e' := by
  rw [error_eq, error_eq] at h
  have hp : lead e <+: lead e' ∨ lead e' <+: lead e :=
    List.prefix_or_prefix_of_prefix (l₃ := lead e ++ tail e) (List.prefix_append ..) (by rw [h]; exact List.prefix_append ..)
  cases e <;> cases e' <;> first
    | (exfalso; revert hp; simp only [lead]; decide)
    | skip
  all_goals first
    | rfl
    | exact False.elim he
    | exact False.elim he'
    | skip
  all_goals
    replace h := List.append_cancel_left h
    simp only [tail] at h
  case cannotAdd.cannotAdd a b a' b' =>
    obtain ⟨rfl, h⟩ := debug_inj he.1 he'.1 h
    simp only [List.append_cancel_left_eq] at h
    obtain ⟨rfl, -⟩ := debug_inj (r := []) (r' := []) he.2 he'.2 (by rw [h])
    rfl
  case cannotSub.cannotSub a b a' b' =>
    obtain ⟨rfl, h⟩ := debug_inj he.1 he'.1 h
    simp only [List.append_cancel_left_eq] at h
    obtain ⟨rfl, -⟩ := debug_inj (r := []) (r' := []) he.2 he'.2 (by rw [h])
    rfl
  case outOfBounds.outOfBounds y mo d hh mi s y' mo' d' hh' mi' s' =>
    obtain ⟨a1, a2, a3, a4, a5⟩ := he
    obtain ⟨b1, b2, b3, b4, b5⟩ := he'
    simp only [nat] at h
    have h0 := int_inj (noDig_cons rfl) (noDig_cons rfl) h
    clear h
    obtain ⟨h0, h⟩ := h0
    simp only [List.cons.injEq, true_and] at h
    obtain ⟨h1, h⟩ := digits_inj (noDig_cons rfl) (noDig_cons rfl) h
    simp only [List.cons.injEq, true_and] at h
    obtain ⟨h2, h⟩ := digits_inj (noDig_cons rfl) (noDig_cons rfl) h
    simp only [List.cons.injEq, true_and] at h
    obtain ⟨h3, h⟩ := digits_inj (noDig_cons rfl) (noDig_cons rfl) h
    simp only [List.cons.injEq, true_and] at h
    obtain ⟨h4, h⟩ := digits_inj (noDig_cons rfl) (noDig_cons rfl) h
    simp only [List.cons.injEq, true_and] at h
    obtain ⟨h5, -⟩ := digits_inj (n := s.toNat) (n' := s'.toNat) (r := []) (r' := []) noDig_nil noDig_nil (by rw [h])
    have : mo = mo' := by omega
    have : d = d' := by omega
    have : hh = hh' := by omega
    have : mi = mi' := by omega
    have : s = s' := by omega
    simp_all
  all_goals first
    | (obtain ⟨rfl, -⟩ := debug_inj (r := []) (r' := []) he he' (by rw [h]); rfl)
    | (rw [String.toList_injective h]; done)
    | (simp only [List.cons.injEq, true_and] at h
       rw [String.toList_injective (List.append_cancel_right h)])

theorem int_ne_year {n y : Int} {r r' : List Char} : int n ++ ' ' :: r ≠ year y ++ '-' :: r' := by
  intro h
  have key : ∀ {ds ds' : List Char}, (∀ ch ∈ ds, ch.isDigit = true) → (∀ ch ∈ ds', ch.isDigit = true) →
      ds ++ ' ' :: r ≠ ds' ++ '-' :: r' := by
    intro ds ds' h1 h2 h
    have := (split_digits h1 h2 (noDig_cons rfl) (noDig_cons rfl) h).2
    simp at this
  unfold int year at h
  by_cases c1 : n < 0 <;> by_cases c2 : 0 ≤ y ∧ y ≤ 9999 <;> simp only [c1, c2, if_true, if_false, and_self] at h
  · obtain ⟨ch, l, e, hd⟩ := pad_head 4 y.toNat ('-' :: r')
    rw [e] at h; simp only [List.cons_append, List.cons.injEq] at h
    rw [← h.1] at hd; cases hd
  · simp only [List.cons_append, List.cons.injEq] at h
    exact key (digits_isDigit _) (pad_isDigit _ _) h.2
  · exact key (digits_isDigit _) (pad_isDigit _ _) h
  · obtain ⟨ch, l, e, hd⟩ := digits_head n.natAbs (' ' :: r)
    rw [e] at h; simp only [List.cons_append, List.cons.injEq] at h
    rw [h.1] at hd
    split at hd <;> cases hd

theorem int_head (n : Int) (r : List Char) : ∃ ch l, int n ++ r = ch :: l ∧ ch ≠ 'C' := by
  unfold int
  split
  · exact ⟨_, _, rfl, by decide⟩
  · obtain ⟨ch, l, e, hd⟩ := digits_head n.natAbs r
    exact ⟨ch, l, e, by rintro rfl; cases hd⟩

theorem year_head (n : Int) (r : List Char) : ∃ ch l, year n ++ r = ch :: l ∧ ch ≠ 'C' := by
  unfold year
  split
  · obtain ⟨ch, l, e, hd⟩ := pad_head 4 n.toNat r
    exact ⟨ch, l, e, by rintro rfl; cases hd⟩
  · exact ⟨_, _, rfl, by split <;> decide⟩

/-- The three forms of output lines. -/
inductive Form : TT → List Char → Prop
  | amount (u : TUnit) (n : Int) (l : List Char) (h : l = match u with
      | .second => text! "Seconds" | .minute => text! "Minutes" | .hour => text! "Hours" | .day => text! "Days"
      | .month => text! "Months" | .year => text! "Years") : Form (amt u n) (int n ++ ' ' :: l)
  | moment (m : Moment) : Form (.moment m) (moment ' ' m ++ [' '])
  | other (t : TT) : Form t (text! "Cannot pretty-print: '" ++ (debug t ++ ['\'']))

theorem prettyPrint_form (t : TT) : Form t (prettyPrint t) := by
  cases t <;> simp only [prettyPrint] <;> first
    | exact .moment _
    | exact .other _
    | exact .amount .second _ _ rfl
    | exact .amount .minute _ _ rfl
    | exact .amount .hour _ _ rfl
    | exact .amount .day _ _ rfl
    | exact .amount .month _ _ rfl
    | exact .amount .year _ _ rfl

theorem form_inj {t t' : TT} {l l' : List Char} (ht : AllMoments Shown t) (ht' : AllMoments Shown t') (f : Form t l)
    (f' : Form t' l') (h : l = l') : t = t' := by
  cases f with
  | amount u n l hl =>
    cases f' with
    | amount u' n' l' hl' =>
      obtain ⟨rfl, h2⟩ := int_inj (noDig_cons rfl) (noDig_cons rfl) h
      simp only [List.cons.injEq, true_and] at h2
      rw [hl, hl'] at h2
      cases u <;> cases u' <;> first | rfl | exact absurd h2 (by decide)
    | moment m =>
      simp only [moment, date, List.append_assoc, List.cons_append] at h
      exact absurd h int_ne_year
    | other =>
      obtain ⟨ch, l, e, hc⟩ := int_head n (' ' :: l)
      rw [e] at h
      simp only [List.cons_append, List.cons.injEq] at h
      exact absurd h.1 hc
  | moment m =>
    cases f' with
    | amount u' n' l' hl' =>
      simp only [moment, date, List.append_assoc, List.cons_append] at h
      exact absurd h.symm int_ne_year
    | moment m' =>
      have ht1 : Shown m := ht
      have ht2 : Shown m' := ht'
      obtain ⟨rfl, -⟩ := moment_inj rfl ht1 ht2 (over_cons rfl (by decide)) (over_cons rfl (by decide)) h
      rfl
    | other =>
      simp only [moment, date, List.append_assoc, List.cons_append] at h
      obtain ⟨ch, l, e, hc⟩ := year_head m.year ('-' :: (pad 2 m.month.toNat ++ '-' :: (pad 2 m.day.toNat ++ ' ' ::
        (time m ++ [' ']))))
      rw [e] at h
      simp only [List.cons.injEq] at h
      exact absurd h.1 hc
  | other =>
    cases f' with
    | amount u' n' l' hl' =>
      obtain ⟨ch, l, e, hc⟩ := int_head n' (' ' :: l')
      rw [e] at h
      simp only [List.cons_append, List.cons.injEq] at h
      exact absurd h.1.symm hc
    | moment m' =>
      simp only [moment, date, List.append_assoc, List.cons_append] at h
      obtain ⟨ch, l, e, hc⟩ := year_head m'.year ('-' :: (pad 2 m'.month.toNat ++ '-' :: (pad 2 m'.day.toNat ++ ' ' ::
        (time m' ++ [' ']))))
      rw [e] at h
      simp only [List.cons.injEq] at h
      exact absurd h.1.symm hc
    | other =>
      simp only [List.append_cancel_left_eq] at h
      exact (debug_inj ht ht' h).1

end Kairos.Text
