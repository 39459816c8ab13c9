import Verif.Props.Texts
import Verif.Props.Safety
import Verif.Props.ParserDates

/-!
# C89: what the program prints cannot be typed in again
-/

namespace Props
open Kairos Kairos.Parser Kairos.Text Spec

/-- What starts like a number starts neither with a blank nor like a date keyword. -/
def NumberHead (s : List Char) : Prop := ∃ ch r, s = ch :: r ∧ ch ∈ "-0123456789".toList

theorem numberHead_blank {b s : List Char} (hs : NumberHead (b ++ s)) (hb : Blanks b) : b = [] := by
  cases b with
  | nil => rfl
  | cons x b =>
    obtain ⟨ch, r, e, hc⟩ := hs
    simp only [List.cons_append, List.cons.injEq] at e
    have hx := hb x (by simp)
    rw [e.1] at hx
    exact absurd hx (by revert hc; simp; rintro (rfl | rfl | rfl | rfl | rfl | rfl | rfl | rfl | rfl | rfl | rfl) <;> decide)

theorem no_exact {iso : Iso} {e : ExactDate} {t r : List Char} (hs : NumberHead (t ++ r)) (hi : NoIso iso (t ++ r)) : ¬ ExactAt iso e t r := by
  intro h
  obtain ⟨ch, s, e, hc⟩ := hs
  cases h with
  | today => simp at e; rw [← e.1] at hc; exact absurd hc (by decide)
  | yesterday => simp at e; rw [← e.1] at hc; exact absurd hc (by decide)
  | tomorrow => simp at e; rw [← e.1] at hc; exact absurd hc (by decide)
  | datetime h => exact hi.1 _ _ h
  | date h => exact hi.2 _ _ h

theorem no_date {iso : Iso} {d : PDate} {t r : List Char} (hs : NumberHead (t ++ r)) (hi : NoIso iso (t ++ r)) : ¬ DateAt iso d t r := by
  intro h
  cases h with
  | mk he ho => exact no_exact (by simpa using hs) (by simpa using hi) he

theorem spelling_head (u : TimeUnit) (s : String) (hs : s ∈ spellings u) : ∃ ch l, s.toList = ch :: l ∧ Letter ch := by
  have h : ∀ s ∈ spellings u, (match s.toList with | [] => false | ch :: _ => decide (Letter ch)) = true := by
    cases u <;> decide +kernel
  have := h s hs
  split at this
  · cases this
  · rename_i ch l e
    exact ⟨ch, l, e, of_decide_eq_true this⟩

theorem label_head (u : TUnit) : ∃ ch l, (unitLabel u).toList = ch :: l ∧ ¬ Letter ch ∧ ¬ Blank ch := by
  cases u <;> exact ⟨_, _, rfl, by decide, by decide⟩

theorem letter_noDig {ch : Char} (h : Letter ch) : ch.isDigit = false := by
  have : ∀ ch ∈ "abcdefghijklmnopqrstuvwxyz".toList, ch.isDigit = false := by decide
  exact this ch h

theorem blank_noDig {ch : Char} (h : Blank ch) : ch.isDigit = false := by
  rcases h with rfl | rfl | rfl | rfl <;> decide

/-- No amount is written with a capital letter. -/
theorem no_amount {ds : List Char} (hd : Digits ds) (u : TUnit) {a : Amount} {t r : List Char}
    (h : AmountText a t) : t ++ r ≠ ds ++ ' ' :: (unitLabel u).toList := by
  intro e
  have hdig : ∀ ch ∈ ds, ch.isDigit = true := fun ch hc => (isDigit_iff ch).2 (hd.2 ch hc)
  have hhead : NumberHead (t ++ r) := by
    rw [e]
    obtain ⟨h0, h1⟩ := hd
    cases ds with
    | nil => exact absurd rfl h0
    | cons d ds =>
      refine ⟨d, _, rfl, ?_⟩
      have := h1 d (by simp)
      simp at this ⊢
      exact .inr this
  cases h with
  | number hb hd' hb' hn hmax =>
    rename_i b ds' b' un name
    simp only [List.append_assoc] at e hhead
    have := numberHead_blank hhead hb
    subst this
    have hdig' : ∀ ch ∈ ds', ch.isDigit = true := fun ch hc => (isDigit_iff ch).2 (hd'.2 ch hc)
    obtain ⟨x, l, hx, hl⟩ := spelling_head un name hn
    have hr : NoDig (b' ++ (name.toList ++ r)) := by
      cases b' with
      | nil => rw [List.nil_append, hx]; exact noDig_cons (letter_noDig hl)
      | cons y b' => exact noDig_cons (blank_noDig (hb' y (by simp)))
    obtain ⟨-, e2⟩ := split_digits hdig' hdig hr (noDig_cons rfl) (by simpa using e)
    obtain ⟨y, k, hy, hk1, hk2⟩ := label_head u
    rw [hx, hy] at e2
    cases b' with
    | nil =>
      simp only [List.nil_append, List.cons_append, List.cons.injEq] at e2
      rw [e2.1] at hl
      exact absurd hl (by decide)
    | cons z b' =>
      simp only [List.cons_append, List.cons.injEq] at e2
      cases b' with
      | nil =>
        simp only [List.nil_append, List.cons.injEq] at e2
        rw [e2.2.1] at hl
        exact hk1 hl
      | cons w b' =>
        simp only [List.cons_append, List.cons.injEq] at e2
        have := hb' w (by simp)
        rw [e2.2.1] at this
        exact hk2 this
  | alias un =>
    obtain ⟨ch, s, e', hc⟩ := hhead
    have : ∀ un, (match (aliasOf un).toList with | [] => false | ch :: _ => decide (ch ∉ "-0123456789".toList)) = true := by
      intro un; cases un <;> decide +kernel
    have := this un
    split at this
    · cases this
    · rename_i x l hx
      rw [hx] at e'
      simp only [List.cons_append, List.cons.injEq] at e'
      rw [e'.1] at this
      exact absurd hc (of_decide_eq_true this)

theorem no_minus {ds r : List Char} {a : Amount} {t : List Char} (h : AmountText a t) : t ++ r ≠ '-' :: ds := by
  intro e
  have hhead : NumberHead (t ++ r) := ⟨_, _, e, by decide⟩
  cases h with
  | number hb hd' hb' hn hmax =>
    rename_i b ds' b' un name
    simp only [List.append_assoc] at e hhead
    have := numberHead_blank hhead hb
    subst this
    obtain ⟨h0, h1⟩ := hd'
    cases ds' with
    | nil => exact absurd rfl h0
    | cons d ds' =>
      simp only [List.nil_append, List.cons_append, List.cons.injEq] at e
      have := h1 d (by simp)
      rw [e.1] at this
      exact absurd this (by decide)
  | alias un => cases un <;> simp [aliasOf] at e

/-- **C89 refuted**, for every amount: the line printed for it is not accepted as input. -/
theorem C89_refuted (c : Cfg) (iso : Iso) (hi : IsoSane iso) (now now' : Moment) (u : TUnit) (n : Int) (hn : NoIso iso (prettyPrint (amt u n))) :
    parse c iso now now' (prettyPrint (amt u n)) = .err .nomError := by
  obtain ⟨ds, ⟨⟨h0, hd⟩, -⟩, e⟩ := C87_amount u n
  have hhead : NumberHead (prettyPrint (amt u n)) := by
    rw [e]
    split
    · exact ⟨_, _, rfl, by decide⟩
    · cases ds with
      | nil => exact absurd rfl h0
      | cons d ds =>
        refine ⟨d, _, rfl, ?_⟩
        have := hd d (by simp)
        simp at this ⊢
        exact .inr this
  rcases parse_cases c iso now now' (prettyPrint (amt u n)) with ⟨r, it, h, -⟩ | ⟨-, r, t, h, -⟩ | ⟨-, -, h⟩
  · exfalso
    obtain ⟨un, k, t, hI, e', -⟩ := iterator_done c hi h
    rw [e'] at hhead hn
    cases hI with
    | mk hb0 hd hb1 hst hb2 hu =>
      rename_i b0 dt b1 st b2 ut
      simp only [List.append_assoc] at hhead hn
      have hb := numberHead_blank hhead hb0
      subst hb
      exact no_date (by simpa using hhead) (by simpa using hn) hd
  · exfalso
    rcases timetype_done hi h with ⟨d, tx, -, hd, e'⟩ | ⟨a, tx, -, ha, e'⟩
    · rw [e'] at hhead hn
      exact no_date hhead hn hd
    · rw [e] at e'
      obtain ⟨x, tx', y, hx, hy⟩ : ∃ x tx' y, AmountText x tx' ∧ tx = tx' ++ y := by
        cases ha with
        | single ha hb => exact ⟨_, _, _, ha, rfl⟩
        | cons ha hb hb' he => exact ⟨_, _, _, ha, List.append_assoc ..⟩
      rw [hy, List.append_assoc] at e'
      by_cases hneg : n < 0
      · rw [if_pos hneg] at e'
        exact no_minus (r := y ++ r) hx (by simpa using e'.symm)
      · rw [if_neg hneg] at e'
        exact no_amount (r := y ++ r) ⟨h0, hd⟩ u hx (by simpa using e'.symm)
  · exact h

example (now now' : Moment) := C89_refuted (std .debug) noIso isoSane_noIso now now' .second 5 (noIso_spec _)

/-! ## Moments -/

/-- What follows a date, after blanks, is ignored unless it starts with a letter or an operator. -/
theorem parse_plain {c : Cfg} {iso : Iso} {now now' : Moment} {e : ExactDate} {t rest : List Char} (h : ExactText iso e t rest)
    (hr : ∀ ch, (rest.dropWhile Nom.isSp).head? = some ch → ¬ Letter ch ∧ ch ≠ '+' ∧ ch ≠ '-') :
    parse c iso now now' (t ++ rest) = (e.intoTimetype c now >>= fun v => .ok (.timeType v)) := by
  have hd := date_plain h (fun ch hc => (hr ch hc).2)
  have hdrop : (t ++ rest).dropWhile Nom.isSp = t ++ rest :=
    drop_blanks (b := []) (by intro ch h; cases h) (exactText_head h)
  have hit : ∀ r it, iterator iso (t ++ rest) ≠ .done r it := by
    intro r it e
    unfold iterator at e
    rw [bind_opt_sp, hdrop, bind_done hd, bind_opt_sp, bind_done_iff] at e
    obtain ⟨r', s, h1, -⟩ := e
    obtain ⟨x, xs, hx, hl⟩ := iterSpec_done_head h1
    exact (hr x (by rw [hx]; rfl)).1 hl
  have htt : timetype iso (t ++ rest) = .done rest (.date ⟨e, none⟩) := by
    unfold timetype Nom.alt
    rw [bind_done hd]
    rfl
  rw [parse_timetype hit htt]
  show (PDate.intoTimetype c now ⟨e, none⟩ >>= _) = _
  simp only [PDate.intoTimetype]
  cases e.intoTimetype c now <;> rfl

theorem no_blank_date (m : Moment) : ' ' ∉ Text.date m := by
  have dig : ∀ w n, ' ' ∉ pad w n := fun w n h => absurd (pad_isDigit w n _ h) (by decide)
  have hy : ' ' ∉ year m.year := by
    unfold year
    split
    · exact dig _ _
    · intro h
      rcases List.mem_cons.1 h with h | h
      · split at h <;> exact absurd h (by decide)
      · exact dig _ _ h
  unfold Text.date
  intro h
  rcases List.mem_append.1 h with h | h
  · exact hy h
  · rcases List.mem_cons.1 h with h | h
    · exact absurd h (by decide)
    · rcases List.mem_append.1 h with h | h
      · exact dig _ _ h
      · rcases List.mem_cons.1 h with h | h
        · exact absurd h (by decide)
        · exact dig _ _ h

theorem year_head (y : Int) (r : List Char) : ∃ ch l, year y ++ r = ch :: l ∧ (ch = '-' ∨ ch = '+' ∨ ch.isDigit = true) := by
  unfold year
  split
  · obtain ⟨ch, l, h1, h2⟩ := pad_head 4 y.toNat r
    exact ⟨ch, l, h1, .inr (.inr h2)⟩
  · refine ⟨_, _, rfl, ?_⟩
    split <;> simp

/-- **C89 refuted**, for every moment: if the line printed for it is read at all, as the date in it (up to the first blank; the ISO 8601 parsers are a dependency), it
gives midnight of that day. -/
theorem C89_refuted_moments (c : Cfg) (iso : Iso) (now now' : Moment) (m : Moment) (hm : m.Valid c) (t rest : List Char)
    (ht : prettyPrint (.moment m) = t ++ ' ' :: rest) (hfirst : ' ' ∉ t)
    (h0 : ∀ r d, iso.parseDatetime (prettyPrint (.moment m)) ≠ .done r d)
    (h1 : iso.parseDate (prettyPrint (.moment m)) = .done (' ' :: rest) (.ymd m.year m.month m.day)) :
    parse c iso now now' (prettyPrint (.moment m)) = .ok (.timeType (.moment ⟨m.year, m.month, m.day, 0, 0, 0, 0⟩)) := by
  have ht' : Text.date m ++ ' ' :: (time m ++ [' ']) = t ++ ' ' :: rest := by
    rw [← ht]; simp [prettyPrint, moment]
  obtain ⟨e1, e2⟩ := split_at_char (no_blank_date m) hfirst ht'
  subst e1 e2
  rw [ht] at h0 h1 ⊢
  obtain ⟨x, xs, hx, hx'⟩ := year_head m.year ('-' :: (pad 2 m.month.toNat ++ '-' :: pad 2 m.day.toNat))
  have hx : Text.date m = x :: xs := hx
  have hE : ExactText iso (.iso8601Date (.ymd m.year m.month m.day)) (Text.date m) (' ' :: (time m ++ [' '])) := by
    rw [hx] at h0 h1 ⊢
    refine .date ?_ ?_ h0 h1
    · rintro (rfl | rfl | rfl | rfl) <;> revert hx' <;> decide
    · refine ⟨?_, ?_, ?_⟩ <;>
      · rintro ⟨l, e⟩
        simp at e
        rw [← e.1] at hx'
        exact absurd hx' (by decide)
  rw [parse_plain hE]
  · simp only [ExactDate.intoTimetype, fromYmdOpt]
    rw [if_pos ⟨hm.1, hm.2.1, hm.2.2.1⟩]
    rfl
  · intro ch hc
    obtain ⟨y, l, hy, hy'⟩ := pad_head 2 m.hour.toNat (':' :: (pad 2 m.minute.toNat ++ ':' ::
      (pad 2 (if 1000000000 ≤ m.nano then (m.second + 1, m.nano - 1000000000) else (m.second, m.nano)).1.toNat ++
        fraction (if 1000000000 ≤ m.nano then (m.second + 1, m.nano - 1000000000) else (m.second, m.nano)).2.toNat)))
    have hy : time m = y :: l := hy
    have hsp : Nom.isSp y = false := by
      cases hs : Nom.isSp y with
      | false => rfl
      | true =>
        have := blank_noDig ((isSp_iff _).1 hs)
        rw [this] at hy'; cases hy'
    rw [hy] at hc
    rw [List.dropWhile_cons_of_pos (by decide), List.cons_append, List.dropWhile_cons_of_neg (by simp [hsp])] at hc
    cases hc
    refine ⟨fun hl => ?_, ?_, ?_⟩
    · have := letter_noDig hl
      rw [this] at hy'; cases hy'
    · rintro rfl; revert hy'; decide
    · rintro rfl; revert hy'; decide

/-! ## What can be typed in again -/

/-- The unit of the parser with the printed label of a unit. -/
theorem lower_label (u : TUnit) : ∃ unit name, name ∈ spellings unit ∧ ((unitLabel u).toList).map Char.toLower = name.toList ∧
    ∀ (c : Cfg) (n : Int), Amount.intoTimetype c ⟨n, unit⟩ = .ok (amt u n) := by
  cases u
  · exact ⟨.second, "seconds", by decide, by decide, fun _ _ => rfl⟩
  · exact ⟨.minute, "minutes", by decide, by decide, fun _ _ => rfl⟩
  · exact ⟨.hour, "hours", by decide, by decide, fun _ _ => rfl⟩
  · exact ⟨.day, "days", by decide, by decide, fun _ _ => rfl⟩
  · exact ⟨.month, "months", by decide, by decide, fun _ _ => rfl⟩
  · exact ⟨.year, "years", by decide, by decide, fun _ _ => rfl⟩

/-- **C89, for amounts that are not negative, in lower case.** The printed line in lower-case letters gives the amount
again. -/
theorem C89_lower_case_partial (c : Cfg) (iso : Iso) (now now' : Moment) (u : TUnit) (n : Int) (h0 : 0 ≤ n) (h1 : n < 2 ^ 63)
    (hn : NoIso iso ((prettyPrint (amt u n)).map Char.toLower)) :
    parse c iso now now' ((prettyPrint (amt u n)).map Char.toLower) = .ok (.timeType (amt u n)) := by
  obtain ⟨ds, ⟨hd, hv⟩, e⟩ := C87_amount u n
  obtain ⟨unit, name, hname, hlab, hval⟩ := lower_label u
  have hlow : ds.map Char.toLower = ds := by
    have hid : ∀ ch ∈ ds, ch.toLower = ch := by
      intro ch h
      have := hd.2 ch h
      revert this
      simp
      rintro (rfl | rfl | rfl | rfl | rfl | rfl | rfl | rfl | rfl | rfl) <;> decide
    rw [List.map_congr_left hid, List.map_id']
  have htext : (prettyPrint (amt u n)).map Char.toLower = [] ++ ds ++ [' '] ++ name.toList ++ [] := by
    rw [e, if_neg (by omega)]
    simp [hlow, hlab]
  have hE : ExprText (.single ⟨decimal ds, unit⟩) ([] ++ ds ++ [' '] ++ name.toList ++ []) :=
    .single (.number (b := []) (b' := [' ']) (by intro ch h; cases h) hd (by intro ch h; simp at h; subst h; exact .inl rfl) hname
      (by omega)) (by intro ch h; cases h)
  rw [htext] at hn ⊢
  have hdrop : ([] ++ ds ++ [' '] ++ name.toList ++ []).dropWhile Nom.isSp = [] ++ ds ++ [' '] ++ name.toList ++ [] := by
    obtain ⟨d, ds', rfl⟩ := List.exists_cons_of_ne_nil hd.1
    have := hd.2 d (by simp)
    rw [List.nil_append, List.append_assoc, List.append_assoc, List.cons_append]
    rw [List.dropWhile_cons_of_neg]
    revert this
    simp
    rintro (rfl | rfl | rfl | rfl | rfl | rfl | rfl | rfl | rfl | rfl) <;> decide
  rw [parse_wholeExpr c iso now now' _ _ hE hn (by rw [pastBlanks_eq, hdrop]; exact hn)]
  simp only [AmountExpr.intoTimetype]
  rw [hval, hv]
  have : (n.natAbs : Int) = n := by omega
  rw [this]
  rfl

example : prettyPrint (amt .second 5) = "5 Seconds".toList ∧ NoIso noIso (prettyPrint (amt .second 5)) ∧
    parse (std .release) noIso ⟨2017, 10, 13, 3, 4, 5, 0⟩ ⟨2017, 10, 13, 3, 4, 5, 0⟩ "5 Seconds".toList = .err .nomError ∧
    parse (std .release) noIso ⟨2017, 10, 13, 3, 4, 5, 0⟩ ⟨2017, 10, 13, 3, 4, 5, 0⟩ "5 seconds".toList = .ok (.timeType (.seconds 5)) :=
  ⟨by decide +kernel, noIso_spec _, by decide +kernel, by decide +kernel⟩

/-- An ISO 8601 parser that knows one date only. -/
def oneDate : Iso where
  parseDatetime _ := .error
  parseDate i := match i with
    | '2' :: '0' :: '1' :: '7' :: '-' :: '1' :: '0' :: '-' :: '1' :: '3' :: rest => .done rest (.ymd 2017 10 13)
    | _ => .error

example : (∀ r d, oneDate.parseDatetime (prettyPrint (.moment ⟨2017, 10, 13, 3, 4, 5, 0⟩)) ≠ .done r d) ∧
    prettyPrint (.moment ⟨2017, 10, 13, 3, 4, 5, 0⟩) = "2017-10-13".toList ++ ' ' :: "03:04:05 ".toList ∧
    oneDate.parseDate (prettyPrint (.moment ⟨2017, 10, 13, 3, 4, 5, 0⟩)) = .done (' ' :: "03:04:05 ".toList) (.ymd 2017 10 13) ∧
    parse (std .release) oneDate ⟨2017, 10, 14, 3, 4, 5, 0⟩ ⟨2017, 10, 14, 3, 4, 5, 0⟩ "2017-10-13 03:04:05 ".toList =
      .ok (.timeType (.moment ⟨2017, 10, 13, 0, 0, 0, 0⟩)) :=
  ⟨(by intro r d h; cases h), by decide +kernel, by decide +kernel, by decide +kernel⟩

end Props
