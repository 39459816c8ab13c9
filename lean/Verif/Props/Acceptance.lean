import Verif.Props.ReadBack

/-!
# C90: exactly which texts are accepted
-/

namespace Spec
open Kairos Kairos.Parser

/-- The text starts with an amount: a number below 2^63 and a unit, or an alias. -/
def StartsWithAmount (s : List Char) : Prop := ∃ a t rest, s = t ++ rest ∧ AmountText a t

/-- The text starts with a keyword date, or with what the ISO 8601 parsers recognise. -/
def StartsWithDate (iso : Iso) (s : List Char) : Prop := ∃ e t rest, s = t ++ rest ∧ ExactAt iso e t rest

end Spec

namespace Props
open Kairos Kairos.Parser Nom Spec

theorem tags_some {α : Type} {l : List (String × α)} {p : String × α} (hp : p ∈ l) (rest : List Char) :
    ∃ r v, tags l (p.1.toList ++ rest) = .done r v := by
  rw [tags_eq]
  cases h : l.find? (fun q => q.1.toList.isPrefixOf (p.1.toList ++ rest)) with
  | some q => exact ⟨_, _, rfl⟩
  | none =>
    exfalso
    have h2 : p.1.toList.isPrefixOf (p.1.toList ++ rest) = true := List.isPrefixOf_iff_prefix.2 ⟨rest, rfl⟩
    exact List.find?_eq_none.1 h p hp h2

theorem unitTable_complete : ∀ u : TimeUnit, ∀ s ∈ spellings u, (s, u) ∈ unitTable := by
  intro u; cases u <;> decide

/-- Whatever follows it, an amount at the start is read. -/
theorem amountParser_starts {s : List Char} (h : StartsWithAmount s) : ∃ r a, amountParser s = .done r a := by
  obtain ⟨a, t, rest, rfl, h⟩ := h
  cases h with
  | number hb hd hb' hn hmax =>
    rename_i b ds b' unit name
    obtain ⟨x, xs, e, hx⟩ := name_head hn rest
    have hnd : ∀ ch, (b' ++ (name.toList ++ rest)).head? = some ch → ¬ ch ∈ "0123456789".toList := by
      intro ch hc
      cases b' with
      | nil => rw [List.nil_append, e] at hc; cases hc; exact letter_not_digit hx
      | cons y ys => cases hc; exact blank_not_digit (hb' _ (by simp))
    have hi := integer_eq hb hd hnd
    rw [if_pos hmax, drop_blanks hb' (by intro ch hc; rw [e] at hc; cases hc; exact letter_not_blank hx)] at hi
    have hassoc : b ++ ds ++ b' ++ name.toList ++ rest = b ++ (ds ++ (b' ++ (name.toList ++ rest))) := by simp
    obtain ⟨r, v, hu⟩ := tags_some (unitTable_complete unit name hn) rest
    rw [← unitParser_eq] at hu
    rw [hassoc]
    unfold amountParser alt
    rw [bind_done hi, bind_done hu]
    exact ⟨_, _, rfl⟩
  | alias unit =>
    have hi : integer ((aliasOf unit).toList ++ rest) = .error := by
      cases unit <;> exact integer_error (by decide) (by decide)
    unfold amountParser alt
    rw [bind_error hi]
    simp only
    unfold alt
    rw [bind_done (unitAlias_word unit rest)]
    exact ⟨_, _, rfl⟩

theorem amountExpr_starts {s : List Char} (h : StartsWithAmount s) : ∃ r e, amountExpr s = .done r e := by
  obtain ⟨r, a, ha⟩ := amountParser_starts h
  rw [amountExpr_unfold]
  unfold amountExprBody
  rw [bind_done ha, bind_opt_sp]
  rcases complete_cases (amountExprNext amountExpr) (r.dropWhile isSp) with ⟨r', x, hx⟩ | hx
  · rw [bind_done (opt_done hx)]
    exact ⟨_, _, rfl⟩
  · rw [bind_done (opt_error hx)]
    exact ⟨_, _, rfl⟩

theorem exactDate_starts {iso : Iso} {s : List Char} (h : StartsWithDate iso s) : ∃ r e, exactDateParser iso s = .done r e := by
  rcases altComplete_cases [map (tok "today") fun _ => ExactDate.today, map (tok "yesterday") fun _ => .yesterday,
    map (tok "tomorrow") fun _ => .tomorrow, Nom.bind iso.parseDatetime fun d => ret (.iso8601DateTime d),
    Nom.bind iso.parseDate fun d => ret (.iso8601Date d)] s with ⟨r, a, e⟩ | e
  · exact ⟨r, a, e⟩
  · exfalso
    have miss : ∀ (ps : List (P ExactDate)), altComplete ps s = .error → ∀ p ∈ ps, ∀ r a, p s ≠ .done r a := by
      intro ps
      induction ps with
      | nil => intro _ p hp; cases hp
      | cons q ps ih =>
        intro he p hp r a hd
        by_cases hq : ∃ r a, q s = .done r a
        · obtain ⟨r', a', hq⟩ := hq
          rw [altComplete_hit hq] at he; cases he
        · have hq' : ∀ r a, q s ≠ .done r a := fun r a e => hq ⟨r, a, e⟩
          rw [altComplete_miss hq'] at he
          rcases List.mem_cons.1 hp with rfl | hp
          · exact hq' _ _ hd
          · exact ih he p hp r a hd
    obtain ⟨ed, t, rest, rfl, h⟩ := h
    cases h with
    | today => exact miss _ e _ (by simp) rest _ (mapTok_append "today" ExactDate.today rest)
    | yesterday => exact miss _ e _ (by simp) rest _ (mapTok_append "yesterday" ExactDate.yesterday rest)
    | tomorrow => exact miss _ e _ (by simp) rest _ (mapTok_append "tomorrow" ExactDate.tomorrow rest)
    | datetime h => exact miss _ e (Nom.bind iso.parseDatetime fun d => ret (.iso8601DateTime d)) (by simp) rest _ (by rw [bind_done h]; rfl)
    | date h => exact miss _ e (Nom.bind iso.parseDate fun d => ret (.iso8601Date d)) (by simp) rest _ (by rw [bind_done h]; rfl)

theorem date_starts {iso : Iso} {s : List Char} (h : StartsWithDate iso s) : ∃ r d, date iso s = .done r d := by
  obtain ⟨r, e, he⟩ := exactDate_starts h
  unfold date
  rw [bind_done he]
  rcases complete_cases (Nom.bind sp fun _ => Nom.bind operatorParser fun op => Nom.bind sp fun _ =>
    Nom.bind amountExpr fun a => ret (op, a)) r with ⟨r', x, hx⟩ | hx
  · rw [bind_done (opt_done hx)]
    exact ⟨_, _, rfl⟩
  · rw [bind_done (opt_error hx)]
    exact ⟨_, _, rfl⟩

/-- `date` gives a result or an error. -/
theorem date_cases (iso : Iso) (s : List Char) : (∃ r d, date iso s = .done r d) ∨ date iso s = .error := by
  rcases altComplete_cases [map (tok "today") fun _ => ExactDate.today, map (tok "yesterday") fun _ => .yesterday,
    map (tok "tomorrow") fun _ => .tomorrow, Nom.bind iso.parseDatetime fun d => ret (.iso8601DateTime d),
    Nom.bind iso.parseDate fun d => ret (.iso8601Date d)] s with ⟨r, a, e⟩ | e
  · left
    have e : exactDateParser iso s = .done r a := e
    unfold date
    rw [bind_done e]
    rcases complete_cases (Nom.bind sp fun _ => Nom.bind operatorParser fun op => Nom.bind sp fun _ =>
      Nom.bind amountExpr fun a => ret (op, a)) r with ⟨r', x, hx⟩ | hx
    · rw [bind_done (opt_done hx)]
      exact ⟨_, _, rfl⟩
    · rw [bind_done (opt_error hx)]
      exact ⟨_, _, rfl⟩
  · right
    have e : exactDateParser iso s = .error := e
    unfold date
    rw [bind_error e]

theorem timetype_starts {iso : Iso} {s : List Char} (h : StartsWithAmount s ∨ StartsWithDate iso s) :
    ∃ r t, timetype iso s = .done r t := by
  unfold timetype alt
  rcases date_cases iso s with ⟨r, d, hd⟩ | hd
  · rw [bind_done hd]
    exact ⟨_, _, rfl⟩
  · rcases h with h | h
    · obtain ⟨r, e, he⟩ := amountExpr_starts h
      rw [bind_error hd]
      simp only
      unfold alt
      rw [bind_done he]
      exact ⟨_, _, rfl⟩
    · obtain ⟨r, d, h⟩ := date_starts h
      rw [hd] at h; cases h

/-- A text that the parsers take is never reported as a syntax error. -/
theorem not_rejected {c : Cfg} {iso : Iso} {now now' : Moment} {s : List Char} (h : ∃ r t, timetype iso s = .done r t) :
    parse c iso now now' s ≠ .err .nomError := by
  rcases parse_cases c iso now now' s with ⟨r, it, -, e⟩ | ⟨-, r, t, -, e⟩ | ⟨-, h2, -⟩
  · rw [e]
    cases it.intoUserIterator c now now' <;> simp [wrapIterator]
  · rw [e]
    have hb := (bnd_timetype c now t).2
    cases hx : t.intoTimetype c now with
    | err e =>
      obtain ⟨Y, M, D, H, MI, S, rfl⟩ := hb e hx
      intro h; cases h
    | ok v => intro h; cases h
    | panic => intro h; cases h
    | oof => intro h; cases h
  · obtain ⟨r, t, h⟩ := h
    exact absurd h (h2 r t)

theorem starts_of_dateAt {iso : Iso} {d : PDate} {t rest : List Char} (h : DateAt iso d t rest) : StartsWithDate iso (t ++ rest) := by
  cases h with
  | mk he ho => exact ⟨_, _, _, by simp, he⟩

theorem starts_of_exprText {e : AmountExpr} {t : List Char} (h : ExprText e t) (rest : List Char) : StartsWithAmount (t ++ rest) := by
  cases h with
  | single ha hb => exact ⟨_, _, _, List.append_assoc .., ha⟩
  | cons ha hb hb' he => exact ⟨_, _, _, by rw [List.append_assoc, List.append_assoc], ha⟩

/-- **C90.** A text that does not start with a blank is rejected as no expression exactly if it starts neither with an amount nor with a date;
what follows the amount or date does not matter. -/
theorem C90_rejected_iff (c : Cfg) (iso : Iso) (hi : IsoSane iso) (now now' : Moment) (s : List Char)
    (hs : ∀ ch, s.head? = some ch → ¬ Blank ch) :
    parse c iso now now' s = .err .nomError ↔ ¬ StartsWithAmount s ∧ ¬ StartsWithDate iso s := by
  constructor
  · intro h
    exact ⟨fun ha => not_rejected (timetype_starts (.inl ha)) h, fun hd => not_rejected (timetype_starts (.inr hd)) h⟩
  · rintro ⟨h1, h2⟩
    refine parse_none (fun r it h => ?_) (fun r t h => ?_)
    · obtain ⟨u, n, tx, hat, rfl, -, -⟩ := iterator_done c hi h
      cases hat with
      | mk hb0 hd hb1 hst hb2 hu =>
        rename_i b0 dt b1 st b2 ut
        cases b0 with
        | cons x xs => exact hs x (by simp) (hb0 x (by simp))
        | nil =>
          apply h2
          have := starts_of_dateAt hd
          simpa using this
    · rcases timetype_done hi h with ⟨d, tx, rfl, hd, rfl⟩ | ⟨a, tx, rfl, ha, rfl⟩
      · exact h2 (starts_of_dateAt hd)
      · exact h1 (starts_of_exprText ha _)

example := C90_rejected_iff (std .debug) noIso isoSane_noIso (at_ 2017 1 1 0 0 0) (at_ 2017 1 1 0 0 0) "next week".toList
  (by intro ch h; cases h; decide)

/-- **C90.** Blanks at the start are allowed before an amount. -/
theorem C90_blanks_before_amount (c : Cfg) (iso : Iso) (now now' : Moment) (s : List Char) (h : StartsWithAmount s) :
    parse c iso now now' s ≠ .err .nomError := not_rejected (timetype_starts (.inl h))

example : parse (std .debug) noIso (at_ 2017 1 1 0 0 0) (at_ 2017 1 1 0 0 0) " 5 d, or so".toList ≠ .err .nomError :=
  C90_blanks_before_amount _ _ _ _ _ ⟨⟨5, .day⟩, " 5 d".toList, ", or so".toList, by decide,
    .number (b := [' ']) (ds := ['5']) (b' := [' ']) (unit := .day) (name := "d") (by decide) (by decide) (by decide) (by decide) (by decide)⟩

/-- **C90.** But not before a keyword date that stands alone. -/
theorem C90_blanks_before_date (c : Cfg) (iso : Iso) (hi : IsoSane iso) (now now' : Moment) (b t : List Char) (hb : Blanks b) (hb0 : b ≠ [])
    (ht : t = "today".toList ∨ t = "yesterday".toList ∨ t = "tomorrow".toList) (hn : NoIso iso (b ++ t)) :
    parse c iso now now' (b ++ t) = .err .nomError := by
  obtain ⟨e, x, xs, hE, rfl, hxd, hxb⟩ : ∃ e x xs, ExactText iso e t [] ∧ t = x :: xs ∧ ¬ x ∈ "0123456789".toList ∧ ¬ Blank x := by
    rcases ht with rfl | rfl | rfl
    · exact ⟨_, 't', _, .today [], rfl, by decide, by decide⟩
    · exact ⟨_, 'y', _, .yesterday [], rfl, by decide, by decide⟩
    · exact ⟨_, 't', _, .tomorrow [], rfl, by decide, by decide⟩
  have hdrop : (b ++ x :: xs).dropWhile isSp = x :: xs := drop_blanks hb (by intro ch h; cases h; exact hxb)
  obtain ⟨y, ys, rfl⟩ := List.exists_cons_of_ne_nil hb0
  have hy : Blank y := hb y (by simp)
  have head : ∀ {w : String} {rest : List Char}, y :: ys ++ x :: xs = w.toList ++ rest → ¬ (∃ z, w.toList.head? = some z ∧ ¬ Blank z) := by
    intro w rest e hz
    obtain ⟨z, h1, h2⟩ := hz
    cases hw : w.toList with
    | nil => rw [hw] at h1; cases h1
    | cons z' zs =>
      rw [hw] at h1 e
      simp at h1 e
      rw [← h1, ← e.1] at h2
      exact h2 hy
  refine parse_none (fun r it h => ?_) (fun r t h => ?_)
  · unfold iterator at h
    have hd := date_plain hE (by intro ch h; cases h)
    rw [List.append_nil] at hd
    rw [bind_opt_sp, hdrop, bind_done hd, bind_opt_sp, bind_done_iff] at h
    obtain ⟨r', s, h1, -⟩ := h
    obtain ⟨z, zs, hz, -⟩ := iterSpec_done_head h1
    cases hz
  · rcases timetype_done hi h with ⟨d, tx, rfl, hd, e⟩ | ⟨a, tx, rfl, ha, e⟩
    · obtain ⟨e', t', rest, hs, hx⟩ := starts_of_dateAt hd
      rw [← e] at hs
      cases hx with
      | today => exact head hs ⟨_, rfl, by decide⟩
      | yesterday => exact head hs ⟨_, rfl, by decide⟩
      | tomorrow => exact head hs ⟨_, rfl, by decide⟩
      | datetime h => rw [← hs] at h; exact hn.1 _ _ h
      | date h => rw [← hs] at h; exact hn.2 _ _ h
    · obtain ⟨a', t', rest, hs, hx⟩ := starts_of_exprText ha r
      rw [← e] at hs
      have hs2 := congrArg (List.dropWhile isSp) hs
      rw [hdrop] at hs2
      cases hx with
      | number hb1 hd hb' hname hmax =>
        rename_i b1 ds b' unit name
        obtain ⟨d, ds, rfl⟩ := List.exists_cons_of_ne_nil hd.1
        have hd0 := hd.2 d (by simp)
        rw [List.append_assoc, List.append_assoc, List.append_assoc] at hs2
        rw [drop_blanks hb1 (by intro ch h; cases h; exact digit_not_blank hd0)] at hs2
        cases hs2
        exact hxd hd0
      | alias unit => exact head hs (by cases unit <;> exact ⟨_, rfl, by decide⟩)

/-- All three are there: `"  5 days"`, `"  today"` and `"  today daily"`. -/
example : parse (std .debug) noIso ⟨2017, 10, 13, 3, 4, 5, 0⟩ ⟨2017, 10, 13, 3, 4, 5, 0⟩ "  5 days".toList = .ok (.timeType (.days 5)) ∧
    parse (std .debug) noIso ⟨2017, 10, 13, 3, 4, 5, 0⟩ ⟨2017, 10, 13, 3, 4, 5, 0⟩ "  today".toList = .err .nomError ∧
    (∃ u, parse (std .debug) noIso ⟨2017, 10, 13, 3, 4, 5, 0⟩ ⟨2017, 10, 13, 3, 4, 5, 0⟩ "  today daily".toList = .ok (.iterator (.ok u))) :=
  ⟨by decide +kernel, by decide +kernel, ⟨.iterator ⟨.moment ⟨2017, 10, 13, 3, 4, 5, 0⟩, .days 1, false⟩, by decide +kernel⟩⟩

example : StartsWithAmount "5 dx!".toList ∧ StartsWithDate noIso "today?".toList ∧
    ¬ StartsWithAmount "x".toList ∧ ¬ StartsWithDate noIso "x".toList := by
  have h : parse (std .debug) noIso (at_ 2017 1 1 0 0 0) (at_ 2017 1 1 0 0 0) "x".toList = .err .nomError := by decide +kernel
  refine ⟨⟨⟨5, .day⟩, "5 d".toList, "x!".toList, by decide, ?_⟩, ⟨.today, "today".toList, ['?'], by decide, .today _⟩,
    (C90_rejected_iff _ _ isoSane_noIso _ _ _ (by intro ch h; cases h; decide)).1 h⟩
  exact .number (b := []) (ds := ['5']) (b' := [' ']) (unit := .day) (name := "d") (by decide) (by decide) (by decide) (by decide) (by decide)

/-- The hypotheses of `C55_rejects` hold of a text that starts neither with a date nor with an amount. -/
example : (∀ b t rest d, Blanks b → "x".toList = b ++ (t ++ rest) → ¬ DateAt noIso d t rest) ∧
    ∀ e t rest, ExprText e t → "x".toList ≠ t ++ rest := by
  have h : parse (std .debug) noIso (at_ 2017 1 1 0 0 0) (at_ 2017 1 1 0 0 0) "x".toList = .err .nomError := by decide +kernel
  obtain ⟨h1, h2⟩ := (C90_rejected_iff _ _ isoSane_noIso _ _ _ (by intro ch h; cases h; decide)).1 h
  refine ⟨fun b t rest d hb e hd => ?_, fun e t rest ht et => ?_⟩
  · cases b with
    | nil => rw [List.nil_append] at e; rw [e] at h2; exact h2 (starts_of_dateAt hd)
    | cons y ys =>
      have : y = 'x' := by injection e with e _; exact e.symm
      exact absurd (hb y (by simp)) (by subst this; decide)
  · cases ht with
    | single ha hb => exact h1 ⟨_, _, _, by rw [et, List.append_assoc], ha⟩
    | cons ha _ _ _ => exact h1 ⟨_, _, _, by rw [et, List.append_assoc, List.append_assoc], ha⟩

end Props
