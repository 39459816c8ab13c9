import Verif.Lemmas.ParserValue
import Verif.Lemmas.Meaning
import Verif.Lemmas.Samples
import Verif.Props.Evaluation

/-!
# C46–C51, C53, C62: the text form of amounts
-/

namespace Props
open Kairos Kairos.Parser Spec

/-! ## C46 -/

/-- **C46.** Every text of the documented grammar, followed by the end of the input or by anything that cannot
belong to it, is parsed as the expression it is written for, and consumed up to that point. -/
theorem C46_round_trip (e : AmountExpr) (t rest : List Char) (h : ExprText e t) (hr : Stop rest) :
    amountExpr (t ++ rest) = .done rest e :=
  amountExpr_text h hr

example := C46_round_trip _ _ "!garbage".toList sample_amounts (by intro ch h; cases h; decide)

theorem parse_wholeExpr (c : Cfg) (iso : Iso) (now now' : Moment) (e : AmountExpr) (t : List Char) (h : ExprText e t)
    (hi : NoIso iso t) (hi' : NoIso iso (pastBlanks t)) :
    parse c iso now now' t = (e.intoTimetype c >>= fun v => .ok (.timeType v)) := by
  have := parse_exprText (c := c) (now := now) (now' := now') (rest := []) h (by intro ch h; cases h)
    (by simpa using hi) (by simpa [pastBlanks_eq] using hi')
  simpa using this

/-- **C46.** So `parse` returns the value of that expression, if the text does not start like an ISO date. -/
theorem C46_parse (c : Cfg) (iso : Iso) (now now' : Moment) (e : AmountExpr) (t : List Char) (h : ExprText e t)
    (hi : NoIso iso t) (hi' : NoIso iso (pastBlanks t)) : parse c iso now now' t = returned (amountsMean c e) := by
  rw [parse_wholeExpr c iso now now' e t h hi hi', returned_out, amounts_mean]

example := C46_parse (std .debug) noIso (at_ 2017 1 1 0 0 0) (at_ 2017 1 1 0 0 0) _ _ sample_amounts (noIso_spec _) (noIso_spec _)

/-- **C46.** No text is written for two expressions. -/
theorem C46_unambiguous (e e' : AmountExpr) (t : List Char) (h : ExprText e t) (h' : ExprText e' t) : e = e' := by
  have h1 := amountExpr_text (rest := []) h (by intro ch h; cases h)
  have h2 := amountExpr_text (rest := []) h' (by intro ch h; cases h)
  rw [h1] at h2
  cases h2
  rfl

/-- `" 5 mins - 0012 days+weekly "` -/
example : ExprText (.cons ⟨5, .minute⟩ .minus (.cons ⟨12, .day⟩ .plus (.single ⟨1, .week⟩)))
    " 5 mins - 0012 days+weekly ".toList := by
  have h1 : AmountText ⟨5, .minute⟩ " 5 mins".toList :=
    .number (b := " ".toList) (ds := "5".toList) (b' := " ".toList) (unit := .minute) (name := "mins")
      (by decide) (by decide) (by decide) (by decide) (by decide)
  have h2 : AmountText ⟨12, .day⟩ "0012 days".toList :=
    .number (b := []) (ds := "0012".toList) (b' := " ".toList) (unit := .day) (name := "days")
      (by decide) (by decide) (by decide) (by decide) (by decide)
  have h3 : ExprText (.single ⟨1, .week⟩) "weekly ".toList :=
    .single (t := "weekly".toList) (b := " ".toList) (.alias .week) (by decide)
  have h4 := ExprText.cons (op := .plus) (b := []) (b' := []) h2 (by decide) (by decide) h3
  exact ExprText.cons (op := .minus) (b := " ".toList) (b' := " ".toList) h1 (by decide) (by decide) h4

/-! ## C62 -/

/-- **C62.** Conversely, the parser accepts nothing else: whatever it returns is written at the start of its input, in the
documented grammar. -/
theorem C62_only_the_grammar (i rest : List Char) (e : AmountExpr) (h : amountExpr i = .done rest e) :
    ∃ t, ExprText e t ∧ i = t ++ rest :=
  amountExpr_done h

example : amountExpr "2 weeks+1 dayz".toList = .done "z".toList (.cons ⟨2, .week⟩ .plus (.single ⟨1, .day⟩)) := by
  decide +kernel

/-! ## C47, C48 -/

/-- **C47.** Each documented spelling of a unit, not followed by a letter, is recognised as that unit. -/
theorem C47_spellings (u : TimeUnit) (s : String) (hs : s ∈ spellings u) (rest : List Char) (hr : NoLetter rest) :
    unitParser (s.toList ++ rest) = .done rest u :=
  unitParser_word hs hr

example : unitParser "mins - 3 days".toList = .done " - 3 days".toList .minute :=
  C47_spellings .minute "mins" (by decide) " - 3 days".toList (by intro ch h; cases h; decide)

/-- **C47.** No other spellings are recognised. -/
theorem C47_no_others (i rest : List Char) (u : TimeUnit) (h : unitParser i = .done rest u) :
    ∃ s ∈ spellings u, i = s.toList ++ rest :=
  unitParser_done h

example : NoLetter " - 3 days".toList := by intro ch h; cases h; decide

/-- **C48.** Each alias is one of its unit, as an amount and as the step of an iterator, whatever follows. -/
theorem C48_aliases (c : Cfg) (u : TimeUnit) (rest : List Char) :
    amountParser ((aliasOf u).toList ++ rest) = .done rest ⟨1, u⟩ ∧
    ∃ step, iterSpec ((aliasOf u).toList ++ rest) = .done rest step ∧ step.recur c = .ok (unitAmount u 1) := by
  refine ⟨?_, ?_⟩
  · have hi : integer ((aliasOf u).toList ++ rest) = .error := by
      cases u <;> exact integer_error (by decide) (by decide)
    unfold amountParser Nom.alt
    rw [bind_error hi]
    simp only
    unfold Nom.alt
    rw [bind_done (unitAlias_word u rest), aliasTok_into]
    rfl
  · have miss : ∀ (s : String) (v : Iterspec) (ps : List (Nom.P Iterspec)) (i : List Char), ¬ s.toList <+: i →
        Nom.altComplete (Nom.map (tok s) (fun _ => v) :: ps) i = Nom.altComplete ps i :=
      fun s v ps i h => altComplete_miss (mapTok_miss h)
    have hit : ∀ (s : String) (v : Iterspec) (ps : List (Nom.P Iterspec)) (rest : List Char),
        Nom.altComplete (Nom.map (tok s) (fun _ => v) :: ps) (s.toList ++ rest) = .done rest v :=
      fun s v ps rest => altComplete_hit (mapTok_append s v rest)
    -- the first differing letter comes early
    have no' : ∀ {s t : String} {rest : List Char} (k : Nat), (s.toList.take k).isPrefixOf t.toList = false →
        (s.toList.take k).length ≤ t.toList.length → ¬ s.toList <+: t.toList ++ rest := by
      intro s t rest k h hl hp
      have h1 : s.toList.take k <+: t.toList ++ rest := List.IsPrefix.trans (List.take_prefix k _) hp
      have : s.toList.take k <+: t.toList := List.prefix_of_prefix_length_le h1 (List.prefix_append _ _) hl
      rw [List.isPrefixOf_iff_prefix.2 this] at h
      cases h
    have skip : ∀ (s t : String) (v : Iterspec) (ps : List (Nom.P Iterspec)),
        (s.toList.take 3).isPrefixOf t.toList = false → (s.toList.take 3).length ≤ t.toList.length →
        Nom.altComplete (Nom.map (tok s) (fun _ => v) :: ps) (t.toList ++ rest) = Nom.altComplete ps (t.toList ++ rest) :=
      fun s t v ps h hl => miss s v ps _ (no' 3 h hl)
    unfold iterSpec
    cases u
    · exact ⟨.secondly, hit _ _ _ _, rfl⟩
    · exact ⟨.minutely, by simp only [aliasOf]; rw [skip _ _ _ _ (by decide) (by decide)]; exact hit _ _ _ _, rfl⟩
    · refine ⟨.hourly, ?_, rfl⟩
      simp only [aliasOf]
      rw [skip _ _ _ _ (by decide) (by decide), skip _ _ _ _ (by decide) (by decide)]; exact hit _ _ _ _
    · refine ⟨.daily, ?_, rfl⟩
      simp only [aliasOf]
      iterate 3 rw [skip _ _ _ _ (by decide) (by decide)]
      exact hit _ _ _ _
    · refine ⟨.weekly, ?_, rfl⟩
      simp only [aliasOf]
      iterate 4 rw [skip _ _ _ _ (by decide) (by decide)]
      exact hit _ _ _ _
    · refine ⟨.monthly, ?_, rfl⟩
      simp only [aliasOf]
      iterate 5 rw [skip _ _ _ _ (by decide) (by decide)]
      exact hit _ _ _ _
    · refine ⟨.yearly, ?_, rfl⟩
      simp only [aliasOf]
      iterate 6 rw [skip _ _ _ _ (by decide) (by decide)]
      exact hit _ _ _ _

example : (aliasOf .week).toList ++ " 3 times".toList = "weekly 3 times".toList := by decide

/-! ## C49, C50 -/

/-- **C50.** Parsing the text of an amount expression (of at most 2^63 - 1 seconds in total) and calculating gives an
amount of exactly the seconds that the grammar says, in both build profiles. -/
theorem C50_value (c : Cfg) (iso : Iso) (now now' : Moment) (e : AmountExpr) (t : List Char) (h : ExprText e t)
    (hi : NoIso iso t) (hi' : NoIso iso (pastBlanks t)) (hm : exprMag e ≤ 9223372036854775807) :
    ∃ v r, parse c iso now now' t = .ok (.timeType v) ∧ calculate c v = .ok r ∧ r.isAAmount = true ∧
      r.getSeconds c = .ok (exprSecs e) := by
  have hp := exprText_pos h
  have hw := weeksFit_of_mag hp hm
  obtain ⟨k, h1, h2, h3⟩ := C05_amounts_succeed c e.tree (by rw [e.mag_tree hp]; exact hm)
  refine ⟨e.tree.toTT, _, ?_, h1, ?_, ?_⟩
  · rw [parse_wholeExpr c iso now now' e t h hi hi', e.into_tree hw]; rfl
  · cases e.tree.finest <;> rfl
  · rw [h3, e.secs_tree]

example := C50_value (std .debug) noIso (at_ 2017 1 1 0 0 0) (at_ 2017 1 1 0 0 0) _ _ sample_amounts (noIso_spec _) (noIso_spec _) (by decide)

theorem leftFrom_eq (e : AmountExpr) (he : MinusLast e) (acc : Int) :
    leftFrom acc .plus e = acc + exprSecs e := by
  induction e generalizing acc with
  | single a => simp [leftFrom, exprSecs]
  | cons a op e ih =>
    cases op with
    | plus =>
      simp only [leftFrom, exprSecs, if_true]
      rw [ih he]; omega
    | minus =>
      cases e with
      | single b => simp [leftFrom, exprSecs]; omega
      | cons => exact absurd he (by simp [MinusLast])

/-- **C49 (partial).** If no `-` is followed by a further operator, the calculated value is that of reading from left
to right. Missing: the other texts, see `C49_refuted`. -/
theorem C49_left_to_right_partial (c : Cfg) (iso : Iso) (now now' : Moment) (e : AmountExpr) (t : List Char)
    (h : ExprText e t) (hi : NoIso iso t) (hi' : NoIso iso (pastBlanks t))
    (hm : exprMag e ≤ 9223372036854775807) (hl : MinusLast e) :
    ∃ v r, parse c iso now now' t = .ok (.timeType v) ∧ calculate c v = .ok r ∧ r.getSeconds c = .ok (leftSecs e) := by
  obtain ⟨v, r, h1, h2, -, h3⟩ := C50_value c iso now now' e t h hi hi' hm
  refine ⟨v, r, h1, h2, ?_⟩
  rw [h3, leftSecs, leftFrom_eq e hl 0]
  simp

example := C49_left_to_right_partial (std .debug) noIso (at_ 2017 1 1 0 0 0) (at_ 2017 1 1 0 0 0) _ _ sample_plus_minus (noIso_spec _) (noIso_spec _)
  (by decide) (by simp [MinusLast])

/-- **C49 refuted**, for all three amounts: what is written `x - y - z` is calculated as `x - y + z`. -/
theorem C49_refuted (c : Cfg) (iso : Iso) (now now' : Moment) (x y z : Amount) (t : List Char)
    (h : ExprText (.cons x .minus (.cons y .minus (.single z))) t) (hi : NoIso iso t)
    (hi' : NoIso iso (pastBlanks t))
    (hm : exprMag (.cons x .minus (.cons y .minus (.single z))) ≤ 9223372036854775807) :
    ∃ v r, parse c iso now now' t = .ok (.timeType v) ∧ calculate c v = .ok r ∧
      r.getSeconds c = .ok (x.number * unitSecs x.unit - y.number * unitSecs y.unit + z.number * unitSecs z.unit) := by
  obtain ⟨v, r, h1, h2, -, h3⟩ := C50_value c iso now now' _ t h hi hi' hm
  refine ⟨v, r, h1, h2, ?_⟩
  rw [h3]
  simp only [exprSecs]
  congr 1; omega

/-- `10min - 5min - 3min` is 8 minutes. -/
example : (match parse (std .debug) noIso (at_ 2017 1 1 0 0 0) (at_ 2017 1 1 0 0 0) "10min - 5min - 3min".toList with
    | .ok (.timeType v) => calculate (std .debug) v
    | _ => .err .nomError) = .ok (.minutes 8) := by decide +kernel

example : ExprText (.cons ⟨10, .minute⟩ .minus (.cons ⟨5, .minute⟩ .minus (.single ⟨3, .minute⟩)))
      "10min-5min-3min".toList ∧
    exprMag (.cons ⟨10, .minute⟩ .minus (.cons ⟨5, .minute⟩ .minus (.single ⟨3, .minute⟩))) = 1080 ∧
    leftSecs (.cons ⟨10, .minute⟩ .minus (.cons ⟨5, .minute⟩ .minus (.single ⟨3, .minute⟩))) = 120 := by
  refine ⟨?_, by decide, by decide⟩
  obtain ⟨t, h1, h2⟩ := C62_only_the_grammar "10min-5min-3min".toList []
    (.cons ⟨10, .minute⟩ .minus (.cons ⟨5, .minute⟩ .minus (.single ⟨3, .minute⟩))) (by decide +kernel)
  rw [List.append_nil] at h2
  rw [h2]; exact h1

/-! ## C51 -/

/-- **C51.** A number, with blanks around it, is read as its decimal value if that is below 2^63 and rejected
otherwise. -/
theorem C51_numbers (b ds rest : List Char) (hb : Blanks b) (hd : Digits ds)
    (hr : ∀ ch, rest.head? = some ch → ¬ ch ∈ "0123456789".toList) :
    integer (b ++ (ds ++ rest)) =
      if decimal ds < 2 ^ 63 then .done (pastBlanks rest) (decimal ds : Int) else .error := by
  rw [pastBlanks_eq]
  exact integer_eq hb hd hr

example := C51_numbers " ".toList "0042".toList " days".toList (by decide) (by decide) (by intro ch h; cases h; decide)

/-- **C51.** Nothing else is read as a number. -/
theorem C51_only_numbers (i rest : List Char) (n : Int) (h : integer i = .done rest n) :
    ∃ b ds b', Blanks b ∧ Digits ds ∧ Blanks b' ∧ decimal ds < 2 ^ 63 ∧ n = decimal ds ∧ i = b ++ ds ++ b' ++ rest :=
  integer_done h

example := C51_only_numbers " 0042 days".toList "days".toList 42 (by decide +kernel)

/-- Leading zeros do not matter. -/
theorem C51_leading_zeros (k : Nat) (ds : List Char) : decimal (List.replicate k '0' ++ ds) = decimal ds := by
  have h0 : "0123456789".toList.idxOf '0' = 0 := by decide
  induction k with
  | zero => rfl
  | succ k ih => simp only [List.replicate, List.cons_append, decimal, ih, h0]; omega

example : integer " 0042 days".toList = .done "days".toList 42 ∧
    integer "9223372036854775807d".toList = .done "d".toList 9223372036854775807 ∧
    integer "9223372036854775808d".toList = .error := by decide +kernel

/-! ## C53 -/

/-- **C53 refuted.** Text after an amount expression is ignored, whatever it is (unless it continues the expression). -/
theorem C53_refuted (c : Cfg) (iso : Iso) (now now' : Moment) (e : AmountExpr) (t rest : List Char) (h : ExprText e t)
    (hr : Stop rest) (hi : NoIso iso (t ++ rest)) (hi' : NoIso iso (pastBlanks (t ++ rest)))
    (hj : NoIso iso t) (hj' : NoIso iso (pastBlanks t)) :
    parse c iso now now' (t ++ rest) = parse c iso now now' t := by
  rw [parse_exprText h hr hi (pastBlanks_eq _ ▸ hi'), parse_wholeExpr c iso now now' e t h hj hj']

example : Stop "!garbage".toList := by intro ch h; cases h; decide

end Props
