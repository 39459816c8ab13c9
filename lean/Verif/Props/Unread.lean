import Verif.Props.Acceptance

/-!
# C96: what happens to a part of a text that cannot be read
-/

namespace Spec
open Kairos Kairos.Parser

/-- No offset follows: no operator with an amount behind it. -/
def NoOffset (rest : List Char) : Prop :=
  ∀ (b b' s : List Char) (op : Operator), Blanks b → Blanks b' → rest = b ++ opChar op :: (b' ++ s) → ¬ StartsWithAmount s

/-- No step follows. -/
def NoStep (rest : List Char) : Prop :=
  ∀ (b st r : List Char) (unit : TimeUnit) (n : Int), Blanks b → StepText unit n st → rest ≠ b ++ (st ++ r)

/-- No bound follows. -/
def NoBound (iso : Iso) (rest : List Char) : Prop :=
  ∀ (b t r : List Char) (u : UntilSpec), Blanks b → BoundAt iso (some u) t r → rest ≠ b ++ (t ++ r)

/-- A bound, with any text behind it. -/
inductive BoundThen (iso : Iso) : UntilSpec → List Char → List Char → Prop
  | untilDate {b t rest : List Char} {e : ExactDate} (hb : Blanks b) (he : ExactText iso e t rest) :
      BoundThen iso (.exact e) ("until".toList ++ (b ++ t)) rest
  | times {ds b : List Char} (rest : List Char) (hd : Digits ds) (hb : Blanks b) (hmax : decimal ds < 2 ^ 63) :
      BoundThen iso (.times (decimal ds)) (ds ++ (b ++ "times".toList)) rest

end Spec

namespace Props
open Kairos Kairos.Parser Nom Spec

private theorem date_alone {iso : Iso} {e : ExactDate} {t rest : List Char} (h : ExactText iso e t rest) (hr : NoOffset rest) :
    date iso (t ++ rest) = .done rest ⟨e, none⟩ := by
  unfold date
  rw [bind_done (exactDate_text h), bind_done (opt_complete_none ?_)]
  · rfl
  · intro r a ha
    rw [bind_sp, bind_done_iff] at ha
    obtain ⟨r', op, ho, ha⟩ := ha
    rw [bind_sp, bind_done_iff] at ha
    obtain ⟨r'', x, hx, -⟩ := ha
    obtain ⟨b, hb, eb⟩ := split_blanks rest
    obtain ⟨b', hb', eb'⟩ := split_blanks r'
    rw [operator_done ho] at eb
    rw [eb'] at eb
    obtain ⟨tx, hx, ex⟩ := amountExpr_done hx
    exact hr b b' _ op hb hb' eb (by rw [ex]; exact starts_of_exprText hx r'')

/-- **C96 refuted.** Whatever stands behind a date is ignored if it cannot be read as an offset or as a step: the text is
accepted, as that date alone. -/
theorem C96_refuted (c : Cfg) (iso : Iso) (now now' : Moment) (e : ExactDate) (v : TT) (t rest : List Char)
    (h : ExactText iso e t rest) (ho : NoOffset rest) (hs : NoStep rest) (hv : exactMeans c now e = .value v) :
    parse c iso now now' (t ++ rest) = .ok (.timeType v) := by
  unmean
  have hd := date_alone h ho
  have hit : ∀ r it, iterator iso (t ++ rest) ≠ .done r it := by
    intro r it e
    unfold iterator at e
    rw [bind_opt_sp, drop_nonblank (exactText_head h), bind_done hd, bind_opt_sp, bind_done_iff] at e
    obtain ⟨r', s, h1, -⟩ := e
    obtain ⟨u, n, st, h2, h3, -⟩ := iterSpec_done c h1
    obtain ⟨b, hb, eb⟩ := split_blanks rest
    rw [h3] at eb
    exact hs b st r' u n hb h2 eb
  have htt : timetype iso (t ++ rest) = .done rest (.date ⟨e, none⟩) := by
    unfold timetype alt
    rw [bind_done hd]
    rfl
  rw [parse_timetype hit htt]
  simp [PTimeType.intoTimetype, PDate.intoTimetype, hv]

/-- **C96 refuted for steps.** The same behind a date with an offset: what cannot be read as a step, or as a continuation of
the offset, is ignored, and the result is the date plus or minus the offset. -/
theorem C96_refuted_step (c : Cfg) (iso : Iso) (now now' : Moment) (e : ExactDate) (v x : TT) (t b b' et rest : List Char)
    (op : Operator) (a : AmountExpr) (h : ExactText iso e t (b ++ opChar op :: (b' ++ (et ++ rest)))) (hb : Blanks b)
    (hb' : Blanks b') (ha : ExprText a et) (hr : ∀ ch, rest.head? = some ch → ¬ Blank ch ∧ ch ≠ '+' ∧ ch ≠ '-')
    (hl : NoLetter rest ∨ ∃ y, et.getLast? = some y ∧ Blank y) (hs : NoStep rest)
    (hv : exactMeans c now e = .value v) (hx : amountsMean c a = .value x) :
    parse c iso now now' (t ++ (b ++ opChar op :: (b' ++ (et ++ rest)))) =
      .ok (.timeType (if op = .plus then v + x else v - x)) := by
  unmean
  have hd := date_offset h hb hb' ha ⟨hr, hl⟩
  have hit : ∀ r it, iterator iso (t ++ (b ++ opChar op :: (b' ++ (et ++ rest)))) ≠ .done r it := by
    intro r it e
    unfold iterator at e
    rw [bind_opt_sp, drop_nonblank (exactText_head h), bind_done hd, bind_opt_sp, bind_done_iff] at e
    obtain ⟨r', s, h1, -⟩ := e
    obtain ⟨u, n, st, h2, h3, -⟩ := iterSpec_done c h1
    obtain ⟨b, hb, eb⟩ := split_blanks rest
    rw [h3] at eb
    exact hs b st r' u n hb h2 eb
  have htt : timetype iso (t ++ (b ++ opChar op :: (b' ++ (et ++ rest)))) = .done rest (.date ⟨e, some (op, a)⟩) := by
    unfold timetype alt
    rw [bind_done hd]
    rfl
  rw [parse_timetype hit htt]
  cases op <;> simp [PTimeType.intoTimetype, PDate.intoTimetype, hv, hx]

private theorem iterator_then (c : Cfg) {iso : Iso} {b0 dt ot b1 st rest r : List Char} {e : ExactDate}
    {o : Option (Operator × AmountExpr)} {unit : TimeUnit} {n : Int} {u : Option UntilSpec} (hb0 : Blanks b0)
    (he : ExactText iso e dt (ot ++ (b1 ++ (st ++ rest)))) (ho : OffsetText o ot) (hb1 : Blanks b1) (hsep : o ≠ none → b1 ≠ [])
    (hs : StepText unit n st) (hr : NoLetter rest) (hu : opt (complete (untilSpec iso)) (rest.dropWhile isSp) = .done r u) :
    ∃ step, iterator iso (b0 ++ (dt ++ (ot ++ (b1 ++ (st ++ rest))))) = .done r ⟨⟨e, o⟩, step, u⟩ ∧
      step.recur c = unitToAmount c n unit := by
  obtain ⟨step, h1, h2⟩ := iterSpec_text c hs hr
  refine ⟨step, ?_, h2⟩
  obtain ⟨x, xs, hx, hxl⟩ := step_head hs rest
  have hsthead : ∀ ch, (st ++ rest).head? = some ch → ¬ Blank ch := by
    intro ch hc; rw [hx] at hc; cases hc; exact letter_not_blank hxl
  have hdate : ∃ b, Blanks b ∧ date iso (dt ++ (ot ++ (b1 ++ (st ++ rest)))) = .done (b ++ (st ++ rest)) ⟨e, o⟩ := by
    cases ho with
    | none =>
      refine ⟨b1, hb1, date_plain he ?_⟩
      intro ch hc
      rw [List.nil_append, drop_blanks hb1 hsthead, hx] at hc
      cases hc
      constructor <;> (rintro rfl; revert hxl; decide)
    | some hb hb' ha =>
      rename_i op a b b' et
      refine ⟨[], (by intro ch h; cases h), ?_⟩
      have hassoc : b ++ opChar op :: (b' ++ et) ++ (b1 ++ (st ++ rest)) =
          b ++ opChar op :: (b' ++ ((et ++ b1) ++ (st ++ rest))) := by simp
      rw [hassoc] at he ⊢
      refine date_offset he hb hb' (exprText_blanks ha hb1) ⟨?_, .inr ?_⟩
      · intro ch hc
        rw [hx] at hc; cases hc
        refine ⟨letter_not_blank hxl, ?_, ?_⟩ <;> (rintro rfl; revert hxl; decide)
      · have hne := hsep (by simp)
        cases hl : b1.getLast? with
        | none => rw [List.getLast?_eq_none_iff] at hl; exact absurd hl hne
        | some y =>
          exact ⟨y, by rw [List.getLast?_append, hl]; rfl, hb1 y (List.mem_of_getLast? hl)⟩
  obtain ⟨b, hb, hdate⟩ := hdate
  unfold iterator
  rw [bind_opt_sp, drop_blanks hb0 (exactText_head he), bind_done hdate, bind_opt_sp, drop_blanks hb hsthead,
    bind_done h1, bind_opt_sp, bind_done hu]
  rfl

/-- **C96 refuted for bounds.** If what stands behind the step of an iterator cannot be read as a bound, it is ignored, and
the iterator has no bound at all. -/
theorem C96_refuted_bound (c : Cfg) (iso : Iso) (hi : IsoSane iso) (now now' : Moment) (b0 dt ot b1 st rest : List Char) (e : ExactDate)
    (o : Option (Operator × AmountExpr)) (unit : TimeUnit) (n : Int) (hb0 : Blanks b0)
    (he : ExactText iso e dt (ot ++ (b1 ++ (st ++ rest)))) (ho : OffsetText o ot) (hb1 : Blanks b1) (hsep : o ≠ none → b1 ≠ [])
    (hs : StepText unit n st) (hr : NoLetter rest) (hu : NoBound iso rest)
    (hw : unit = .week → InI64 (7 * n)) (v : TT) (m : Moment) (hv : dateMeans c now (⟨e, o⟩ : PDate) = .value v)
    (hm : calculate c v = .ok (.moment m)) :
    parse c iso now now' (b0 ++ (dt ++ (ot ++ (b1 ++ (st ++ rest))))) =
      .ok (.iterator (.ok (.iterator ⟨.moment m, unitAmount unit n, false⟩))) := by
  unmean
  have hu' : opt (complete (untilSpec iso)) (rest.dropWhile isSp) = .done (rest.dropWhile isSp) none := by
    refine opt_complete_none ?_
    intro r u h
    obtain ⟨t, h1, h2⟩ := untilSpec_done hi h
    obtain ⟨b, hb, eb⟩ := split_blanks rest
    rw [h2] at eb
    exact hu b t r u hb h1 eb
  obtain ⟨step, h1, h2⟩ := iterator_then c hb0 he ho hb1 hsep hs hr hu'
  rw [unitToAmount_eq c n unit hw] at h2
  rw [parse_iterator h1]
  have hn : intoNdt c v = .ok m := by simp only [intoNdt, hm, OutE.ok_bind]; rfl
  have hbuild : Iter.build m (unitAmount unit n) = .ok ⟨.moment m, unitAmount unit n, false⟩ := by
    simp [Iter.build, unitAmount_isAAmount]
  simp only [PIterator.intoUserIterator, h2, hv, hn, hbuild, OutE.ok_bind, wrapIterator]

private theorem untilSpec_then {iso : Iso} {u : UntilSpec} {ut rest : List Char} (h : BoundThen iso u ut rest) :
    opt (complete (untilSpec iso)) (ut ++ rest) = .done rest (some u) := by
  cases h with
  | untilDate hb he =>
    rename_i b t e
    have h1 : tok "until" ("until".toList ++ (b ++ t) ++ rest) = .done (b ++ (t ++ rest)) () := by
      rw [List.append_assoc, List.append_assoc]; exact tag_append _ _
    have hd : (b ++ (t ++ rest)).dropWhile isSp = t ++ rest := drop_blanks hb (exactText_head he)
    have h2 := exactDate_text he
    refine opt_done (complete_done ?_)
    unfold untilSpec
    refine altComplete_hit ?_
    rw [bind_done h1, bind_sp, hd, bind_done h2]
    rfl
  | times rest hd hb hmax =>
    rename_i ds b
    refine opt_done (complete_done ?_)
    rw [List.append_assoc, List.append_assoc]
    unfold untilSpec
    rw [altComplete_miss]
    · refine altComplete_hit ?_
      have hi := integer_eq (b := []) (ds := ds) (rest := b ++ ("times".toList ++ rest)) (by intro ch h; cases h) hd (by
        intro ch hc
        cases b with
        | nil => cases hc; decide
        | cons y ys => cases hc; exact blank_not_digit (hb _ (by simp)))
      rw [if_pos hmax, drop_blanks hb (by intro ch hc; cases hc; decide)] at hi
      have ht : tok "times" ("times".toList ++ rest) = .done rest () := tag_append _ _
      have hs : ("times".toList ++ rest).dropWhile isSp = "times".toList ++ rest :=
        drop_nonblank (by intro ch hc; cases hc; decide)
      rw [List.nil_append] at hi
      rw [bind_done hi, bind_sp, hs, bind_done ht]
      rfl
    · intro r a e
      rw [bind_done_iff] at e
      obtain ⟨r', x, h1, -⟩ := e
      have := tag_done h1
      cases ds with
      | nil => exact hd.1 rfl
      | cons y ys =>
        have hy := hd.2 y (by simp)
        simp at this
        rw [this.1] at hy
        revert hy; decide

private theorem boundThen_head {iso : Iso} {u : UntilSpec} {ut rest : List Char} (h : BoundThen iso u ut rest) :
    ∀ ch, (ut ++ rest).head? = some ch → ¬ Blank ch := by
  intro ch hc
  cases h with
  | untilDate => cases hc; decide
  | times rest hd hb hmax =>
    rename_i ds b
    cases ds with
    | nil => exact absurd rfl hd.1
    | cons y ys => cases hc; exact digit_not_blank (hd.2 _ (by simp))

/-- **C96 refuted for what stands behind a bound.** It is ignored, whatever it is: the iterator is the one of the text
without it. -/
theorem C96_refuted_end (c : Cfg) (iso : Iso) (now now' : Moment) (b0 dt ot b1 st b2 ut rest : List Char) (e : ExactDate)
    (o : Option (Operator × AmountExpr)) (unit : TimeUnit) (n : Int) (u : UntilSpec) (hb0 : Blanks b0)
    (he : ExactText iso e dt (ot ++ (b1 ++ (st ++ (b2 ++ (ut ++ rest)))))) (ho : OffsetText o ot) (hb1 : Blanks b1)
    (hsep : o ≠ none → b1 ≠ []) (hs : StepText unit n st) (hb2 : Blanks b2) (hsep' : b2 ≠ []) (hu : BoundThen iso u ut rest)
    (hw : unit = .week → InI64 (7 * n)) (v : TT) (m : Moment) (hv : dateMeans c now (⟨e, o⟩ : PDate) = .value v)
    (hm : calculate c v = .ok (.moment m)) :
    (∀ k, u = .times k → parse c iso now now' (b0 ++ (dt ++ (ot ++ (b1 ++ (st ++ (b2 ++ (ut ++ rest))))))) =
      .ok (.iterator (.ok (.timesIter (timesNew ⟨.moment m, unitAmount unit n, false⟩ k))))) ∧
    (∀ e' w m', u = .exact e' → exactMeans c now' e' = .value w → calculate c w = .ok (.moment m') →
      parse c iso now now' (b0 ++ (dt ++ (ot ++ (b1 ++ (st ++ (b2 ++ (ut ++ rest))))))) =
        .ok (.iterator (.ok (.untilIterator ⟨.moment m, unitAmount unit n, false⟩ m')))) := by
  unmean
  have hnl : NoLetter (b2 ++ (ut ++ rest)) := by
    cases b2 with
    | nil => exact absurd rfl hsep'
    | cons y ys => intro ch hc; cases hc; exact blank_not_letter (hb2 _ (by simp))
  obtain ⟨step, h1, h2⟩ := iterator_then c hb0 he ho hb1 hsep hs hnl
    (by rw [drop_blanks hb2 (boundThen_head hu)]; exact untilSpec_then hu)
  rw [unitToAmount_eq c n unit hw] at h2
  rw [parse_iterator h1]
  have hn : intoNdt c v = .ok m := by simp only [intoNdt, hm, OutE.ok_bind]; rfl
  have hbuild : Iter.build m (unitAmount unit n) = .ok ⟨.moment m, unitAmount unit n, false⟩ := by
    simp [Iter.build, unitAmount_isAAmount]
  refine ⟨?_, ?_⟩
  · rintro k rfl
    simp only [PIterator.intoUserIterator, h2, hv, hn, hbuild, OutE.ok_bind, wrapIterator]
  · rintro e' w m' rfl hw' hm'
    have hn' : intoNdt c w = .ok m' := by simp only [intoNdt, hm', OutE.ok_bind]; rfl
    simp only [PIterator.intoUserIterator, h2, hv, hn, hw', hn', hbuild, OutE.ok_bind, wrapIterator]

/-- **C96 (partial).** A text that does not start with a blank and whose very beginning cannot be read is rejected. -/
theorem C96_beginning_partial (c : Cfg) (iso : Iso) (hi : IsoSane iso) (now now' : Moment) (s : List Char)
    (hs : ∀ ch, s.head? = some ch → ¬ Blank ch) (h1 : ¬ StartsWithAmount s) (h2 : ¬ StartsWithDate iso s) :
    parse c iso now now' s = .err .nomError := (C90_rejected_iff c iso hi now now' s hs).2 ⟨h1, h2⟩

/-! ### texts like these -/

/-- No step follows if none begins after the blanks. -/
theorem noStep_of {rest : List Char} (h : ∀ unit n st r, StepText unit n st → rest.dropWhile isSp ≠ st ++ r) : NoStep rest := by
  rintro b st r unit n hb hs rfl
  obtain ⟨x, xs, hx, hxl⟩ := step_head hs r
  refine h unit n st r hs (drop_blanks hb ?_)
  intro ch hc; rw [hx] at hc; cases hc; exact letter_not_blank hxl

/-- The words that begin a step. -/
theorem step_word {unit : TimeUnit} {n : Int} {st : List Char} (h : StepText unit n st) :
    ∃ w ∈ ["secondly", "minutely", "hourly", "daily", "weekly", "monthly", "yearly", "every"], w.toList <+: st := by
  cases h with
  | alias => cases unit <;> exact ⟨aliasOf _, by decide, List.prefix_refl _⟩
  | every => exact ⟨"every", by decide, ⟨_, rfl⟩⟩

/-- `"today evry 5 days"` is today. -/
example (now now' : Moment) : parse (std .debug) noIso now now' "today evry 5 days".toList = .ok (.timeType (.moment now)) := by
  refine C96_refuted (std .debug) noIso now now' .today (.moment now) "today".toList " evry 5 days".toList (.today _) ?_ ?_ rfl
  · rintro b b' s op hb - e -
    have : (" evry 5 days".toList).dropWhile isSp = opChar op :: (b' ++ s) := by
      rw [e]; exact drop_blanks hb (by intro ch hc; cases hc; cases op <;> decide)
    cases op <;> cases this
  · refine noStep_of fun unit n st r h e => ?_
    obtain ⟨w, hw, q, rfl⟩ := step_word h
    have : w.toList.isPrefixOf ((" evry 5 days".toList).dropWhile isSp) = true :=
      List.isPrefixOf_iff_prefix.2 ⟨q ++ r, by rw [e]; simp⟩
    clear h e
    revert this w
    decide

/-- What a bound begins with. -/
theorem noBound_of {iso : Iso} {rest : List Char}
    (h1 : ∀ e b t r, Blanks b → ExactAt iso e t r → rest.dropWhile isSp ≠ "until".toList ++ (b ++ t) ++ r)
    (h2 : ∀ ch, (rest.dropWhile isSp).head? = some ch → ¬ ch ∈ "0123456789".toList) : NoBound iso rest := by
  rintro b t r u hb hu rfl
  cases hu with
  | untilDate hb' he => exact h1 _ _ _ _ hb' he (drop_blanks hb (by intro ch hc; cases hc; decide))
  | times hb0 hd hb' hmax =>
    rename_i b0 ds b2
    cases ds with
    | nil => exact hd.1 rfl
    | cons y ys =>
      have hy := hd.2 y (by simp)
      refine h2 y ?_ hy
      have e : b ++ (b0 ++ (y :: ys ++ (b2 ++ "times".toList)) ++ r) = (b ++ b0) ++ (y :: (ys ++ (b2 ++ ("times".toList ++ r)))) := by simp
      rw [e, drop_blanks (b := b ++ b0)]
      · rfl
      · intro ch hc
        rcases List.mem_append.1 hc with hc | hc
        · exact hb ch hc
        · exact hb0 ch hc
      · intro ch hc; cases hc; exact digit_not_blank hy

/-- `"today daily until noon"` goes on for ever: `noon` is no date. -/
example (now now' : Moment) : parse (std .debug) noIso now now' "today daily until noon".toList =
    .ok (.iterator (.ok (.iterator ⟨.moment now, .days 1, false⟩))) := by
  refine C96_refuted_bound (std .debug) noIso isoSane_noIso now now' [] "today".toList [] " ".toList "daily".toList " until noon".toList .today none
    .day 1 (by decide) (.today _) .none (by decide) (by decide) (.alias .day) (by intro ch h; cases h; decide) ?_ (by decide)
    (.moment now) now rfl rfl
  refine noBound_of ?_ (by intro ch h; cases h; decide)
  intro e b t r hb he h
  have h' : " noon".toList = b ++ (t ++ r) := by
    have : "until".toList ++ " noon".toList = "until".toList ++ (b ++ (t ++ r)) := by
      rw [List.append_assoc, List.append_assoc] at h; exact h
    exact List.append_cancel_left this
  have hd : "noon".toList = (t ++ r).dropWhile isSp := by
    rw [← drop_append_blanks hb, ← h']; decide
  cases he with
  | today => cases hd
  | yesterday => cases hd
  | tomorrow => cases hd
  | datetime h => cases h
  | date h => cases h

/-- Anything may follow the bound: `"today daily 5 times only"`. -/
example (now now' : Moment) (rest : List Char) : parse (std .debug) noIso now now' ("today daily 5 times".toList ++ rest) =
    .ok (.iterator (.ok (.timesIter (timesNew ⟨.moment now, .days 1, false⟩ 5)))) :=
  (C96_refuted_end (std .debug) noIso now now' [] "today".toList [] " ".toList "daily".toList " ".toList "5 times".toList rest .today none
    .day 1 (.times 5) (by decide) (.today _) .none (by decide) (by decide) (.alias .day) (by decide) (by decide)
    (.times (ds := "5".toList) (b := " ".toList) rest (by decide) (by decide) (by decide)) (by decide)
    (.moment now) now rfl rfl).1 5 rfl

/-- `"today + 5 days evry 2 hours"` is today + 5 days. -/
example (now now' : Moment) : parse (std .debug) noIso now now' "today + 5 days evry 2 hours".toList =
    .ok (.timeType (.moment now + .days 5)) := by
  refine C96_refuted_step (std .debug) noIso now now' .today (.moment now) (.days 5) "today".toList " ".toList " ".toList "5 days ".toList
    "evry 2 hours".toList .plus (.single ⟨5, .day⟩) (.today _) (by decide) (by decide)
    (.single (t := "5 days".toList) (b := " ".toList) (.number (b := []) (ds := "5".toList) (b' := " ".toList) (unit := .day) (name := "days")
      (by decide) (by decide) (by decide) (by decide) (by decide)) (by decide))
    (by intro ch h; cases h; decide) (.inr ⟨' ', by decide, by decide⟩) ?_ rfl rfl
  refine noStep_of fun unit n st r h e => ?_
  obtain ⟨w, hw, q, rfl⟩ := step_word h
  have : w.toList.isPrefixOf (("evry 2 hours".toList).dropWhile isSp) = true :=
    List.isPrefixOf_iff_prefix.2 ⟨q ++ r, by rw [e]; simp⟩
  clear h e
  revert this w
  decide

/-! ### C53 -/

/-- **C53 refuted, everywhere.** A text that starts with an amount is never rejected as no expression, whatever is written behind
it: `5 days` and `5 daysx` and `5 days, or so`. -/
theorem C53_refuted_everywhere (c : Cfg) (iso : Iso) (now now' : Moment) (s garbage : List Char) (h : StartsWithAmount s) :
    parse c iso now now' (s ++ garbage) ≠ .err .nomError := by
  obtain ⟨a, t, rest, rfl, ha⟩ := h
  exact C90_blanks_before_amount c iso now now' _ ⟨a, t, rest ++ garbage, List.append_assoc _ _ _, ha⟩

/-- `5 daysx` and a text with more behind it. -/
example : StartsWithAmount "5 daysx".toList ∧
    parse (std .debug) noIso (at_ 2017 1 1 0 0 0) (at_ 2017 1 1 0 0 0) ("5 daysx".toList ++ ", or so".toList) = .ok (.timeType (.days 5)) :=
  ⟨⟨⟨5, .day⟩, "5 days".toList, "x".toList, by decide, .number (b := []) (ds := "5".toList) (b' := " ".toList) (unit := .day) (name := "days")
    (by decide) (by decide) (by decide) (by decide) (by decide)⟩, by decide +kernel⟩

/-- **C53 (partial).** A text that as a whole is an amount expression or a date expression is read as a whole, also if a shorter part of it
is one as well: it means what the whole text says. Missing: that anything behind it is rejected, see `C53_refuted_everywhere`. -/
theorem C53_whole_text_partial (c : Cfg) (iso : Iso) (now now' : Moment) (t : List Char) :
    (∀ e, ExprText e t → NoIso iso t → NoIso iso (pastBlanks t) →
      parse c iso now now' t = returned (amountsMean c e)) ∧
    (∀ d, DateText iso d t [] → parse c iso now now' t = returned (dateMeans c now d)) := by
  refine ⟨fun e h h1 h2 => C46_parse c iso now now' e t h h1 h2, fun d h => ?_⟩
  have := C64_date_text c iso now now' d t [] h (fun ch h => by cases h)
  rwa [List.append_nil] at this

/-- `1 day + 1 hour` starts with the text of another expression, `1 day`. -/
example : ∃ e, ExprText e "1 day + 1 hour".toList ∧ (∃ e', ExprText e' "1 day".toList) ∧
    amountsMean (std .debug) e = .value (.days 1 + .hours 1) :=
  have day : AmountText ⟨1, .day⟩ "1 day".toList := .number (b := []) (ds := "1".toList) (b' := " ".toList) (unit := .day) (name := "day")
    (by decide) (by decide) (by decide) (by decide) (by decide)
  have hour : AmountText ⟨1, .hour⟩ "1 hour".toList := .number (b := []) (ds := "1".toList) (b' := " ".toList) (unit := .hour) (name := "hour")
    (by decide) (by decide) (by decide) (by decide) (by decide)
  ⟨.cons ⟨1, .day⟩ .plus (.single ⟨1, .hour⟩), .cons (b := " ".toList) (b' := " ".toList) (op := .plus) day (by decide) (by decide)
    (.single (b := []) hour (by decide)), ⟨_, .single (b := []) day (by decide)⟩, rfl⟩

end Props
