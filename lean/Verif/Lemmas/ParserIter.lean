import Verif.Lemmas.ParserValue

/-! Dates with an offset, and iterators. -/

namespace Kairos.Parser
open Nom Spec

/-! ### amount expressions before a word -/

theorem names_end : ∀ u : TimeUnit, ∀ s ∈ spellings u, ∃ x, s.toList.getLast? = some x ∧ Letter x := by
  intro u; cases u <;> simp [spellings] <;> decide

theorem amountText_last {a : Amount} {t : List Char} (h : AmountText a t) : ∃ x, t.getLast? = some x ∧ Letter x := by
  cases h with
  | number hb hd hb' hn hmax =>
    obtain ⟨x, h1, h2⟩ := names_end _ _ hn
    exact ⟨x, by rw [List.getLast?_append, h1]; rfl, h2⟩
  | alias unit => cases unit <;> simp [aliasOf] <;> decide

theorem exprText_ne {e : AmountExpr} {t : List Char} (h : ExprText e t) : t ≠ [] := by
  cases h with
  | single ha hb => have := amountText_ne ha; simp [this]
  | cons ha hb hb' he => simp

/-- `rest` can follow the text `t` of an amount expression. -/
def Follows (t rest : List Char) : Prop :=
  (∀ ch, rest.head? = some ch → ¬ Blank ch ∧ ch ≠ '+' ∧ ch ≠ '-') ∧ (NoLetter rest ∨ ∃ x, t.getLast? = some x ∧ Blank x)

theorem amountExpr_follows {e : AmountExpr} {t rest : List Char} (h : ExprText e t) (hr : Follows t rest) :
    amountExpr (t ++ rest) = .done rest e := by
  induction e generalizing t with
  | single a =>
    cases h with
    | single ha hb =>
    rename_i t b
    rw [amountExpr_unfold, List.append_assoc]
    unfold amountExprBody
    have hnl : NoLetter (b ++ rest) := by
      rcases hr.2 with h | ⟨x, h1, h2⟩
      · exact noLetter_blanks hb h
      · cases b with
        | nil =>
          obtain ⟨y, h3, h4⟩ := amountText_last ha
          rw [List.append_nil, h3] at h1
          cases h1
          exact absurd h2 (letter_not_blank h4)
        | cons y ys =>
          intro ch hc; cases hc; exact blank_not_letter (hb _ (by simp))
    rw [bind_done (amountParser_text ha hnl), bind_opt_sp, drop_blanks hb (fun ch hc => (hr.1 ch hc).1)]
    have hno : ∀ r x, amountExprNext amountExpr rest ≠ .done r x := by
      intro r x hx
      unfold amountExprNext at hx
      rw [bind_done_iff] at hx
      obtain ⟨r', op, ho, -⟩ := hx
      have e := operator_done ho
      have := hr.1 (opChar op) (by rw [e]; rfl)
      cases op
      · exact this.2.1 rfl
      · exact this.2.2 rfl
    rw [bind_done (opt_complete_none hno)]
    rfl
  | cons a op e ih =>
    cases h with
    | cons ha hb hb' he =>
    rename_i t b b' t'
    rw [amountExpr_unfold]
    have hassoc : t ++ b ++ opChar op :: (b' ++ t') ++ rest = t ++ (b ++ (opChar op :: (b' ++ (t' ++ rest)))) := by simp
    rw [hassoc]
    unfold amountExprBody
    have hop : NoLetter (opChar op :: (b' ++ (t' ++ rest))) := by
      intro ch hc; cases hc; cases op <;> decide
    rw [bind_done (amountParser_text ha (noLetter_blanks hb hop)), bind_opt_sp,
      drop_blanks hb (by intro ch hc; cases hc; cases op <;> decide)]
    have hnext : amountExpr ((b' ++ (t' ++ rest)).dropWhile isSp) = .done rest e := by
      rw [drop_append_blanks hb']
      obtain ⟨t0, h1, h2⟩ := exprText_drop he
      rw [h2]
      refine ih h1 ⟨hr.1, hr.2.imp id ?_⟩
      rintro ⟨x, hx, hbx⟩
      refine ⟨x, ?_, hbx⟩
      -- the last character of t' is the last one of t0
      have e0 : t'.dropWhile isSp = t0 := by simpa using h2 []
      obtain ⟨b0, -, eb⟩ := split_blanks t'
      rw [e0] at eb
      have hne := exprText_ne h1
      cases hl : t0.getLast? with
      | none => rw [List.getLast?_eq_none_iff] at hl; exact absurd hl hne
      | some y =>
        rw [List.getLast?_append, List.getLast?_cons, List.getLast?_append, eb, List.getLast?_append, hl] at hx
        simpa using hx
    have hn : amountExprNext amountExpr (opChar op :: (b' ++ (t' ++ rest))) = .done rest (op, e) := by
      unfold amountExprNext
      rw [bind_done (operator_char op _), bind_opt_sp, bind_done hnext]
      rfl
    rw [bind_done (opt_done (complete_done hn))]
    rfl

theorem exprText_blanks {e : AmountExpr} {t b : List Char} (h : ExprText e t) (hb : Blanks b) : ExprText e (t ++ b) := by
  induction h with
  | single ha hb0 =>
    rw [List.append_assoc]
    refine .single ha ?_
    intro ch hc
    rcases List.mem_append.1 hc with h | h
    · exact hb0 ch h
    · exact hb ch h
  | cons ha hb0 hb' he ih =>
    rename_i a op e t b0 b' t'
    have : t ++ b0 ++ opChar op :: (b' ++ t') ++ b = t ++ b0 ++ opChar op :: (b' ++ (t' ++ b)) := by simp
    rw [this]
    exact .cons ha hb0 hb' ih

/-! ### dates -/

theorem exactDate_text {iso : Iso} {e : ExactDate} {t rest : List Char} (h : ExactText iso e t rest) :
    exactDateParser iso (t ++ rest) = .done rest e := by
  unfold exactDateParser
  cases h with
  | today => exact altComplete_hit (mapTok_append _ _ _)
  | yesterday =>
    rw [altComplete_miss (mapTok_miss (by rintro ⟨r, e⟩; simp at e))]
    exact altComplete_hit (mapTok_append _ _ _)
  | tomorrow =>
    rw [altComplete_miss (mapTok_miss (by rintro ⟨r, e⟩; simp at e)),
      altComplete_miss (mapTok_miss (by rintro ⟨r, e⟩; simp at e))]
    exact altComplete_hit (mapTok_append _ _ _)
  | datetime hx hk h =>
    rw [altComplete_miss (mapTok_miss hk.1), altComplete_miss (mapTok_miss hk.2.1), altComplete_miss (mapTok_miss hk.2.2)]
    refine altComplete_hit ?_
    rw [bind_done h]; rfl
  | date hx hk h0 h =>
    rw [altComplete_miss (mapTok_miss hk.1), altComplete_miss (mapTok_miss hk.2.1), altComplete_miss (mapTok_miss hk.2.2),
      altComplete_miss]
    · refine altComplete_hit ?_
      rw [bind_done h]; rfl
    · intro r a e
      rw [bind_done_iff] at e
      obtain ⟨r', d, h1, -⟩ := e
      exact h0 _ _ h1

theorem exactText_head {iso : Iso} {e : ExactDate} {t rest : List Char} (h : ExactText iso e t rest) :
    ∀ ch, (t ++ rest).head? = some ch → ¬ Blank ch := by
  intro ch hc
  cases h with
  | today => cases hc; decide
  | yesterday => cases hc; decide
  | tomorrow => cases hc; decide
  | datetime hx _ _ => cases hc; exact hx
  | date hx _ _ _ => cases hc; exact hx

/-- No operator follows: no offset. -/
theorem date_plain {iso : Iso} {e : ExactDate} {t rest : List Char} (h : ExactText iso e t rest)
    (hr : ∀ ch, (rest.dropWhile isSp).head? = some ch → ch ≠ '+' ∧ ch ≠ '-') :
    date iso (t ++ rest) = .done rest ⟨e, none⟩ := by
  unfold date
  rw [bind_done (exactDate_text h), bind_done (opt_complete_none ?_)]
  · rfl
  · intro r a ha
    rw [bind_sp, bind_done_iff] at ha
    obtain ⟨r', op, ho, -⟩ := ha
    have e := operator_done ho
    have := hr (opChar op) (by rw [e]; rfl)
    cases op
    · exact this.1 rfl
    · exact this.2 rfl

theorem date_offset {iso : Iso} {e : ExactDate} {t b b' et rest : List Char} {op : Operator} {a : AmountExpr}
    (h : ExactText iso e t (b ++ opChar op :: (b' ++ (et ++ rest)))) (hb : Blanks b) (hb' : Blanks b') (ha : ExprText a et)
    (hr : Follows et rest) :
    date iso (t ++ (b ++ opChar op :: (b' ++ (et ++ rest)))) = .done rest ⟨e, some (op, a)⟩ := by
  unfold date
  have hin : Nom.bind sp (fun _ => Nom.bind operatorParser fun op => Nom.bind sp fun _ =>
      Nom.bind amountExpr fun a => ret (op, a)) (b ++ opChar op :: (b' ++ (et ++ rest))) = .done rest (op, a) := by
    rw [bind_sp, drop_blanks hb (by intro ch hc; cases hc; cases op <;> decide), bind_done (operator_char op _), bind_sp,
      drop_append_blanks hb']
    obtain ⟨t0, h1, h2⟩ := exprText_drop ha
    rw [h2]
    have hf : Follows t0 rest := by
      refine ⟨hr.1, hr.2.imp id ?_⟩
      rintro ⟨x, hx, hbx⟩
      refine ⟨x, ?_, hbx⟩
      have e0 : et.dropWhile isSp = t0 := by simpa using h2 []
      obtain ⟨b0, -, eb⟩ := split_blanks et
      rw [e0] at eb
      have hne := exprText_ne h1
      cases hl : t0.getLast? with
      | none => rw [List.getLast?_eq_none_iff] at hl; exact absurd hl hne
      | some y =>
        rw [eb, List.getLast?_append, hl] at hx
        simpa using hx
    rw [bind_done (amountExpr_follows h1 hf)]
    rfl
  rw [bind_done (exactDate_text h), bind_done (opt_done (complete_done hin))]
  rfl

/-! ### steps -/

theorem step_head {u : TimeUnit} {n : Int} {st : List Char} (h : StepText u n st) (r : List Char) :
    ∃ x xs, st ++ r = x :: xs ∧ Letter x := by
  cases h with
  | alias => cases u <;> exact ⟨_, _, rfl, by decide⟩
  | every => exact ⟨_, _, rfl, by decide⟩

/-- The unit and the number of a step. -/
def stepOf : Iterspec → TimeUnit × Int
  | .secondly => (.second, 1)
  | .minutely => (.minute, 1)
  | .hourly => (.hour, 1)
  | .daily => (.day, 1)
  | .weekly => (.week, 1)
  | .monthly => (.month, 1)
  | .yearly => (.year, 1)
  | .every n u => (u, n)

theorem recur_stepOf (c : Cfg) (s : Iterspec) : s.recur c = unitToAmount c (stepOf s).2 (stepOf s).1 := by cases s <;> rfl

theorem iterSpec_alias (u : TimeUnit) (rest : List Char) :
    ∃ step, iterSpec ((aliasOf u).toList ++ rest) = .done rest step ∧ stepOf step = (u, 1) := by
  have hit : ∀ (s : String) (v : Iterspec) (ps : List (P Iterspec)) (rest : List Char),
      altComplete (map (tok s) (fun _ => v) :: ps) (s.toList ++ rest) = .done rest v :=
    fun s v ps rest => altComplete_hit (mapTok_append s v rest)
  have skip : ∀ (s t : String) (v : Iterspec) (ps : List (P Iterspec)),
      (s.toList.take 3).isPrefixOf t.toList = false → (s.toList.take 3).length ≤ t.toList.length →
      altComplete (map (tok s) (fun _ => v) :: ps) (t.toList ++ rest) = altComplete ps (t.toList ++ rest) := by
    intro s t v ps h hl
    refine altComplete_miss (mapTok_miss ?_)
    intro hp
    have h1 : s.toList.take 3 <+: t.toList ++ rest := List.IsPrefix.trans (List.take_prefix 3 _) hp
    have : s.toList.take 3 <+: t.toList := List.prefix_of_prefix_length_le h1 (List.prefix_append _ _) hl
    rw [List.isPrefixOf_iff_prefix.2 this] at h
    cases h
  unfold iterSpec
  cases u
  · exact ⟨.secondly, hit _ _ _ _, rfl⟩
  · exact ⟨.minutely, by simp only [aliasOf]; rw [skip _ _ _ _ (by decide) (by decide)]; exact hit _ _ _ _, rfl⟩
  · refine ⟨.hourly, ?_, rfl⟩
    simp only [aliasOf]
    iterate 2 rw [skip _ _ _ _ (by decide) (by decide)]
    exact hit _ _ _ _
  · refine ⟨.daily, ?_, rfl⟩
    simp only [aliasOf]
    iterate 3 rw [skip _ _ _ _ (by decide) (by decide)]
    exact hit _ _ _ _
  · refine ⟨.weekly, ?_, rfl⟩
    simp only [aliasOf]
    iterate 4 rw [skip _ _ _ _ (by decide) (by decide)]
    exact hit _ _ _ _
  · refine ⟨.monthly, ?_, rfl⟩
    simp only [aliasOf]
    iterate 5 rw [skip _ _ _ _ (by decide) (by decide)]
    exact hit _ _ _ _
  · refine ⟨.yearly, ?_, rfl⟩
    simp only [aliasOf]
    iterate 6 rw [skip _ _ _ _ (by decide) (by decide)]
    exact hit _ _ _ _

theorem iterSpec_step {u : TimeUnit} {n : Int} {st rest : List Char} (h : StepText u n st) (hr : NoLetter rest) :
    ∃ step, iterSpec (st ++ rest) = .done rest step ∧ stepOf step = (u, n) := by
  cases h with
  | alias => exact iterSpec_alias u rest
  | every hb hd hb' hn hmax =>
    rename_i b ds b' name
    refine ⟨.every (decimal ds) u, ?_, rfl⟩
    unfold iterSpec
    have miss : ∀ (s : String) (v : Iterspec) (ps : List (P Iterspec)) (i : List Char), s.toList.head? ≠ some 'e' →
        s.toList ≠ [] → altComplete (map (tok s) (fun _ => v) :: ps) ('e' :: i) = altComplete ps ('e' :: i) := by
      intro s v ps i h1 h2
      refine altComplete_miss (mapTok_miss ?_)
      rintro ⟨r, e⟩
      cases hs : s.toList with
      | nil => exact h2 hs
      | cons x xs => rw [hs] at e h1; simp at e h1; exact h1 e.1
    have he : "every".toList ++ (b ++ ds ++ b' ++ name.toList) ++ rest =
        'e' :: ("very".toList ++ (b ++ ds ++ b' ++ name.toList) ++ rest) := rfl
    rw [he]
    iterate 7 rw [miss _ _ _ _ (by decide) (by decide)]
    rw [← he]
    refine altComplete_hit ?_
    have ht : tok "every" ("every".toList ++ (b ++ (ds ++ (b' ++ (name.toList ++ rest))))) =
        .done (b ++ (ds ++ (b' ++ (name.toList ++ rest)))) () := tag_append _ _
    obtain ⟨x, xs, e, hx⟩ := name_head hn rest
    have hnd : ∀ ch, (b' ++ (name.toList ++ rest)).head? = some ch → ¬ ch ∈ "0123456789".toList := by
      intro ch hc
      cases b' with
      | nil => rw [List.nil_append, e] at hc; cases hc; exact letter_not_digit hx
      | cons y ys => cases hc; exact blank_not_digit (hb' _ (by simp))
    have hi := integer_eq hb hd hnd
    rw [if_pos hmax, drop_blanks hb' (by intro ch hc; rw [e] at hc; cases hc; exact letter_not_blank hx)] at hi
    have hassoc : "every".toList ++ (b ++ ds ++ b' ++ name.toList) ++ rest =
        "every".toList ++ (b ++ (ds ++ (b' ++ (name.toList ++ rest)))) := by simp
    rw [hassoc, bind_done ht, bind_done hi, bind_done (unitParser_word hn hr)]
    rfl

theorem iterSpec_text (c : Cfg) {u : TimeUnit} {n : Int} {st rest : List Char} (h : StepText u n st) (hr : NoLetter rest) :
    ∃ step, iterSpec (st ++ rest) = .done rest step ∧ step.recur c = unitToAmount c n u := by
  obtain ⟨step, h1, h2⟩ := iterSpec_step h hr
  exact ⟨step, h1, by rw [recur_stepOf, h2]⟩

/-! ### bounds -/

theorem untilSpec_nil (iso : Iso) : opt (complete (untilSpec iso)) [] = .done [] none := by
  refine opt_complete_none ?_
  intro r a h
  rcases altComplete_done h with ⟨p, hp, e⟩
  simp only [List.mem_cons, List.not_mem_nil, or_false] at hp
  rcases hp with rfl | rfl
  · cases e
  · cases e

theorem untilSpec_text {iso : Iso} {u : Option UntilSpec} {ut : List Char} (h : BoundText iso u ut) :
    opt (complete (untilSpec iso)) ut = .done [] u := by
  cases h with
  | none => exact untilSpec_nil iso
  | untilDate hb he =>
    rename_i b t e
    have h1 : tok "until" ("until".toList ++ (b ++ t)) = .done (b ++ t) () := tag_append _ _
    have hd : (b ++ t).dropWhile isSp = t :=
      drop_blanks hb (fun ch hc => exactText_head he ch (by rw [List.append_nil]; exact hc))
    have h2 := exactDate_text he
    rw [List.append_nil] at h2
    refine opt_done (complete_done ?_)
    unfold untilSpec
    refine altComplete_hit ?_
    rw [bind_done h1, bind_sp, hd, bind_done h2]
    rfl
  | times hd hb hmax =>
    rename_i ds b
    refine opt_done (complete_done ?_)
    unfold untilSpec
    rw [altComplete_miss]
    · refine altComplete_hit ?_
      have hi := integer_eq (b := []) (ds := ds) (rest := b ++ "times".toList) (by intro ch h; cases h) hd (by
        intro ch hc
        cases b with
        | nil => cases hc; decide
        | cons y ys => cases hc; exact blank_not_digit (hb _ (by simp)))
      rw [if_pos hmax, drop_blanks hb (by intro ch hc; cases hc; decide)] at hi
      have ht : tok "times" "times".toList = .done [] () := by decide
      have hs : ("times".toList).dropWhile isSp = "times".toList := by decide
      rw [List.nil_append] at hi
      rw [bind_done hi, bind_sp, hs, bind_done ht]
      rfl
    · intro r a e
      rw [bind_done_iff] at e
      obtain ⟨r', x, h1, -⟩ := e
      have := tag_done h1
      cases ds with
      | nil => exact hd.1 rfl
      | cons y ys =>
        have hy := hd.2 y (by simp)
        simp at this
        rw [this.1] at hy
        revert hy; decide

/-! ### iterators -/

theorem bound_head {iso : Iso} {u : Option UntilSpec} {ut : List Char} (h : BoundText iso u ut) :
    ∀ ch, ut.head? = some ch → ¬ Blank ch := by
  intro ch hc
  cases h with
  | none => cases hc
  | untilDate => cases hc; decide
  | times hd hb hmax =>
    rename_i ds b
    cases ds with
    | nil => exact absurd rfl hd.1
    | cons y ys => cases hc; exact digit_not_blank (hd.2 _ (by simp))

theorem bound_noLetter {iso : Iso} {u : Option UntilSpec} {b2 ut : List Char} (h : BoundText iso u ut) (hb : Blanks b2)
    (hsep : u ≠ none → b2 ≠ []) : NoLetter (b2 ++ ut) := by
  cases b2 with
  | nil =>
    cases h with
    | none => intro ch hc; cases hc
    | untilDate => exact absurd rfl (hsep (by simp))
    | times => exact absurd rfl (hsep (by simp))
  | cons y ys => intro ch hc; cases hc; exact blank_not_letter (hb _ (by simp))

/-- The text of an iterator is parsed as that iterator. -/
theorem iterator_step {iso : Iso} {d : PDate} {unit : TimeUnit} {n : Int} {u : Option UntilSpec} {t : List Char}
    (h : IterText iso d unit n u t) :
    ∃ step, iterator iso t = .done [] ⟨d, step, u⟩ ∧ stepOf step = (unit, n) := by
  cases h with
  | mk hb0 he ho hb1 hsep hs hb2 hu hsep' =>
  rename_i b0 dt ot b1 st b2 ut e o
  obtain ⟨step, h1, h2⟩ := iterSpec_step hs (bound_noLetter hu hb2 hsep')
  refine ⟨step, ?_, h2⟩
  obtain ⟨x, xs, hx, hxl⟩ := step_head hs (b2 ++ ut)
  have hsthead : ∀ ch, (st ++ (b2 ++ ut)).head? = some ch → ¬ Blank ch := by
    intro ch hc; rw [hx] at hc; cases hc; exact letter_not_blank hxl
  -- the date, up to blanks
  have hdate : ∃ b, Blanks b ∧ date iso (dt ++ (ot ++ (b1 ++ (st ++ (b2 ++ ut))))) = .done (b ++ (st ++ (b2 ++ ut))) ⟨e, o⟩ := by
    cases ho with
    | none =>
      refine ⟨b1, hb1, date_plain he ?_⟩
      intro ch hc
      rw [List.nil_append, drop_blanks hb1 hsthead, hx] at hc
      cases hc
      constructor <;> (rintro rfl; revert hxl; decide)
    | some hb hb' ha =>
      rename_i op a b b' et
      refine ⟨[], (by intro ch h; cases h), ?_⟩
      have hassoc : b ++ opChar op :: (b' ++ et) ++ (b1 ++ (st ++ (b2 ++ ut))) =
          b ++ opChar op :: (b' ++ ((et ++ b1) ++ (st ++ (b2 ++ ut)))) := by simp
      rw [hassoc] at he ⊢
      refine date_offset he hb hb' (exprText_blanks ha hb1) ⟨?_, .inr ?_⟩
      · intro ch hc
        rw [hx] at hc; cases hc
        refine ⟨letter_not_blank hxl, ?_, ?_⟩ <;> (rintro rfl; revert hxl; decide)
      · have hne := hsep (by simp)
        cases hl : b1.getLast? with
        | none => rw [List.getLast?_eq_none_iff] at hl; exact absurd hl hne
        | some y =>
          exact ⟨y, by rw [List.getLast?_append, hl]; rfl, hb1 y (List.mem_of_getLast? hl)⟩
  obtain ⟨b, hb, hdate⟩ := hdate
  unfold iterator
  rw [bind_opt_sp, drop_blanks hb0 (exactText_head he), bind_done hdate, bind_opt_sp, drop_blanks hb hsthead,
    bind_done h1, bind_opt_sp, drop_blanks hb2 (bound_head hu), bind_done (untilSpec_text hu)]
  rfl

theorem iterator_text (c : Cfg) {iso : Iso} {d : PDate} {unit : TimeUnit} {n : Int} {u : Option UntilSpec} {t : List Char}
    (h : IterText iso d unit n u t) :
    ∃ step, iterator iso t = .done [] ⟨d, step, u⟩ ∧ step.recur c = unitToAmount c n unit := by
  obtain ⟨step, h1, h2⟩ := iterator_step h
  exact ⟨step, h1, by rw [recur_stepOf, h2]⟩

theorem unitToAmount_eq (c : Cfg) (n : Int) (u : TimeUnit) (h : u = .week → InI64 (7 * n)) :
    unitToAmount c n u = .ok (unitAmount u n) := by
  cases u <;> try rfl
  exact weeks_ok (h rfl)

theorem unitAmount_isAAmount (u : TimeUnit) (n : Int) : (unitAmount u n).isAAmount = true := by cases u <;> rfl

end Kairos.Parser
