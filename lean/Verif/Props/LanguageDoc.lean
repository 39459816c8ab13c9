import Verif.Props.Unread

/-!
# C98: iterators written as doc/language.md says
-/

namespace Props
open Kairos Kairos.Parser Nom Spec

/-- Nothing that begins with a digit is a step. -/
private theorem noStep_digit {b : List Char} {x : Char} {xs : List Char} (hb : Blanks b) (hx : x ∈ "0123456789".toList) :
    NoStep (b ++ x :: xs) := by
  refine noStep_of fun unit n st r hs e => ?_
  obtain ⟨y, ys, hy, hyl⟩ := step_head hs r
  rw [drop_blanks hb (by intro ch hc; cases hc; exact digit_not_blank hx), hy] at e
  cases e
  clear hy
  have : ∀ x ∈ "0123456789".toList, ¬ Letter x := by decide
  exact this x hx hyl

/-- **C98 refuted.** doc/language.md gives `number unit` as a step (`iterator = date iter_spec until_spec?`). The parser does
not know it: a date, with or without an offset, followed by a number, a unit and anything else (a bound, say) is that date
alone; the step and what follows are ignored. -/
theorem C98_refuted (c : Cfg) (iso : Iso) (now now' : Moment) (dt ot b ds b' rest : List Char) (e : ExactDate)
    (o : Option (Operator × AmountExpr)) (unit : TimeUnit) (name : String) (v : TT)
    (he : ExactText iso e dt (ot ++ (b ++ (ds ++ (b' ++ (name.toList ++ rest)))))) (ho : OffsetText o ot) (hb : Blanks b)
    (hd : Digits ds) (_hb' : Blanks b') (_hn : name ∈ spellings unit) (hv : dateMeans c now (⟨e, o⟩ : PDate) = .value v) :
    parse c iso now now' (dt ++ (ot ++ (b ++ (ds ++ (b' ++ (name.toList ++ rest)))))) = .ok (.timeType v) := by
  unmean
  obtain ⟨hne, hd⟩ := hd
  cases ds with
  | nil => exact absurd rfl hne
  | cons x xs =>
    have hx := hd x (by simp)
    rw [List.cons_append] at he ⊢
    have hop : x ≠ '+' ∧ x ≠ '-' := by
      have : ∀ x ∈ "0123456789".toList, x ≠ '+' ∧ x ≠ '-' := by decide
      exact this x hx
    cases ho with
    | none =>
      refine C96_refuted c iso now now' e v dt _ he ?_ (noStep_digit hb hx) ?_
      rotate_left
      · unmean
        cases h : e.intoTimetype c now <;> simp [PDate.intoTimetype, h] at hv ⊢
        exact hv
      intro b1 b2 s op h1 _ h
      have h2 := congrArg (List.dropWhile isSp) h
      rw [List.nil_append, drop_blanks hb (by intro ch hc; cases hc; exact digit_not_blank hx),
        drop_blanks h1 (by intro ch hc; cases hc; cases op <;> decide)] at h2
      have h3 := (List.cons.inj h2).1
      cases op
      · exact absurd h3 hop.1
      · exact absurd h3 hop.2
    | some hb1 hb2 ha =>
      rename_i op a b1 b2 et
      have hassoc : b1 ++ opChar op :: (b2 ++ et) ++ (b ++ x :: (xs ++ (b' ++ (name.toList ++ rest)))) =
          b1 ++ opChar op :: (b2 ++ ((et ++ b) ++ x :: (xs ++ (b' ++ (name.toList ++ rest))))) := by simp
      rw [hassoc] at he ⊢
      obtain ⟨w, hw⟩ : ∃ w, e.intoTimetype c now = .ok w := by
        cases h : e.intoTimetype c now <;> simp [PDate.intoTimetype, h] at hv ⊢
      obtain ⟨y, hy⟩ : ∃ y, a.intoTimetype c = .ok y := by
        cases h : a.intoTimetype c <;> cases op <;> simp [PDate.intoTimetype, h, hw] at hv ⊢
      rw [C96_refuted_step c iso now now' e w y dt b1 b2 (et ++ b) _ op a he hb1 hb2 (exprText_blanks ha hb)
        (by intro ch hc; cases hc; exact ⟨digit_not_blank hx, hop⟩)
        (.inl (by
          intro ch hc; cases hc
          have : ∀ x ∈ "0123456789".toList, ¬ Letter x := by decide
          exact this x hx)) (noStep_digit (b := []) (by intro ch h; cases h) hx) (exact_value.mpr hw) (amounts_value.mpr hy)]
      cases op <;> simp [PDate.intoTimetype, hw, hy] at hv ⊢ <;> exact hv

example (c : Cfg) (now now' : Moment) (v : TT) (hv : dateMeans c now ⟨.today, none⟩ = .value v) :
    parse c noIso now now' "today 5 days 3 times".toList = .ok (.timeType v) :=
  C98_refuted c noIso now now' "today".toList [] " ".toList "5".toList " ".toList " 3 times".toList .today none .day "days" v
    (.today _) .none (by decide) (by decide) (by decide) (by decide) hv

/-- **C98 (aliases).** With an alias as the step, and with or without a bound, the text is the iterator doc/language.md describes: from
the date, one unit at a time. Missing: steps given by a number and a unit, which need the word `every`. -/
theorem C98_alias_partial (c : Cfg) (iso : Iso) (now now' : Moment) (dt ot b1 b2 ut : List Char) (e : ExactDate)
    (o : Option (Operator × AmountExpr)) (unit : TimeUnit) (u : Option UntilSpec) (v : TT) (m : Moment)
    (he : ExactText iso e dt (ot ++ (b1 ++ ((aliasOf unit).toList ++ (b2 ++ ut))))) (ho : OffsetText o ot) (hb1 : Blanks b1)
    (hsep : o ≠ none → b1 ≠ []) (hb2 : Blanks b2) (hu : BoundText iso u ut) (hsep' : u ≠ none → b2 ≠ [])
    (hv : dateMeans c now (⟨e, o⟩ : PDate) = .value v) (hm : calculate c v = .ok (.moment m)) :
    (u = none → parse c iso now now' (dt ++ (ot ++ (b1 ++ ((aliasOf unit).toList ++ (b2 ++ ut))))) =
      .ok (.iterator (.ok (.iterator ⟨.moment m, unitAmount unit 1, false⟩)))) ∧
    (∀ k, u = some (.times k) → parse c iso now now' (dt ++ (ot ++ (b1 ++ ((aliasOf unit).toList ++ (b2 ++ ut))))) =
      .ok (.iterator (.ok (.timesIter (timesNew ⟨.moment m, unitAmount unit 1, false⟩ k))))) ∧
    (∀ e' w m', u = some (.exact e') → exactMeans c now' e' = .value w → calculate c w = .ok (.moment m') →
      parse c iso now now' (dt ++ (ot ++ (b1 ++ ((aliasOf unit).toList ++ (b2 ++ ut))))) =
        .ok (.iterator (.ok (.untilIterator ⟨.moment m, unitAmount unit 1, false⟩ m')))) := by
  exact C54_iterator_text c iso now now' ⟨e, o⟩ unit 1 u _
    (.mk (b0 := []) (by intro ch h; cases h) he ho hb1 hsep (.alias unit) hb2 hu hsep') (fun _ => by decide) v m hv hm

example (c : Cfg) (now now' m : Moment) (v : TT) (hv : dateMeans c now ⟨.today, none⟩ = .value v)
    (hm : calculate c v = .ok (.moment m)) :
    parse c noIso now now' "today daily".toList = .ok (.iterator (.ok (.iterator ⟨.moment m, .days 1, false⟩))) :=
  (C98_alias_partial c noIso now now' "today".toList [] " ".toList [] [] .today none .day none v m
    (.today _) .none (by decide) (by simp) (by decide) .none (by simp) hv hm).1 rfl

end Props
