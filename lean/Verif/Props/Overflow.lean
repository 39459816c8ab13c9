import Verif.Props.Safety

/-!
# C52: which texts make the overflow-checked build panic
-/

namespace Props
open Kairos Kairos.Parser Spec

/-! ## Small totals -/

theorem small_sub {B : Int} {p t q : List Char} (h : SmallTotals B (p ++ t ++ q)) : SmallTotals B t := by
  intro a e x b he hx
  exact h (p ++ a) e x (b ++ q) (by rw [he]; simp) hx
theorem small_left {B : Int} {t q : List Char} (h : SmallTotals B (t ++ q)) : SmallTotals B t :=
  small_sub (p := []) (q := q) (by simpa using h)
theorem small_right {B : Int} {p t : List Char} (h : SmallTotals B (p ++ t)) : SmallTotals B t :=
  small_sub (p := p) (q := []) (by simpa using h)
theorem small_expr {B : Int} {e : AmountExpr} {t : List Char} (h : SmallTotals B t) (he : ExprText e t) : exprMag e ≤ B :=
  h [] e t [] (by simp) he

theorem safe_expr_small (c : Cfg) {e : AmountExpr} {t : List Char} (h : ExprText e t) (hs : SmallTotals 3900000000000000000 t) :
    Safe (Fine c 3900000000000000000) (e.intoTimetype c) := by
  have hp := exprText_pos h
  have hb := small_expr hs h
  rw [e.into_tree (weeksFit_of_mag hp (by omega))]
  refine Safe.ok ⟨?_, allMoments_toTT _ _⟩
  have := total_toTT e.tree
  rw [e.mag_tree hp] at this
  omega

theorem safe_date_small (c : Cfg) (now : Moment) (hn : now.Valid c) {iso : Iso} (hi : IsoSane iso) {d : PDate} {t r : List Char}
    (h : DateAt iso d t r) (hs : SmallTotals 3900000000000000000 t) :
    Safe (Fine c 4000000000000000000) (d.intoTimetype c now) := by
  cases h with
  | mk he ho =>
    rename_i dt ot e o
    refine (safe_exact c now hn (exactAt_typed hi he)).bind ?_
    rintro b ⟨hb1, hb2⟩
    cases ho with
    | none => exact Safe.ok ⟨by omega, hb2⟩
    | some hb hb' ha =>
      rename_i op a b0 b' t'
      have hs' : SmallTotals 3900000000000000000 t' := by
        have := small_right (small_right hs)
        rw [show opChar op :: (b' ++ t') = (opChar op :: b') ++ t' by simp] at this
        exact small_right this
      cases op <;> simp only
      · refine (safe_expr_small c ha hs').bind ?_
        rintro x ⟨hx1, hx2⟩
        refine Safe.ok ⟨?_, hb2, hx2⟩
        show total (.addition _ _) ≤ _
        simp only [total]; omega
      · refine (safe_expr_small c ha hs').bind ?_
        rintro x ⟨hx1, hx2⟩
        refine Safe.ok ⟨?_, hb2, hx2⟩
        show total (.subtraction _ _) ≤ _
        simp only [total]; omega

/-- **C52 (partial).** No build panics on a text, of any length, in which no amounts of more than 3.9·10^18 seconds (125 billion years) in total are
written together. Missing: larger amounts, on which the checked build can panic, see `C52_refuted` and `C52_amounts_panic_iff_partial`. -/
theorem C52_small_totals_partial (c : Cfg) (hc : Sane c) (iso : Iso) (hi : IsoSane iso) (now now' : Moment) (hn : now.Valid c)
    (hn' : now'.Valid c) (s : List Char) (hs : SmallTotals 3900000000000000000 s) : parse c iso now now' s ≠ .panic := by
  show NP _
  rcases parse_cases c iso now now' s with ⟨r, it, h, e⟩ | ⟨-, r, t, h, e⟩ | ⟨-, -, e⟩
  · rw [e]
    obtain ⟨u, n, t, hI, rfl, hr, hnum⟩ := iterator_done c hi h
    obtain ⟨d, spec, un⟩ := it
    simp only at hI hr hnum
    cases hI with
    | mk hb0 hd hb1 hst hb2 hu =>
      rename_i b0 dt b1 st b2 ut
      have hsd := small_left (small_right (small_left hs))
      have hst' := small_left (small_right (small_right (small_right (small_left hs))))
      have hnb : 0 ≤ n ∧ (u = .week → n * 604800 ≤ 3900000000000000000) := by
        cases hst with
        | alias => omega
        | every hb hd' hb' hnm hmax =>
          rename_i b ds b' name
          refine ⟨by omega, fun hu => ?_⟩
          subst hu
          have hE := ExprText.single (b := []) (AmountText.number hb hd' hb' hnm hmax) (by decide)
          rw [List.append_nil] at hE
          have := small_expr (small_right hst') hE
          simpa [exprMag, unitSecs] using this
      have hD := safe_date_small c now hn hi hd hsd
      refine np_wrap (np_iterator c now now' _ ?_ hD.1 ?_ ?_)
      · simp only
        rw [hr]
        by_cases hw : u = .week
        · refine np_unitToAmount c n u ?_
          rw [weeks_ok (by unfold InI64; have := hnb.2 hw; omega)]
          exact NP.ok _
        · cases u <;> first | exact NP.ok _ | exact absurd rfl hw
      · intro t ht
        exact safe_ndt c hc (hD.2 t ht)
      · intro e he
        simp only at he
        cases hu with
        | none => cases he
        | times => cases he
        | untilDate hb hex =>
          cases he
          have hE := safe_exact c now' hn' (exactAt_typed hi hex)
          exact ⟨hE.1, fun t ht => safe_ndt c hc ⟨by have := (hE.2 t ht).1; omega, (hE.2 t ht).2⟩⟩
  · rw [e]
    rcases timetype_done hi h with ⟨d, tx, rfl, hd, rfl⟩ | ⟨a, tx, rfl, ha, rfl⟩
    · exact NP.bind (safe_date_small c now hn hi hd (small_left hs)).1 fun _ => NP.ok _
    · exact NP.bind (safe_expr_small c ha (small_left hs)).1 fun _ => NP.ok _
  · rw [e]; exact NP.err _

/-- In particular texts with numbers of at most 8 digits and 1000 characters are such texts (so this includes `C52_short_texts_partial`). -/
theorem small_of_short (s : List Char) (hs : ShortNumbers 8 s) (hl : s.length ≤ 1000) : SmallTotals 3900000000000000000 s := by
  rintro p e t q rfl he
  have h1 := exprMag_bound he hs.sub
  rw [show ((10 ^ 8 : Nat) : Int) = 100000000 by decide] at h1
  simp only [List.length_append] at hl
  omega

example : SmallTotals 3900000000000000000 "today + 99999999 years - 12345678 months every 5 weeks 9 times".toList :=
  small_of_short _ (shortNumbers_of_maxRun (by decide +kernel)) (by decide)

/-! ## Exactly when the checked build panics on an amount expression or a date -/

theorem amount_checked (c : Cfg) (hp : c.profile = .debug) (a : Amount) (h0 : 0 ≤ a.number) :
    (a.unit = .week ∧ 2 ^ 63 ≤ 7 * a.number ∧ a.intoTimetype c = .panic) ∨
    (¬ (a.unit = .week ∧ 2 ^ 63 ≤ 7 * a.number) ∧ ∃ v, a.intoTimetype c = .ok v) := by
  obtain ⟨n, u⟩ := a
  simp only at h0
  by_cases hu : u = .week
  · subst hu
    by_cases hn : 2 ^ 63 ≤ 7 * n
    · refine .inl ⟨rfl, hn, ?_⟩
      simp only [Amount.intoTimetype, TT.weeks, Cfg.mul, Cfg.chk]
      rw [if_neg (by unfold InI64; omega), hp]
      rfl
    · refine .inr ⟨by simp only [true_and]; exact hn, ?_⟩
      exact ⟨_, weeks_ok (n := n) (by unfold InI64; omega)⟩
  · refine .inr ⟨fun h => hu h.1, ?_⟩
    cases u <;> first | exact ⟨_, rfl⟩ | exact absurd rfl hu

theorem expr_checked (c : Cfg) (hp : c.profile = .debug) (e : AmountExpr) (h0 : e.Pos) :
    ((∃ a ∈ exprAmounts e, a.unit = .week ∧ 2 ^ 63 ≤ 7 * a.number) ∧ e.intoTimetype c = .panic) ∨
    ((¬ ∃ a ∈ exprAmounts e, a.unit = .week ∧ 2 ^ 63 ≤ 7 * a.number) ∧ ∃ v, e.intoTimetype c = .ok v) := by
  induction e with
  | single a =>
    rcases amount_checked c hp a h0 with ⟨h1, h2, h3⟩ | ⟨h1, v, h3⟩
    · exact .inl ⟨⟨a, by simp [exprAmounts], h1, h2⟩, h3⟩
    · refine .inr ⟨?_, v, h3⟩
      rintro ⟨x, hx, h⟩
      simp only [exprAmounts, List.mem_singleton] at hx
      subst hx
      exact h1 h
  | cons a op e ih =>
    rcases amount_checked c hp a h0.1 with ⟨h1, h2, h3⟩ | ⟨h1, v, h3⟩
    · refine .inl ⟨⟨a, by simp [exprAmounts], h1, h2⟩, ?_⟩
      cases op <;> simp only [AmountExpr.intoTimetype, h3] <;> rfl
    · rcases ih h0.2 with ⟨⟨x, hx, h⟩, h4⟩ | ⟨h2, w, h4⟩
      · refine .inl ⟨⟨x, by simp [exprAmounts, hx], h⟩, ?_⟩
        cases op <;> simp only [AmountExpr.intoTimetype, h3, h4] <;> rfl
      · refine .inr ⟨?_, ?_⟩
        · rintro ⟨x, hx, h⟩
          simp only [exprAmounts, List.mem_cons] at hx
          rcases hx with rfl | hx
          · exact h1 h
          · exact h2 ⟨x, hx, h⟩
        · cases op <;> simp only [AmountExpr.intoTimetype, h3, h4] <;> exact ⟨_, rfl⟩

/-- **C52.** On the text of an amount expression, followed by anything that does not continue it, the checked build panics exactly if one of its amounts is a
number of weeks that is 2^63 days or more.
(Partial: it should not panic at all, see `C52_refuted_weeks`.) -/
theorem C52_amounts_panic_iff_partial (c : Cfg) (hp : c.profile = .debug) (iso : Iso) (now now' : Moment) (e : AmountExpr) (t rest : List Char)
    (h : ExprText e t) (hr : Stop rest) (hi : NoIso iso (t ++ rest)) (hi' : NoIso iso (pastBlanks (t ++ rest))) :
    parse c iso now now' (t ++ rest) = .panic ↔ ∃ a ∈ exprAmounts e, a.unit = .week ∧ 2 ^ 63 ≤ 7 * a.number := by
  rw [parse_exprText h hr hi (pastBlanks_eq _ ▸ hi')]
  rcases expr_checked c hp e (exprText_pos h) with ⟨h1, h2⟩ | ⟨h1, v, h2⟩
  · rw [h2]; exact ⟨fun _ => h1, fun _ => rfl⟩
  · rw [h2]; exact ⟨fun h => (by cases h), fun h => absurd h h1⟩

example (rest : List Char) (hr : Stop rest) := C52_amounts_panic_iff_partial (std .debug) rfl noIso (at_ 2017 1 1 0 0 0) (at_ 2017 1 1 0 0 0) _ _ rest
  sample_amounts hr (noIso_spec _) (noIso_spec _)

/-- **C52.** And the same on `today`, `yesterday` and `tomorrow` with an offset.
(Partial: it should not panic at all, see `C52_refuted_weeks`.) -/
theorem C52_dates_panic_iff_partial (c : Cfg) (hp : c.profile = .debug) (iso : Iso) (now now' : Moment) (d : PDate) (t rest : List Char)
    (h : DateText iso d t rest) (hd : d.exact = .today ∨ d.exact = .yesterday ∨ d.exact = .tomorrow) (hr : Stop rest) :
    parse c iso now now' (t ++ rest) = .panic ↔
      ∃ op e, d.offset = some (op, e) ∧ ∃ a ∈ exprAmounts e, a.unit = .week ∧ 2 ^ 63 ≤ 7 * a.number := by
  rw [parse_dateText h hr]
  cases h with
  | mk he ho =>
    rename_i dt ot e o
    obtain ⟨b, hb⟩ : ∃ b, e.intoTimetype c now = .ok b := by
      simp only at hd
      rcases hd with rfl | rfl | rfl <;> exact ⟨_, rfl⟩
    simp only [PDate.intoTimetype, hb]
    cases ho with
    | none => exact ⟨fun h => (by cases h), fun ⟨_, _, h, _⟩ => (by cases h)⟩
    | some hb1 hb2 hx =>
      rename_i op x b1 b2 t'
      rcases expr_checked c hp x (exprText_pos hx) with ⟨h1, h2⟩ | ⟨h1, v, h2⟩
      · refine ⟨fun _ => ⟨op, x, rfl, h1⟩, fun _ => ?_⟩
        cases op <;> simp only [h2] <;> rfl
      · constructor
        · intro h
          cases op <;> simp only [h2] at h <;> cases h
        · rintro ⟨op', x', h3, h4⟩
          cases h3
          exact absurd h4 h1

example : ExprText (.single ⟨1317624576693539402, .week⟩) "1317624576693539402 weeks".toList ∧
    (∃ a ∈ exprAmounts (.single ⟨1317624576693539402, .week⟩), a.unit = .week ∧ 2 ^ 63 ≤ 7 * a.number) ∧
    DateText noIso ⟨.today, some (.plus, .single ⟨1317624576693539402, .week⟩)⟩ "today + 1317624576693539402 weeks".toList [] := by
  have h : ExprText (.single ⟨1317624576693539402, .week⟩) "1317624576693539402 weeks".toList :=
    ExprText.single (b := []) (AmountText.number (b := []) (ds := "1317624576693539402".toList) (b' := " ".toList) (unit := .week)
      (name := "weeks") (by decide) (by decide) (by decide) (by decide) (by decide)) (by decide)
  exact ⟨h, ⟨_, by simp [exprAmounts]; rfl, rfl, by decide⟩,
    DateText.mk (dt := "today".toList) (ExactText.today _) (OffsetText.some (b := " ".toList) (b' := " ".toList) (by decide) (by decide) h)⟩

/-- **C46, the value.** Unless a number of weeks is too large, `parse` returns the expression written in the text, with its
operators grouped to the right and with seven days for a week (`AmountExpr.tree`, Spec/Tree.lean), in both build profiles. -/
theorem C46_value (c : Cfg) (iso : Iso) (now now' : Moment) (e : AmountExpr) (t : List Char) (h : ExprText e t)
    (hi : NoIso iso t) (hi' : NoIso iso (pastBlanks t)) (hw : ∀ a ∈ exprAmounts e, a.unit = .week → 7 * a.number < 2 ^ 63) :
    parse c iso now now' t = .ok (.timeType e.tree.toTT) := by
  rw [parse_wholeExpr c iso now now' e t h hi hi', e.into_tree]
  · rfl
  · have hp := exprText_pos h
    clear h hi hi'
    induction e with
    | single a =>
      intro hu
      have h1 := hw a (by simp [exprAmounts]) hu
      have h2 : (0 : Int) ≤ a.number := hp
      unfold InI64; omega
    | cons a op e ih =>
      refine ⟨fun hu => ?_, ih (fun x hx => hw x (by simp [exprAmounts, hx])) hp.2⟩
      have h1 := hw a (by simp [exprAmounts]) hu
      have h2 : (0 : Int) ≤ a.number := hp.1
      unfold InI64; omega

/-- `"2 weeks - 3 hours + 1 day"` stands for 14 days less three hours and a day. -/
example : (AmountExpr.cons ⟨2, .week⟩ .minus (.cons ⟨3, .hour⟩ .plus (.single ⟨1, .day⟩))).tree.toTT =
      .days 14 - (.hours 3 + .days 1) ∧
    (∀ a ∈ exprAmounts (AmountExpr.cons ⟨2, .week⟩ .minus (.cons ⟨3, .hour⟩ .plus (.single ⟨1, .day⟩))),
      a.unit = .week → 7 * a.number < 2 ^ 63) ∧
    parse (std .debug) noIso (at_ 2017 6 15 12 0 0) (at_ 2017 6 15 12 0 0) "2 weeks - 3 hours + 1 day".toList =
      .ok (.timeType (.days 14 - (.hours 3 + .days 1))) := by
  refine ⟨rfl, ?_, by decide +kernel⟩
  intro a ha hu
  simp only [exprAmounts, List.mem_cons, List.not_mem_nil, or_false] at ha
  rcases ha with rfl | rfl | rfl <;> decide

end Props
