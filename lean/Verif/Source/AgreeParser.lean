import Verif.Source.AgreeIter
import Verif.Source.Parser
import Verif.Lemmas.Parser

/-! The hand-written model of src/parser agrees with the mechanical translation of its text. -/

namespace Kairos.Source.Parser

open Kairos.Parser

/-! ### Trees to values -/

theorem UnitAlias.into_eq (u : UnitAlias) : UnitAlias.into u = u.into := by cases u <;> rfl

theorem Amount.into_timetype_eq (c : Cfg) (a : Amount) : Amount.into_timetype c a = a.intoTimetype c := by
  rcases a with ⟨n, u⟩
  cases u
  case week =>
    unfold Amount.into_timetype Amount.intoTimetype
    simp only [TimeType.weeks_eq]
    cases TT.weeks c n <;> rfl
  all_goals rfl

theorem AmountExpr.into_timetype_eq (c : Cfg) (a : AmountExpr) :
    AmountExpr.into_timetype c a = a.intoTimetype c := by
  induction a with
  | single a =>
    rw [AmountExpr.into_timetype.eq_def]
    simp only [AmountExpr.amount, AmountExpr.next, Amount.into_timetype_eq, AmountExpr.intoTimetype]
    cases a.intoTimetype c <;> rfl
  | cons a op n ih =>
    rw [AmountExpr.into_timetype.eq_def]
    simp only [AmountExpr.amount, AmountExpr.next, Amount.into_timetype_eq, ih]
    cases op <;> simp only [AmountExpr.intoTimetype] <;>
      cases a.intoTimetype c <;> cases n.intoTimetype c <;> rfl

theorem moment_fun (c : Cfg) : TimeType.moment c = fun m => .ok (.moment m) := rfl

theorem ExactDate.into_timetype_eq (c : Cfg) (now : Moment) (e : ExactDate) :
    ExactDate.into_timetype c now e = e.intoTimetype c now := by
  rcases e with _ | _ | _ | d | ⟨d, h, m, s, ms, zh, zm⟩
  · rfl
  · rfl
  · rfl
  · rcases d with ⟨y, m, d⟩ | ⟨y, w, d⟩ | ⟨y, d⟩ <;>
      simp only [ExactDate.into_timetype, ExactDate.intoTimetype, newYear, TimeType.weeks_eq, moment_fun, OutE.bind_assoc',
        OutE.ok_bind, TimeType.add_eq, TimeType.days_eq]
  · rcases d with ⟨y, m, d⟩ | ⟨y, w, d⟩ | ⟨y, d⟩ <;>
      simp only [ExactDate.into_timetype, ExactDate.intoTimetype, newYear, TimeType.weeks_eq, moment_fun, OutE.bind_assoc',
        OutE.ok_bind, TimeType.add_eq, TimeType.days_eq, TimeType.hours_eq, TimeType.minutes_eq, TimeType.seconds_eq]
    cases fromYmdOpt c y m d <;> rfl

theorem PDate.into_timetype_eq (c : Cfg) (now : Moment) (d : PDate) :
    PDate.into_timetype c now d = d.intoTimetype c now := by
  rcases d with ⟨e, o⟩
  unfold PDate.into_timetype PDate.intoTimetype
  simp only [ExactDate.into_timetype_eq]
  rcases o with _ | ⟨op, a⟩
  · rfl
  · cases op <;> simp only [AmountExpr.into_timetype_eq] <;> rfl

theorem PTimeType.into_timetype_eq (c : Cfg) (now : Moment) (t : PTimeType) :
    PTimeType.into_timetype c now t = t.intoTimetype c now := by
  cases t with
  | date d => exact PDate.into_timetype_eq c now d
  | amountExpr a => exact AmountExpr.into_timetype_eq c a

theorem PIterator.into_user_iterator_eq (c : Cfg) (now now' : Moment) (p : PIterator) :
    PIterator.into_user_iterator c now now' p = p.intoUserIterator c now now' := by
  rcases p with ⟨d, spec, u⟩
  unfold PIterator.into_user_iterator PIterator.intoUserIterator
  have hn : ∀ e : TT, (do
      let t76 ← TimeType.calculate c e
      let t77 ← TimeType.get_moment c t76
      OutE.ofOption t77 ErrorKind.notADateInsideIterator) = intoNdt c e := by
    intro e
    simp only [TimeType.calculate_eq, TimeType.get_moment_eq]
    rfl
  simp only [hn, PDate.into_timetype_eq, ExactDate.into_timetype_eq, Iter.build_eq, Until.until, UntilIter.new,
    Times.times, TimesIter.new, Rs.untilIterator, OutE.bind_assoc', OutE.ok_bind]
  congr 1
  rcases spec with _ | _ | _ | _ | _ | _ | _ | ⟨i, unit⟩
  case every =>
    simp only [bind_ok, Iterspec.recur]
    cases unit <;> rfl
  all_goals simp only [bind_ok, Iterspec.recur]; rfl

theorem UserIterator.next_eq (c : Cfg) : Same (UserIterator.next c) (Kairos.Parser.UserIterator.next c) := by
  intro u
  cases u with
  | iterator i =>
    unfold UserIterator.next Kairos.Parser.UserIterator.next
    simp only [Iter.next_eq c i]
    rcases Kairos.Iter.next c i with ⟨i', r⟩
    rcases r with _ | r
    · rfl
    · cases r <;> rfl
  | timesIter s =>
    unfold UserIterator.next Kairos.Parser.UserIterator.next
    simp only [TimesIter.next_eq c (Iter.next_eq c) s]
    rcases timesNext c (Kairos.Iter.next c) s with ⟨i', r⟩
    rcases r with _ | r
    · rfl
    · cases r <;> rfl
  | untilIterator i e =>
    unfold UserIterator.next Kairos.Parser.UserIterator.next
    simp only [UntilIter.next_eq c (Iter.next_eq c) e i]
    rcases untilNext c (Kairos.Iter.next c) e i with ⟨i', r⟩
    rcases r with _ | r
    · rfl
    · cases r <;> rfl

/-! ### Parsers -/

theorem integer_eq : integer = Kairos.Parser.integer := by
  funext i
  unfold integer Kairos.Parser.integer
  have : Nom.mapRes (Nom.ws Nom.digit) Rs.fromUtf8 = Nom.ws Nom.digit := by
    funext i
    unfold Nom.mapRes Nom.bind
    cases Nom.ws Nom.digit i <;> rfl
  rw [this]

theorem unit_parser_eq : unit_parser = unitParser := rfl
theorem operator_parser_eq : operator_parser = operatorParser := rfl
theorem unit_alias_eq : unit_alias = unitAlias := rfl

theorem amount_parser_eq : amount_parser = amountParser := by
  unfold amount_parser amountParser
  rw [integer_eq]
  simp only [UnitAlias.into_eq]
  rfl

theorem amount_expr_next_eq (f : Nom.P AmountExpr) : amount_expr_next f = amountExprNext f := rfl

theorem amount_expr_body_eq (f : Nom.P AmountExpr) : amount_expr_body f = amountExprBody f := by
  unfold amount_expr_body amountExprBody
  rw [amount_parser_eq]
  rfl

/-- `amount_expr` and `amount_expr_next` refer to each other; there is exactly one parser that
satisfies the two definitions, and it is the model's. -/
theorem amount_expr_unique (f : Nom.P AmountExpr) : f = amount_expr_body f ↔ f = amountExpr := by
  rw [amount_expr_body_eq]
  constructor
  · intro h
    funext i
    suffices H : ∀ n, ∀ i : List Char, i.length ≤ n → f i = amountExpr i from H _ i (Nat.le_refl _)
    intro n
    induction n with
    | zero =>
      intro i hi
      rw [h, amountExpr_unfold]
      exact body_congr fun j hj => by omega
    | succ n ih =>
      intro i hi
      rw [h, amountExpr_unfold]
      exact body_congr fun j hj => ih j (by omega)
  · rintro rfl
    funext i
    exact amountExpr_unfold i

theorem exact_date_parser_eq (iso : Iso) : exact_date_parser iso = exactDateParser iso := rfl

theorem date_eq (iso : Iso) : date iso amountExpr = Kairos.Parser.date iso := rfl

theorem timetype_eq (iso : Iso) : timetype iso amountExpr = Kairos.Parser.timetype iso := rfl

theorem iter_spec_eq : iter_spec = iterSpec := by
  unfold iter_spec iterSpec
  rw [integer_eq]
  rfl

theorem until_spec_eq (iso : Iso) : until_spec iso = untilSpec iso := by
  unfold until_spec untilSpec
  rw [integer_eq]
  rfl

theorem iterator_eq (iso : Iso) : iterator iso amountExpr = Kairos.Parser.iterator iso := by
  unfold iterator Kairos.Parser.iterator
  rw [iter_spec_eq, until_spec_eq]
  rfl

theorem do_parse_eq (c : Cfg) (iso : Iso) (now now' : Moment) :
    do_parse c iso amountExpr now now' = doParse c iso now now' := by
  unfold do_parse doParse
  simp only [iterator_eq, timetype_eq, PIterator.into_user_iterator_eq, PTimeType.into_timetype_eq]
  have h : ∀ x : Out UserIterator,
      (do let t1 ← Rs.reify x; OutE.ok (Parsed.iterator t1) : Out Parsed) = wrapIterator x := by
    intro x; cases x <;> rfl
  simp only [h]

/-- The whole parser. `f` is any parser that satisfies the definition of `amount_expr`. -/
theorem parse_eq (c : Cfg) (iso : Iso) (f : Nom.P AmountExpr) (hf : f = amount_expr_body f)
    (now now' : Moment) (s : List Char) :
    parse c iso f now now' s = Kairos.Parser.parse c iso now now' s := by
  rw [(amount_expr_unique f).1 hf]
  unfold parse Kairos.Parser.parse
  rw [do_parse_eq]
  cases doParse c iso now now' s with
  | done rest r => cases r <;> rfl
  | error => rfl
  | incomplete => rfl

end Kairos.Source.Parser
