import Verif.Lemmas.ParserValue
import Verif.Lemmas.EvalEqs
import Verif.Spec.Length

/-! How deep the parser of amount expressions nests. -/

namespace Kairos.Parser
open Nom Spec

/-- Number of `+` and `-` in a text. -/
def operators (i : List Char) : Nat := i.countP fun ch => ch = '+' || ch = '-'

theorem operators_dropBlanks (r : List Char) : operators (r.dropWhile isSp) ≤ operators r := by
  obtain ⟨b, -, e⟩ := split_blanks r
  conv => rhs; rw [e]
  simp [operators]

/-- The body of `amount_expr` uses the recursive parser only on input with fewer operators. -/
theorem body_congr_ops {r1 r2 : P AmountExpr} {i : List Char} (h : ∀ j, operators j < operators i → r1 j = r2 j) :
    amountExprBody r1 i = amountExprBody r2 i := by
  unfold amountExprBody
  cases ha : amountParser i with
  | error => rw [bind_error ha, bind_error ha]
  | incomplete => rw [bind_incomplete ha, bind_incomplete ha]
  | done r a =>
    rw [bind_done ha, bind_done ha, bind_opt_sp, bind_opt_sp]
    obtain ⟨t, ht, rfl⟩ := amountParser_done ha
    have hlen : operators (r.dropWhile isSp) ≤ operators (t ++ r) := by
      refine Nat.le_trans (operators_dropBlanks r) ?_
      simp [operators]
    have : amountExprNext r1 (r.dropWhile isSp) = amountExprNext r2 (r.dropWhile isSp) := by
      unfold amountExprNext
      cases ho : operatorParser (r.dropWhile isSp) with
      | error => rw [bind_error ho, bind_error ho]
      | incomplete => rw [bind_incomplete ho, bind_incomplete ho]
      | done r' op =>
        rw [bind_done ho, bind_done ho, bind_opt_sp, bind_opt_sp]
        have e := operator_done ho
        have hlen' : operators (r'.dropWhile isSp) < operators (t ++ r) := by
          have h1 := operators_dropBlanks r'
          have h2 : operators (opChar op :: r') = operators r' + 1 := by cases op <;> simp [operators, opChar]
          rw [e] at hlen
          omega
        simp only [Nom.bind, h _ hlen']
    simp only [Nom.bind, opt, complete, this]

theorem amountExprN_ops : ∀ (n : Nat) (i : List Char), operators i < n → amountExprN n i = amountExpr i
  | 0, _, h => by omega
  | n + 1, i, h => by
    rw [amountExpr_unfold]
    exact body_congr_ops fun j hj => amountExprN_ops n j (by omega)

/-- With room for `n` nested calls no more than `n` amounts are read. -/
theorem amountExprN_amounts : ∀ (n : Nat) (i r : List Char) (e : AmountExpr), amountExprN n i = .done r e → e.amounts ≤ n
  | 0, _, _, _, h => by cases h
  | n + 1, i, r, e, h => by
    simp only [amountExprN, amountExprBody] at h
    cases ha : amountParser i with
    | error => rw [bind_error ha] at h; cases h
    | incomplete => rw [bind_incomplete ha] at h; cases h
    | done r1 a =>
      rw [bind_done ha, bind_opt_sp] at h
      cases hn : amountExprNext (amountExprN n) (r1.dropWhile isSp) with
      | error =>
        simp only [Nom.bind, opt, complete, hn, IRes.andThen, ret] at h
        cases h
        simp [AmountExpr.mk, AmountExpr.amounts]
      | incomplete =>
        simp only [Nom.bind, opt, complete, hn, IRes.andThen, ret] at h
        cases h
        simp [AmountExpr.mk, AmountExpr.amounts]
      | done r2 x =>
        obtain ⟨op, e'⟩ := x
        simp only [Nom.bind, opt, complete, hn, IRes.andThen, ret] at h
        cases h
        have : e'.amounts ≤ n := by
          unfold amountExprNext at hn
          cases ho : operatorParser (r1.dropWhile isSp) with
          | error => rw [bind_error ho] at hn; cases hn
          | incomplete => rw [bind_incomplete ho] at hn; cases hn
          | done r3 op' =>
            rw [bind_done ho, bind_opt_sp] at hn
            cases hx : amountExprN n (r3.dropWhile isSp) with
            | error => rw [bind_error hx] at hn; cases hn
            | incomplete => rw [bind_incomplete hx] at hn; cases hn
            | done r4 e'' =>
              rw [bind_done hx] at hn
              simp only [ret] at hn
              cases hn
              exact amountExprN_amounts n _ _ _ hx
        simp only [AmountExpr.mk, AmountExpr.amounts]
        omega

/-- Room for as many calls as there are amounts is enough. -/
theorem amountExprN_text {e : AmountExpr} {t rest : List Char} (h : ExprText e t) (hr : Stop rest) {n : Nat}
    (hn : e.amounts ≤ n) : amountExprN n (t ++ rest) = .done rest e := by
  induction e generalizing t n with
  | single a =>
    cases h with
    | single ha hb =>
    rename_i t b
    cases n with
    | zero => simp [AmountExpr.amounts] at hn
    | succ n =>
    rw [amountExprN, List.append_assoc]
    unfold amountExprBody
    rw [bind_done (amountParser_text ha (noLetter_blanks hb (fun ch hc => (hr ch hc).1))), bind_opt_sp,
      drop_blanks hb (fun ch hc => (hr ch hc).2.1)]
    have hno : ∀ r x, amountExprNext (amountExprN n) rest ≠ .done r x := by
      intro r x hx
      unfold amountExprNext at hx
      rw [bind_done_iff] at hx
      obtain ⟨r', op, ho, -⟩ := hx
      have e := operator_done ho
      have := hr (opChar op) (by rw [e]; rfl)
      cases op
      · exact this.2.2.1 rfl
      · exact this.2.2.2 rfl
    rw [bind_done (opt_complete_none hno)]
    rfl
  | cons a op e ih =>
    cases h with
    | cons ha hb hb' he =>
    rename_i t b b' t'
    cases n with
    | zero => simp [AmountExpr.amounts] at hn
    | succ n =>
    rw [amountExprN]
    have hassoc : t ++ b ++ opChar op :: (b' ++ t') ++ rest = t ++ (b ++ (opChar op :: (b' ++ (t' ++ rest)))) := by simp
    rw [hassoc]
    unfold amountExprBody
    have hop : NoLetter (opChar op :: (b' ++ (t' ++ rest))) := by
      intro ch hc; cases hc; cases op <;> decide
    rw [bind_done (amountParser_text ha (noLetter_blanks hb hop)), bind_opt_sp,
      drop_blanks hb (by intro ch hc; cases hc; cases op <;> decide)]
    have hnext : amountExprN n ((b' ++ (t' ++ rest)).dropWhile isSp) = .done rest e := by
      rw [drop_append_blanks hb']
      obtain ⟨t0, h1, h2⟩ := exprText_drop he
      rw [h2]
      exact ih h1 (by simp only [AmountExpr.amounts] at hn; omega)
    have hx : amountExprNext (amountExprN n) (opChar op :: (b' ++ (t' ++ rest))) = .done rest (op, e) := by
      unfold amountExprNext
      rw [bind_done (operator_char op _), bind_opt_sp, bind_done hnext]
      rfl
    rw [bind_done (opt_done (complete_done hx))]
    rfl

theorem Amount.toTT_amt (a : Amount) : ∃ u n, a.tree.toTT = amt u n := by
  obtain ⟨k, u⟩ := a
  cases u <;> exact ⟨_, _, rfl⟩

theorem run_add_amt (c : Cfg) (u : TUnit) (k : Int) (x : TT) (n : Nat) (hx : x.isMoment = false) :
    (∃ v, Eval.run c (n + 1) (.add (amt u k) x) = Eval.run c n (.addTo v k x)) ∧
      ∃ v, Eval.run c (n + 1) (.sub (amt u k) x) = Eval.run c n (.subFrom v k x) := by
  cases u <;> cases x <;> first | exact ⟨⟨_, rfl⟩, ⟨_, rfl⟩⟩ | simp [TT.isMoment] at hx

theorem run_addTo_op (c : Cfg) (v : AmtUnit) (k : Int) (x y : TT) (n : Nat) :
    (Eval.run c n (.add x y) = .oof → Eval.run c (n + 1) (.addTo v k (x + y)) = .oof ∧
      Eval.run c (n + 1) (.subFrom v k (x + y)) = .oof) ∧
    (Eval.run c n (.sub x y) = .oof → Eval.run c (n + 1) (.addTo v k (x - y)) = .oof ∧
      Eval.run c (n + 1) (.subFrom v k (x - y)) = .oof) := by
  have e1 : x + y = .addition x y := rfl
  have e2 : x - y = .subtraction x y := rfl
  constructor <;> intro h <;> constructor <;> rw [Eval.run] <;> cases v <;> simp only [e1, e2, Eval.body,
    Eval.addToSeconds, Eval.addToMinutes, Eval.addToHours, Eval.addToDays, Eval.addToMonths, Eval.addToYears,
    Eval.subFromSeconds, Eval.subFromMinutes, Eval.subFromHours, Eval.subFromDays, Eval.subFromMonths,
    Eval.subFromYears, h] <;> rfl

theorem AmountExpr.toTT_not_moment (e : AmountExpr) : e.tree.toTT.isMoment = false := by
  cases e with
  | single a => obtain ⟨u, n, h⟩ := a.toTT_amt; simp only [AmountExpr.tree, h]; cases u <;> rfl
  | cons a op e => cases op <;> rfl

/-- Calculating what was read nests twice as deep. -/
theorem run_tree (c : Cfg) : ∀ (e : AmountExpr) (a : Amount) (n : Nat), n + 1 ≤ 2 * e.amounts →
    Eval.run c n (.add a.tree.toTT e.tree.toTT) = .oof ∧ Eval.run c n (.sub a.tree.toTT e.tree.toTT) = .oof
  | _, _, 0, _ => ⟨rfl, rfl⟩
  | e, a, 1, _ => by
    obtain ⟨u, k, h⟩ := a.toTT_amt
    rw [h]
    obtain ⟨⟨_, h1⟩, ⟨_, h2⟩⟩ := run_add_amt c u k e.tree.toTT 0 e.toTT_not_moment
    rw [h1, h2]; exact ⟨rfl, rfl⟩
  | .single _, _, n + 2, hn => by simp [AmountExpr.amounts] at hn
  | .cons b op e, a, n + 2, hn => by
    obtain ⟨u, k, h⟩ := a.toTT_amt
    have ih := run_tree c e b n (by simp only [AmountExpr.amounts] at hn; omega)
    rw [h]
    obtain ⟨⟨v, h1⟩, ⟨w, h2⟩⟩ := run_add_amt c u k _ (n + 1) (AmountExpr.cons b op e).toTT_not_moment
    rw [h1, h2]
    cases op
    · exact ⟨((run_addTo_op c v k _ _ n).1 ih.1).1, ((run_addTo_op c w k _ _ n).1 ih.1).2⟩
    · exact ⟨((run_addTo_op c v k _ _ n).2 ih.2).1, ((run_addTo_op c w k _ _ n).2 ih.2).2⟩

end Kairos.Parser
