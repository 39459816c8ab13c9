import Verif.Lemmas.ParseDepth
import Verif.Props.ParserAmounts
import Verif.Props.Cost

/-!
# C140: how deep reading a text nests

`amountExprN n` (`Model/ParserTimeType.lean`) is the parser of amount expressions with room for `n` calls of itself
inside each other; where the Rust code would go deeper it gives up, as if nothing readable followed.
-/

namespace Props
open Kairos Kairos.Parser Spec

/-- One more level than there are `+` and `-` in the text is always enough, whatever the text.
(Partial: depends on the text.) -/
theorem C140_enough_partial (i : List Char) (n : Nat) (hn : i.countP (fun ch => ch = '+' || ch = '-') < n) :
    amountExprN n i = amountExpr i := amountExprN_ops n i hn

example : "5min - 12days+weekly".toList.countP (fun ch => ch = '+' || ch = '-') < 3 := by decide

/-- A text of `k` amounts takes exactly `k` levels: with fewer, only its beginning is read.
(Partial: the depth grows with the text.) -/
theorem C140_exactly_partial (e : AmountExpr) (t rest : List Char) (h : ExprText e t) (hr : Stop rest) (n : Nat) :
    amountExprN n (t ++ rest) = .done rest e ↔ e.amounts ≤ n := by
  constructor
  · exact amountExprN_amounts n _ _ _
  · exact amountExprN_text h hr

example := C140_exactly_partial _ _ "!garbage".toList sample_amounts (by intro ch h; cases h; decide)

/-- The text `1d+1d+…+1d`, with `k` times a `+`. -/
def longText : Nat → List Char
  | 0 => ['1', 'd']
  | k + 1 => '1' :: 'd' :: '+' :: longText k

/-- What it stands for. -/
def longExpr : Nat → AmountExpr
  | 0 => .single ⟨1, .day⟩
  | k + 1 => .cons ⟨1, .day⟩ .plus (longExpr k)

theorem longText_spec (k : Nat) : ExprText (longExpr k) (longText k) ∧ (longExpr k).amounts = k + 1 := by
  have ha : AmountText ⟨1, .day⟩ ['1', 'd'] :=
    .number (b := []) (ds := ['1']) (b' := []) (unit := .day) (name := "d") (by decide) (by decide) (by decide) (by decide) (by decide)
  induction k with
  | zero => exact ⟨.single (b := []) ha (by decide), rfl⟩
  | succ k ih =>
    exact ⟨.cons (op := .plus) (b := []) (b' := []) ha (by decide) (by decide) ih.1,
      by simp only [longExpr, AmountExpr.amounts, ih.2]⟩

/-- No depth is enough for all texts: for every `n` there is a text of `3 · n + 2` characters that is read whole, but
not with room for `n` nested calls. -/
theorem C140_refuted (n : Nat) :
    ∃ (t : List Char) (e : AmountExpr), t.length = 3 * n + 2 ∧ amountExpr t = .done [] e ∧ amountExprN n t ≠ .done [] e := by
  have hs : Stop [] := by intro ch h; cases h
  refine ⟨longText n, longExpr n, ?_, ?_, ?_⟩
  · induction n with
    | zero => rfl
    | succ n ih => simp only [longText, List.length_cons, ih]; omega
  · have := C46_round_trip _ _ [] (longText_spec n).1 hs
    simpa using this
  · intro h
    have := (C140_exactly_partial _ _ [] (longText_spec n).1 hs n).1 (by simpa using h)
    rw [(longText_spec n).2] at this
    omega

/-- Calculating what was read nests deeper still: a text of `k ≥ 2` amounts takes more than `2 · k - 2` levels.
(Partial: the depth grows with the text.) -/
theorem C140_calculating_partial (c : Cfg) (e : AmountExpr) (t : List Char) (h : ExprText e t)
    (hm : exprMag e ≤ 9223372036854775807) (hk : 2 ≤ e.amounts) :
    ∃ v, amountsMean c e = .value v ∧ ∀ n, n ≤ 2 * e.amounts - 2 → Eval.run c n (.calculate v) = .oof := by
  unmean
  refine ⟨_, e.into_tree (weeksFit_of_mag (exprText_pos h) hm), fun n hn => ?_⟩
  cases n with
  | zero => rfl
  | succ n =>
    cases e with
    | single a => simp [AmountExpr.amounts] at hk
    | cons a op e =>
      have := run_tree c e a n (by simp only [AmountExpr.amounts] at hn; omega)
      cases op
      · exact this.1
      · exact this.2

example : exprMag (longExpr 5) ≤ 9223372036854775807 ∧ 2 ≤ (longExpr 5).amounts := by decide

end Props
