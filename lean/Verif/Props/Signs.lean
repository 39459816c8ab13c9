import Verif.Props.ParserAmounts

/-!
# C49: the sign of every term of an amount expression
-/

namespace Spec
open Kairos Kairos.Parser

/-- The terms of an amount expression in seconds, each with the number of `-` before it. -/
def terms (minuses : Nat) : AmountExpr → List (Int × Nat)
  | .single a => [(a.number * unitSecs a.unit, minuses)]
  | .cons a op e => (a.number * unitSecs a.unit, minuses) :: terms (minuses + if op = .minus then 1 else 0) e

/-- A term counts negatively exactly if an odd number of `-` stands before it. -/
def signed (x : Int × Nat) : Int := if x.2 % 2 = 1 then -x.1 else x.1

end Spec

namespace Props
open Kairos Kairos.Parser Spec

theorem terms_sum (e : AmountExpr) : ∀ k, ((terms k e).map signed).sum = (if k % 2 = 1 then -exprSecs e else exprSecs e) := by
  induction e with
  | single a => intro k; simp [terms, signed, exprSecs]
  | cons a op e ih =>
    intro k
    simp only [terms, List.map_cons, List.sum_cons, ih, signed]
    cases op with
    | plus =>
      simp only [exprSecs, reduceCtorEq, if_false, Nat.add_zero]
      split <;> omega
    | minus =>
      simp only [exprSecs, if_true]
      by_cases h : k % 2 = 1
      · rw [if_pos h, if_neg (by omega), if_pos h]; omega
      · rw [if_neg h, if_pos (by omega), if_neg h]; omega

/-- **C49, what happens instead.** In the value of a text every amount counts negatively exactly if an odd number of `-` stands before
it, however many of them are not directly before it. -/
theorem C49_signs_partial (c : Cfg) (iso : Iso) (now now' : Moment) (e : AmountExpr) (t : List Char)
    (h : ExprText e t) (hi : NoIso iso t) (hi' : NoIso iso (pastBlanks t)) (hm : exprMag e ≤ 9223372036854775807) :
    ∃ v r, parse c iso now now' t = .ok (.timeType v) ∧ calculate c v = .ok r ∧
      r.getSeconds c = .ok ((terms 0 e).map signed).sum := by
  obtain ⟨v, r, h1, h2, -, h3⟩ := C50_value c iso now now' e t h hi hi' hm
  refine ⟨v, r, h1, h2, ?_⟩
  rw [h3, terms_sum]
  simp

/-- `10min - 5min - 3min`: the third amount has two `-` before it and counts positively. -/
example : terms 0 (.cons ⟨10, .minute⟩ .minus (.cons ⟨5, .minute⟩ .minus (.single ⟨3, .minute⟩))) = [(600, 0), (300, 1), (180, 2)] := by
  decide

end Props
