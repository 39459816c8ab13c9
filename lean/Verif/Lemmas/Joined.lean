import Verif.Spec.Joined

/-!
# Amount expressions with an operator between them
-/

namespace Props
open Kairos Kairos.Parser Spec

/-- Two amount expressions with an operator between them, as the grammar nests them. -/
def joined : AmountExpr → Operator → AmountExpr → AmountExpr
  | .single a, op, f => .cons a op f
  | .cons a o e, op, f => .cons a o (joined e op f)

theorem count_blanks {b : List Char} (h : Blanks b) : b.count '-' = 0 := by
  rw [List.count_eq_zero]
  intro hm
  have := h _ hm
  revert this; decide

theorem count_amount {a : Amount} {t : List Char} (h : AmountText a t) : t.count '-' = 0 := by
  cases h with
  | number hb hd hb' hn _ =>
    rename_i b ds b' unit name _
    have h1 : ds.count '-' = 0 := by
      rw [List.count_eq_zero]
      intro hm
      have := hd.2 _ hm
      revert this; decide
    have h2 : name.toList.count '-' = 0 := by
      have : ∀ u : TimeUnit, ∀ n ∈ spellings u, n.toList.count '-' = 0 := by
        intro u; cases u <;> decide +kernel
      exact this _ _ hn
    simp only [List.count_append, count_blanks hb, count_blanks hb', h1, h2]
  | alias unit => cases unit <;> decide +kernel

theorem exprText_joined {e f : AmountExpr} {t s b : List Char} (he : ExprText e t) (hf : ExprText f s) (hb : Blanks b) (op : Operator) :
    ExprText (joined e op f) (t ++ opChar op :: (b ++ s)) := by
  induction he with
  | single ha hb0 => exact .cons ha hb0 hb hf
  | cons ha hb0 hb1 _ ih =>
    rename_i o _ _ _ _ _ _
    have := ExprText.cons (op := o) ha hb0 hb1 ih
    simpa [joined, List.append_assoc] using this

theorem mag_joined (e f : AmountExpr) (op : Operator) : exprMag (joined e op f) = exprMag e + exprMag f := by
  induction e with
  | single a => simp [joined, exprMag]
  | cons a o e ih => simp only [joined, exprMag, ih]; omega

theorem secs_joined {e : AmountExpr} {t : List Char} (h : ExprText e t) (op : Operator) (f : AmountExpr) :
    exprSecs (joined e op f) =
      opValue (if t.count '-' % 2 = 0 then op else opposite op) (exprSecs e) (exprSecs f) := by
  induction h with
  | single ha hb =>
    rw [List.count_append, count_amount ha, count_blanks hb]
    cases op <;> simp [joined, exprSecs, opValue]
  | cons ha hb hb' he ih =>
    rename_i a o e t b b' t'
    have hc : (t ++ b ++ opChar o :: (b' ++ t')).count '-' = t'.count '-' + (if o = .minus then 1 else 0) := by
      rw [List.count_append, List.count_append, count_amount ha, count_blanks hb, List.count_cons, List.count_append, count_blanks hb']
      cases o <;> simp [opChar]
    rw [hc]
    cases o with
    | plus =>
      simp only [joined, exprSecs, ih, reduceCtorEq, if_false, Nat.add_zero]
      split <;> cases op <;> simp [opValue, opposite] <;> omega
    | minus =>
      simp only [joined, exprSecs, ih, if_true]
      by_cases h : t'.count '-' % 2 = 0
      · rw [if_pos h, if_neg (by omega)]; cases op <;> simp [opValue, opposite] <;> omega
      · rw [if_neg h, if_pos (by omega)]; cases op <;> simp [opValue, opposite] <;> omega

end Props
