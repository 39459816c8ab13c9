import Verif.Lemmas.Parser
import Verif.Lemmas.AmountExact
import Verif.Spec.Tree

/-! From parsed amounts to their values. -/

namespace Kairos.Parser
open Nom Spec

/-- All `week` numbers are below 2^63 / 7. -/
def AmountExpr.WeeksFit : AmountExpr → Prop
  | .single a => a.unit = .week → InI64 (7 * a.number)
  | .cons a _ e => (a.unit = .week → InI64 (7 * a.number)) ∧ e.WeeksFit

theorem Amount.secs_tree (a : Amount) : a.tree.secs = a.number * unitSecs a.unit := by
  obtain ⟨n, u⟩ := a
  cases u <;> simp only [Amount.tree, AmtTree.secs, TUnit.secs, unitSecs] <;> omega

theorem AmountExpr.secs_tree (e : AmountExpr) : e.tree.secs = exprSecs e := by
  induction e with
  | single a => exact a.secs_tree
  | cons a op e ih => cases op <;> simp only [AmountExpr.tree, AmtTree.secs, exprSecs, ih, a.secs_tree]

theorem weeks_ok {c : Cfg} {n : Int} (h : InI64 (7 * n)) : TT.weeks c n = .ok (.days (7 * n)) := by
  unfold TT.weeks Cfg.mul Cfg.chk
  have : n * 7 = 7 * n := by omega
  rw [this, if_pos h]; rfl

theorem Amount.into_tree {c : Cfg} (a : Amount) (h : a.unit = .week → InI64 (7 * a.number)) :
    a.intoTimetype c = .ok a.tree.toTT := by
  obtain ⟨n, u⟩ := a
  cases u <;> try rfl
  exact weeks_ok (h rfl)

theorem AmountExpr.into_tree {c : Cfg} (e : AmountExpr) (h : e.WeeksFit) : e.intoTimetype c = .ok e.tree.toTT := by
  induction e with
  | single a => exact a.into_tree h
  | cons a op e ih =>
    have ha := a.into_tree (c := c) h.1
    have he := ih h.2
    cases op <;> simp only [AmountExpr.intoTimetype, ha, he, OutE.ok_bind, AmountExpr.tree, AmtTree.toTT]

/-- Numbers of parsed amounts are not negative. -/
def AmountExpr.Pos : AmountExpr → Prop
  | .single a => 0 ≤ a.number
  | .cons a _ e => 0 ≤ a.number ∧ e.Pos

theorem amountText_pos {a : Amount} {t : List Char} (h : AmountText a t) : 0 ≤ a.number := by
  cases h <;> simp

theorem exprText_pos {e : AmountExpr} {t : List Char} (h : ExprText e t) : e.Pos := by
  induction h with
  | single ha _ => exact amountText_pos ha
  | cons ha _ _ _ ih => exact ⟨amountText_pos ha, ih⟩

theorem Amount.mag_tree (a : Amount) (h : 0 ≤ a.number) : a.tree.mag = a.number * unitSecs a.unit := by
  obtain ⟨n, u⟩ := a
  simp only at h
  cases u <;> simp only [Amount.tree, AmtTree.mag, TUnit.secs, unitSecs] <;> split <;> omega

theorem AmountExpr.mag_tree (e : AmountExpr) (h : e.Pos) : e.tree.mag = exprMag e := by
  induction e with
  | single a => exact a.mag_tree h
  | cons a op e ih => cases op <;> simp only [AmountExpr.tree, AmtTree.mag, exprMag, ih h.2, a.mag_tree h.1]

theorem exprMag_nonneg {e : AmountExpr} (h : e.Pos) : 0 ≤ exprMag e := by
  have hu : ∀ u, 0 ≤ unitSecs u := by intro u; cases u <;> decide
  induction e with
  | single a => exact Int.mul_nonneg h (hu _)
  | cons a op e ih => exact Int.add_nonneg (Int.mul_nonneg h.1 (hu _)) (ih h.2)

theorem weeksFit_of_mag {e : AmountExpr} (h : e.Pos) (hm : exprMag e ≤ 9223372036854775807) : e.WeeksFit := by
  have one : ∀ a : Amount, 0 ≤ a.number → a.number * unitSecs a.unit ≤ 9223372036854775807 →
      a.unit = .week → InI64 (7 * a.number) := by
    intro a h0 h1 hu
    rw [hu] at h1
    simp only [unitSecs] at h1
    unfold InI64; omega
  have hu : ∀ u, 0 ≤ unitSecs u := by intro u; cases u <;> decide
  induction e with
  | single a => exact one a h hm
  | cons a op e ih =>
    have h1 := exprMag_nonneg h.2
    have h2 := Int.mul_nonneg h.1 (hu a.unit)
    simp only [exprMag] at hm
    exact ⟨one a h.1 (by omega), ih h.2 (by omega)⟩

/-! ### dates -/

theorem mapTok_miss {α : Type} {s : String} {v : α} {i : List Char} (h : ¬ s.toList <+: i) (r : List Char) (a : α) :
    map (tok s) (fun _ => v) i ≠ .done r a := fun e => h ⟨r, (mapTok_done e).1.symm⟩

theorem exactDate_error {iso : Iso} {i : List Char} (h : NoKeyword i) (hi : NoIso iso i) :
    exactDateParser iso i = .error := by
  unfold exactDateParser
  rw [altComplete_miss (mapTok_miss h.1), altComplete_miss (mapTok_miss h.2.1), altComplete_miss (mapTok_miss h.2.2),
    altComplete_miss, altComplete_miss, altComplete_nil]
  · intro r a e
    rw [bind_done_iff] at e
    obtain ⟨r', d, h1, -⟩ := e
    exact hi.2 _ _ h1
  · intro r a e
    rw [bind_done_iff] at e
    obtain ⟨r', d, h1, -⟩ := e
    exact hi.1 _ _ h1

theorem date_error {iso : Iso} {i : List Char} (h : NoKeyword i) (hi : NoIso iso i) : date iso i = .error := by
  unfold date
  exact bind_error (exactDate_error h hi)

theorem iterator_error {iso : Iso} {i : List Char} (h : NoKeyword (i.dropWhile isSp)) (hi : NoIso iso (i.dropWhile isSp)) :
    iterator iso i = .error := by
  unfold iterator
  rw [bind_opt_sp]
  exact bind_error (date_error h hi)

/-- Amount texts do not start with a date keyword. -/
theorem amountText_noKeyword {a : Amount} {t : List Char} (h : AmountText a t) (r : List Char) : NoKeyword (t ++ r) := by
  have head : ∀ (ch : Char) (xs i : List Char), ch ≠ 't' → ch ≠ 'y' → i = ch :: xs → NoKeyword i := by
    rintro ch xs _ h1 h2 rfl
    refine ⟨?_, ?_, ?_⟩ <;> · rintro ⟨r, e⟩; simp at e; first | exact h1 e.1.symm | exact h2 e.1.symm
  cases h with
  | number hb hd hb' hn hmax =>
    rename_i b ds b' unit name
    cases b with
    | cons x xs =>
      have hx := hb x (by simp)
      refine head x (xs ++ ds ++ b' ++ name.toList ++ r) _ ?_ ?_ (by simp) <;>
        (rintro rfl; revert hx; decide)
    | nil =>
      cases ds with
      | nil => exact absurd rfl hd.1
      | cons x xs =>
        have hx := hd.2 x (by simp)
        refine head x (xs ++ b' ++ name.toList ++ r) _ ?_ ?_ (by simp) <;>
          (rintro rfl; revert hx; decide)
  | alias unit =>
    cases unit <;> (refine ⟨?_, ?_, ?_⟩ <;> (rintro ⟨r, e⟩; simp [aliasOf] at e))

theorem exprText_noKeyword {e : AmountExpr} {t : List Char} (h : ExprText e t) (r : List Char) : NoKeyword (t ++ r) := by
  cases h with
  | single ha hb => rw [List.append_assoc]; exact amountText_noKeyword ha _
  | cons ha hb hb' he => rw [List.append_assoc, List.append_assoc]; exact amountText_noKeyword ha _

/-- `parse` on the text of an amount expression. -/
theorem exprText_readings {iso : Iso} {e : AmountExpr} {t rest : List Char} (h : ExprText e t)
    (hr : Stop rest) (hi : NoIso iso (t ++ rest)) (hi' : NoIso iso ((t ++ rest).dropWhile isSp)) :
    iterator iso (t ++ rest) = .error ∧ timetype iso (t ++ rest) = .done rest (.amountExpr e) := by
  obtain ⟨t0, h0, h1⟩ := exprText_drop h
  have hit : iterator iso (t ++ rest) = .error := by
    refine iterator_error ?_ hi'
    rw [h1]; exact exprText_noKeyword h0 _
  have htt : timetype iso (t ++ rest) = .done rest (.amountExpr e) := by
    unfold timetype alt
    rw [bind_error (date_error (exprText_noKeyword h _) hi)]
    simp only
    unfold alt
    rw [bind_done (amountExpr_text h hr)]
    rfl
  exact ⟨hit, htt⟩

theorem parse_exprText {c : Cfg} {iso : Iso} {now now' : Moment} {e : AmountExpr} {t rest : List Char} (h : ExprText e t)
    (hr : Stop rest) (hi : NoIso iso (t ++ rest)) (hi' : NoIso iso ((t ++ rest).dropWhile isSp)) :
    parse c iso now now' (t ++ rest) = (e.intoTimetype c >>= fun v => .ok (.timeType v)) := by
  obtain ⟨hit, htt⟩ := exprText_readings h hr hi hi'
  unfold parse doParse
  rw [altComplete_miss (by intro r a e; rw [bind_error hit] at e; cases e)]
  have hd : Nom.bind (timetype iso) (fun tt => ret (tt.intoTimetype c now >>= fun t => (.ok (.timeType t) : Out Parsed)))
      (t ++ rest) = .done rest (e.intoTimetype c >>= fun v => .ok (.timeType v)) := by
    rw [bind_done htt]; rfl
  rw [altComplete_hit hd]

end Kairos.Parser
