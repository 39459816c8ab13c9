import Verif.Lemmas.Respaced
import Verif.Tests.Parser

/-!
# Lemmas: texts with other blanks, and the ISO dates of the tests
-/

namespace Spec
open Kairos Kairos.Parser Nom

theorem respaced_symm {e : Prop} {t t' : List Char} (h : Respaced e t t') : Respaced e t' t := by
  induction h with
  | nil => exact .nil
  | char hc _ ih => exact .char hc ih
  | blanks hb hb' ne ne' _ ih => exact .blanks hb' hb ne' ne ih
  | ending he hb hb' => exact .ending he hb' hb

theorem same_digits {e : Prop} {n : Nat} {t t' : List Char} (h : Respaced e t t') (h1 : (t.take n).length = n)
    (h2 : (t.take n).all isDigit = true) : t'.take n = t.take n ∧ Respaced e (t.drop n) (t'.drop n) := by
  have hb : ∀ ch ∈ t.take n, ¬ Blank ch := fun ch hm hbl => by
    have := List.all_eq_true.1 h2 ch hm
    rcases hbl with rfl | rfl | rfl | rfl <;> revert this <;> decide
  obtain ⟨h3, h4⟩ := h.word _ hb
  have hp : (t.take n).isPrefixOf t = true := List.isPrefixOf_iff_prefix.2 (List.take_prefix _ _)
  have := h4 hp
  rw [h1] at this
  have hp' := List.isPrefixOf_iff_prefix.1 (h3 ▸ hp)
  have := List.prefix_iff_eq_take.1 hp'
  rw [h1] at this
  exact ⟨this.symm, by assumption⟩

theorem digitsN_same {e : Prop} (n : Nat) {t t' : List Char} (h : Respaced e t t') :
    SameRead e (whatIsRead (Tests.Parser.digitsN n t)) (whatIsRead (Tests.Parser.digitsN n t')) := by
  unfold Tests.Parser.digitsN
  by_cases h1 : (t.take n).length = n ∧ (t.take n).all isDigit = true
  · obtain ⟨h2, h3⟩ := same_digits h h1.1 h1.2
    rw [if_pos h1, h2, if_pos h1]
    exact .same h3
  · rw [if_neg h1]
    by_cases h2 : (t'.take n).length = n ∧ (t'.take n).all isDigit = true
    · have := (same_digits (respaced_symm h) h2.1 h2.2).1
      rw [this] at h1
      exact absurd h2 h1
    · rw [if_neg h2]; exact .nothing

theorem tok_same {e : Prop} {w : String} (hw : ∀ ch ∈ w.toList, ¬ Blank ch) {t t' : List Char} (h : Respaced e t t') :
    SameRead e (whatIsRead (tok w t)) (whatIsRead (tok w t')) := by
  rw [wir_tok, wir_tok]
  exact h.longest fun v hv => by rw [List.mem_singleton] at hv; subst hv; exact hw

/-- Both assumptions hold of the parser of the tests. -/
theorem extIso_blanks (e : Prop) : IsoWithoutBlanks e Tests.Parser.extIso := by
  have hd : ∀ {t t'}, Respaced e t t' →
      SameRead e (whatIsRead (Tests.Parser.extDate t)) (whatIsRead (Tests.Parser.extDate t')) := fun h => by
    unfold Tests.Parser.extDate
    simp only [wir_bind, wir_ret]
    exact (digitsN_same 4 h).bind fun _ _ _ h => (tok_same (by decide) h).bind fun _ _ _ h => (digitsN_same 2 h).bind fun _ _ _ h =>
      (tok_same (by decide) h).bind fun _ _ _ h => (digitsN_same 2 h).bind fun _ _ _ h => .same h
  refine ⟨fun h => ?_, hd⟩
  show SameRead e (whatIsRead (Tests.Parser.extDatetime _)) (whatIsRead (Tests.Parser.extDatetime _))
  unfold Tests.Parser.extDatetime
  simp only [wir_bind, wir_ret]
  exact (hd h).bind fun _ _ _ h => (tok_same (by decide) h).bind fun _ _ _ h => (digitsN_same 2 h).bind fun _ _ _ h =>
    (tok_same (by decide) h).bind fun _ _ _ h => (digitsN_same 2 h).bind fun _ _ _ h => (tok_same (by decide) h).bind fun _ _ _ h =>
    (digitsN_same 2 h).bind fun _ _ _ h => .same h

theorem respaced_refl (e : Prop) : ∀ t : List Char, Respaced e t t
  | [] => .nil
  | ch :: t => by
    by_cases h : Blank ch
    · exact .blanks (b := [ch]) (b' := [ch]) (by simpa [Blanks] using h) (by simpa [Blanks] using h) (by simp) (by simp)
        (respaced_refl e t)
    · exact .char h (respaced_refl e t)

theorem respaced_append {e : Prop} (s : List Char) {t t' : List Char} (h : Respaced e t t') : Respaced e (s ++ t) (s ++ t') := by
  induction s with
  | nil => exact h
  | cons ch s ih =>
    by_cases hc : Blank ch
    · exact .blanks (b := [ch]) (b' := [ch]) (by simpa [Blanks] using hc) (by simpa [Blanks] using hc) (by simp) (by simp) ih
    · exact .char hc ih

end Spec
