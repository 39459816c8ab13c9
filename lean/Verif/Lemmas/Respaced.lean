import Verif.Spec.Respaced
import Verif.Lemmas.Reader

/-!
# Lemmas: reading texts that differ only in their blanks
-/

namespace Spec
open Kairos Kairos.Parser Nom

variable {e : Prop} {α β : Type}

theorem pastBlanks_cons_blank {ch : Char} {t : List Char} (h : Blank ch) : pastBlanks (ch :: t) = pastBlanks t := by
  unfold Blank at h; simp [pastBlanks, h]

theorem pastBlanks_cons_char {ch : Char} {t : List Char} (h : ¬ Blank ch) : pastBlanks (ch :: t) = ch :: t := by
  unfold Blank at h; simp [pastBlanks, h]

theorem pastBlanks_append {b t : List Char} (h : Blanks b) : pastBlanks (b ++ t) = pastBlanks t := by
  induction b with
  | nil => rfl
  | cons x xs ih =>
    rw [List.cons_append, pastBlanks_cons_blank (h x (by simp)), ih fun y hy => h y (by simp [hy])]

theorem Respaced.past {t t' : List Char} (h : Respaced e t t') : Respaced e (pastBlanks t) (pastBlanks t') := by
  induction h with
  | nil => exact .nil
  | char hc h _ => rw [pastBlanks_cons_char hc, pastBlanks_cons_char hc]; exact .char hc h
  | blanks hb hb' _ _ _ ih => rw [pastBlanks_append hb, pastBlanks_append hb']; exact ih
  | ending _ hb hb' =>
    have h1 := pastBlanks_append (t := []) hb
    have h2 := pastBlanks_append (t := []) hb'
    rw [List.append_nil] at h1 h2
    rw [h1, h2]; exact .nil

theorem blanks_start {b t w : List Char} {ch : Char} (hb : Blanks b) (ne : b ≠ []) (hc : ¬ Blank ch) :
    (ch :: w).isPrefixOf (b ++ t) = false := by
  cases b with
  | nil => exact absurd rfl ne
  | cons x xs =>
    have : ch ≠ x := fun h => hc (h ▸ hb x (by simp))
    simp [List.isPrefixOf, this]

theorem blanks_start' {b w : List Char} {ch : Char} (hb : Blanks b) (hc : ¬ Blank ch) : (ch :: w).isPrefixOf b = false := by
  cases b with
  | nil => rfl
  | cons x xs => simpa using blanks_start (t := []) (w := w) hb (by simp) hc

/-- A word without blanks in it. -/
theorem Respaced.word {t t' : List Char} (h : Respaced e t t') :
    ∀ w : List Char, (∀ ch ∈ w, ¬ Blank ch) → w.isPrefixOf t = w.isPrefixOf t' ∧
      (w.isPrefixOf t = true → Respaced e (t.drop w.length) (t'.drop w.length)) := by
  induction h with
  | nil => intro w _; exact ⟨rfl, fun _ => by simpa using Respaced.nil⟩
  | char hc h ih =>
    rename_i ch t t'
    intro w hw
    cases w with
    | nil => exact ⟨rfl, fun _ => .char hc h⟩
    | cons x xs =>
      obtain ⟨h1, h2⟩ := ih xs fun y hy => hw y (by simp [hy])
      refine ⟨by simp only [List.isPrefixOf, h1], fun hp => ?_⟩
      simp only [List.isPrefixOf, Bool.and_eq_true] at hp
      simpa using h2 hp.2
  | blanks hb hb' ne ne' h _ =>
    intro w hw
    cases w with
    | nil => exact ⟨by simp, fun _ => .blanks hb hb' ne ne' h⟩
    | cons x xs =>
      rw [blanks_start hb ne (hw x (by simp)), blanks_start hb' ne' (hw x (by simp))]
      exact ⟨rfl, fun h => by cases h⟩
  | ending he hb hb' =>
    intro w hw
    cases w with
    | nil => exact ⟨by simp, fun _ => .ending he hb hb'⟩
    | cons x xs =>
      rw [blanks_start' hb (hw x (by simp)), blanks_start' hb' (hw x (by simp))]
      exact ⟨rfl, fun h => by cases h⟩

theorem Respaced.longest {t t' : List Char} (h : Respaced e t t') {words : List (String × α)}
    (hw : ∀ w ∈ words, ∀ ch ∈ w.1.toList, ¬ Blank ch) : SameRead e (longest words t) (longest words t') := by
  have hf : (words.filter fun w => w.1.toList.isPrefixOf t) = words.filter fun w => w.1.toList.isPrefixOf t' :=
    List.filter_congr fun w hm => (h.word _ (hw w hm)).1
  unfold Spec.longest
  simp only [← hf]
  cases hq : ((words.filter fun w => w.1.toList.isPrefixOf t).find? fun w =>
      (words.filter fun w => w.1.toList.isPrefixOf t).all fun v => decide (v.1.length ≤ w.1.length)) with
  | none => exact .nothing
  | some w =>
    have hm := List.mem_of_find?_eq_some hq
    rw [List.mem_filter] at hm
    refine .same ?_
    have := (h.word _ (hw w hm.1)).2 hm.2
    rwa [String.length_toList] at this

theorem digit_not_blank {ch : Char} (h : "0123456789".toList.contains ch = true) : ¬ Blank ch := by
  rintro (rfl | rfl | rfl | rfl) <;> revert h <;> decide

theorem digitsOf_blanks {b t : List Char} (hb : Blanks b) (h : b ≠ [] ∨ t = []) : digitsOf (b ++ t) = [] := by
  cases b with
  | nil => rcases h with h | rfl; exact absurd rfl h; rfl
  | cons x xs =>
    unfold digitsOf
    rw [List.cons_append, List.takeWhile_cons_of_neg]
    exact fun h => digit_not_blank h (hb x (by simp))

theorem Respaced.digits {t t' : List Char} (h : Respaced e t t') : digitsOf t = digitsOf t' := by
  induction h with
  | nil => rfl
  | char _ _ ih => unfold digitsOf at ih ⊢; simp only [List.takeWhile_cons, ih]
  | blanks hb hb' ne ne' _ _ => rw [digitsOf_blanks hb (.inl ne), digitsOf_blanks hb' (.inl ne')]
  | ending _ hb hb' =>
    have h1 := digitsOf_blanks (t := []) hb (.inr rfl)
    have h2 := digitsOf_blanks (t := []) hb' (.inr rfl)
    rw [List.append_nil] at h1 h2
    rw [h1, h2]

theorem digitsOf_digit {t : List Char} : ∀ ch ∈ digitsOf t, ¬ Blank ch := fun ch h =>
  digit_not_blank (by have := List.all_takeWhile (l := t) (p := fun ch => "0123456789".toList.contains ch)
                      exact List.all_eq_true.1 this ch h)

theorem digitsOf_prefix (t : List Char) : (digitsOf t).isPrefixOf t = true :=
  List.isPrefixOf_iff_prefix.2 (List.takeWhile_prefix _)

theorem Respaced.number {t t' : List Char} (h : Respaced e t t') : SameRead e (readNumber t) (readNumber t') := by
  unfold readNumber
  simp only [← h.past.digits]
  by_cases hd : digitsOf (pastBlanks t) ≠ [] ∧ decimal (digitsOf (pastBlanks t)) < 2 ^ 63
  · rw [if_pos hd, if_pos hd]
    exact .same ((h.past.word _ digitsOf_digit).2 (digitsOf_prefix _)).past
  · rw [if_neg hd, if_neg hd]; exact .nothing

theorem SameRead.map {x y : Option (α × List Char)} (h : SameRead e x y) {f : α × List Char → β × List Char}
    (hf : ∀ a {t t'}, Respaced e t t' → SameRead e (some (f (a, t))) (some (f (a, t')))) : SameRead e (x.map f) (y.map f) := by
  cases h with
  | nothing => exact .nothing
  | same h => exact hf _ h

theorem SameRead.bind {x y : Option (α × List Char)} (h : SameRead e x y) {f : α × List Char → Option (β × List Char)}
    (hf : ∀ a {t t'}, Respaced e t t' → SameRead e (f (a, t)) (f (a, t'))) : SameRead e (x.bind f) (y.bind f) := by
  cases h with
  | nothing => exact .nothing
  | same h => exact hf _ h

theorem SameRead.or {x y x' y' : Option (α × List Char)} (h : SameRead e x y) (h' : SameRead e x' y') :
    SameRead e (x.or x') (y.or y') := by
  cases h with
  | nothing => simpa using h'
  | same h => exact .same h

theorem SameRead.getD {x y : Option (α × List Char)} (h : SameRead e x y) {a : α} {t t' : List Char} (ht : Respaced e t t') :
    SameRead e (some (x.getD (a, t))) (some (y.getD (a, t'))) := by
  cases h with
  | nothing => exact .same ht
  | same h => exact .same h

theorem Respaced.counted {t t' : List Char} (h : Respaced e t t') : SameRead e (readCounted t) (readCounted t') :=
  h.number.bind fun _ _ _ h => (h.longest (by decide +kernel)).map fun _ _ _ h => .same h

theorem Respaced.alias {t t' : List Char} (h : Respaced e t t') : SameRead e (readAlias t) (readAlias t') :=
  (h.longest (by decide +kernel)).map fun _ _ _ h => .same h

theorem Respaced.amount {t t' : List Char} (h : Respaced e t t') : SameRead e (readAmount t) (readAmount t') :=
  h.alias.or h.counted

theorem Respaced.operator {t t' : List Char} (h : Respaced e t t') :
    SameRead e (Spec.longest operatorWords t) (Spec.longest operatorWords t') := h.longest (by decide +kernel)

theorem Respaced.amountsN (n : Nat) : ∀ {t t' : List Char}, Respaced e t t' →
    SameRead e (readAmountsN n t) (readAmountsN n t') := by
  induction n with
  | zero => intro t t' _; exact .nothing
  | succ n ih =>
    intro t t' h
    unfold readAmountsN
    exact h.amount.map fun a _ _ h =>
      (h.past.operator.bind fun op _ _ h => (ih h.past).map fun _ _ _ h => .same h).getD h.past

theorem readAmounts_enough {n : Nat} {t : List Char} (h : t.length ≤ n) : readAmounts t = readAmountsN n t := by
  rw [← wir_amounts, wir_amountExpr n t h]

theorem Respaced.amounts {t t' : List Char} (h : Respaced e t t') : SameRead e (readAmounts t) (readAmounts t') := by
  rw [readAmounts_enough (Nat.le_max_left t.length t'.length), readAmounts_enough (Nat.le_max_right t.length t'.length)]
  exact h.amountsN _

variable {iso : Iso} (hi : IsoWithoutBlanks e iso)
include hi

theorem Respaced.exact {t t' : List Char} (h : Respaced e t t') : SameRead e (readExact iso t) (readExact iso t') :=
  ((h.longest (by decide +kernel)).or ((hi.datetime h).map fun _ _ _ h => .same h)).or
    ((hi.date h).map fun _ _ _ h => .same h)

theorem Respaced.date {t t' : List Char} (h : Respaced e t t') : SameRead e (readDate iso t) (readDate iso t') :=
  (h.exact hi).map fun _ _ _ h =>
    (h.past.operator.bind fun _ _ _ h => h.past.amounts.map fun _ _ _ h => .same h).getD h

omit hi in
theorem Respaced.step {t t' : List Char} (h : Respaced e t t') : SameRead e (readStep t) (readStep t') :=
  h.alias.or ((h.longest (by decide +kernel)).bind fun _ _ _ h => h.counted)

theorem Respaced.bound {t t' : List Char} (h : Respaced e t t') : SameRead e (readBound iso t) (readBound iso t') :=
  ((h.longest (by decide +kernel)).bind fun _ _ _ h => (h.past.exact hi).map fun _ _ _ h => .same h).or
    (h.number.bind fun _ _ _ h => (h.longest (by decide +kernel)).map fun _ _ _ h => .same h)

theorem Respaced.iterator {t t' : List Char} (h : Respaced e t t') :
    SameRead e (readIterator iso t) (readIterator iso t') :=
  (h.past.date hi).bind fun _ _ _ h => h.past.step.map fun _ _ _ h =>
    ((h.past.bound hi).map fun _ _ _ h => .same h).getD h.past

theorem Respaced.read {t t' : List Char} (h : Respaced e t t') : Spec.read iso t = Spec.read iso t' := by
  unfold Spec.read
  have h1 := h.iterator hi
  have h2 := h.date hi
  have h3 := h.amounts
  revert h1 h2 h3
  generalize readIterator iso t = x1, readIterator iso t' = y1, readDate iso t = x2, readDate iso t' = y2,
    readAmounts t = x3, readAmounts t' = y3
  intro h1 h2 h3
  cases h1 <;> cases h2 <;> cases h3 <;> rfl

end Spec
