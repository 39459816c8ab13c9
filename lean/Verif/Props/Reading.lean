import Verif.Lemmas.Reader
import Verif.Lemmas.Samples
import Verif.Tests.Parser

/-!
# C142: what any text is read as
-/

namespace Props
open Kairos Kairos.Parser Spec Nom

/-- **C142.** For every text whatsoever, `parse` returns what the reader of `Spec/Reader.lean` says: it takes the longest word at every
place and prefers an iterator to a date and a date to amounts; then the result is the value, the error or the panic that what was
read stands for. A text that starts with none of the three is rejected. -/
theorem C142_every_text (c : Cfg) (iso : Iso) (now now' : Moment) (t : List Char) :
    parse c iso now now' t = (Spec.read iso t).result c now now' := by
  unfold Spec.read
  rw [← wir_iterator, ← wir_date, ← wir_amounts]
  cases hi : whatIsRead (iterator iso t) with
  | some q =>
    rw [parse_iterator (wir_some hi), repeats_eq]
    simp only [Option.map_some, Reading.result]
    cases repeats c now now' ⟨q.1.date, stepOf q.1.spec, q.1.until_⟩ <;> rfl
  | none =>
    have hni := wir_none hi
    cases hd : whatIsRead (date iso t) with
    | some q =>
      have ht : timetype iso t = .done q.2 (.date q.1) := by
        unfold timetype
        simp only [alt]
        rw [bind_done (wir_some hd)]; rfl
      rw [parse_timetype hni ht]
      simp only [Option.map_none, Reading.result, PTimeType.intoTimetype, date_means, returned_out]
    | none =>
      have hderr := date_error iso t (wir_none hd)
      have htt : timetype iso t = Nom.bind amountExpr (fun a => ret (.amountExpr a)) t := by
        unfold timetype
        simp only [alt, bind_error hderr]
        cases Nom.bind amountExpr (fun a => ret (PTimeType.amountExpr a)) t <;> rfl
      cases ha : whatIsRead (amountExpr t) with
      | some q =>
        have ht : timetype iso t = .done q.2 (.amountExpr q.1) := by rw [htt, bind_done (wir_some ha)]; rfl
        rw [parse_timetype hni ht]
        simp only [Option.map_none, Reading.result, PTimeType.intoTimetype, amounts_mean, returned_out]
      | none =>
        rw [parse_none hni]
        · rfl
        · intro r x e
          rw [htt, bind_done_iff] at e
          obtain ⟨r', a, e, -⟩ := e
          exact wir_none ha _ _ e

/-- **C142, what the reader takes.** The word taken is one the text starts with, and no longer one of the words would do; what is left is the text
after it. None is taken only if the text starts with none of them. -/
theorem C142_longest_word {α : Type} (words : List (String × α)) (t : List Char) :
    (∀ a rest, longest words t = some (a, rest) → ∃ w, (w, a) ∈ words ∧ t = w.toList ++ rest ∧
      ∀ w' a', (w', a') ∈ words → w'.toList <+: t → w'.length ≤ w.length) ∧
    (longest words t = none → ∀ w a, (w, a) ∈ words → ¬ w.toList <+: t) := by
  constructor
  · intro a rest h
    unfold longest at h
    rw [Option.map_eq_some_iff] at h
    obtain ⟨⟨w, b⟩, h1, h2⟩ := h
    have h3 := List.mem_filter.1 (List.mem_of_find?_eq_some h1)
    have h4 := List.find?_some h1
    simp only [Prod.mk.injEq] at h2
    obtain ⟨rfl, rfl⟩ := h2
    obtain ⟨r, rfl⟩ := List.isPrefixOf_iff_prefix.1 h3.2
    refine ⟨w, h3.1, by rw [← String.length_toList]; simp, ?_⟩
    intro w' a' hw hp
    have := List.all_eq_true.1 h4 (w', a') (List.mem_filter.2 ⟨hw, List.isPrefixOf_iff_prefix.2 hp⟩)
    simpa using this
  · intro h w a hw hp
    unfold longest at h
    rw [Option.map_eq_none_iff, List.find?_eq_none] at h
    have hne : ∀ l : List (String × α), l ≠ [] → ∃ x ∈ l, ∀ y ∈ l, y.1.length ≤ x.1.length := by
      intro l
      induction l with
      | nil => intro h; exact absurd rfl h
      | cons x l ih =>
        intro _
        cases l with
        | nil => exact ⟨x, by simp, by simp⟩
        | cons y l =>
          obtain ⟨z, hz, hm⟩ := ih (by simp)
          by_cases hxz : x.1.length ≤ z.1.length
          · refine ⟨z, List.mem_cons_of_mem _ hz, ?_⟩
            intro v hv
            rcases List.mem_cons.1 hv with rfl | hv
            · exact hxz
            · exact hm v hv
          · refine ⟨x, List.mem_cons_self .., ?_⟩
            intro v hv
            rcases List.mem_cons.1 hv with rfl | hv
            · exact Nat.le_refl _
            · have := hm v hv; omega
    obtain ⟨x, hx, hm⟩ := hne (words.filter fun w => w.1.toList.isPrefixOf t)
      (List.ne_nil_of_mem (List.mem_filter.2 ⟨hw, List.isPrefixOf_iff_prefix.2 hp⟩))
    exact h x hx (List.all_eq_true.2 fun y hy => decide_eq_true (hm y hy))

example : longest unitWords "secsecondly".toList = some (.second, "econdly".toList) := by decide +kernel
example : longest unitWords "fortnights".toList = none := by decide +kernel

/-- The longest word is read, the rest is left: `5 secsecondly` is 5 seconds followed by `econdly`. -/
example : Spec.read noIso "today + 5 secsecondly".toList = .date ⟨.today, some (.plus, .single ⟨5, .second⟩)⟩ := by decide +kernel
example : Spec.read noIso "today + 5 sec secondly".toList =
    .iterator ⟨⟨.today, some (.plus, .single ⟨5, .second⟩)⟩, ⟨1, .second⟩, none⟩ := by decide +kernel
/-- An operator that nothing follows, and words that are no bound, are left. -/
example : Spec.read noIso "5 days - 3 weeks + monthly + 6 fortnights".toList =
    .amounts (.cons ⟨5, .day⟩ .minus (.cons ⟨3, .week⟩ .plus (.single ⟨1, .month⟩))) := by decide +kernel
example : Spec.read Tests.Parser.extIso " 2017-06-15 - 2 days every 3 weeks until 2018-01-01T12:00:00 sharp".toList =
    .iterator ⟨⟨.iso8601Date (.ymd 2017 6 15), some (.minus, .single ⟨2, .day⟩)⟩, ⟨3, .week⟩,
      some (.exact (.iso8601DateTime ⟨.ymd 2018 1 1, 12, 0, 0, 0, 0, 0⟩))⟩ := by decide +kernel
example : Spec.read noIso "tomorrow every 9223372036854775808 days".toList = .date ⟨.tomorrow, none⟩ := by decide +kernel
example : Spec.read noIso " today".toList = .nothing := by decide +kernel
/-- What comes of it. -/
example : parse (std .debug) Tests.Parser.extIso (at_ 2017 1 1 0 0 0) (at_ 2017 1 1 0 0 0)
      "2017-02-29 every 3 days 5 times".toList = .ok (.iterator (.error (.outOfBounds 2017 2 29 0 0 0))) := by
  rw [C142_every_text]; decide +kernel

end Props
