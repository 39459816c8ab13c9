import Verif.Lemmas.Utf8
import Verif.Lemmas.Samples
import Verif.Spec.Chain

/-!
# C126: texts are read byte by byte, which makes no difference
-/

namespace Props
open Kairos Kairos.Parser Nom Spec

/-- **C126.** What `parse` makes of the bytes of a text is what it makes of its characters, for every text, if the ISO 8601 parsers give the same
answers on both: no byte of a longer character is ever taken for a digit, a blank, a sign or a letter of a word. -/
theorem C126_bytes (c : Cfg) (raw iso : Iso) (h : SameIso raw iso) (now now' : Moment) (s : List Char) :
    parse c raw now now' (bytes s) = parse c iso now now' s := by
  simp only [parse, same_doParse c h now now' s]
  cases doParse c iso now now' s <;> rfl

example (now now' : Moment) := C126_bytes (std .debug) noIso noIso ⟨fun _ => rfl, fun _ => rfl⟩ now now' "5 days – später".toList

/-- **C126 (no loss).** ISO 8601 parsers that use up nothing but bytes below 128 behave on bytes as suitable parsers on characters do. So whatever
holds of `parse` for all parsers of ISO 8601 dates on characters, and all texts, holds of the bytes that the code really reads. -/
theorem C126_no_loss (raw : Iso) (h : RawSane raw) :
    ∃ iso : Iso, IsoSane iso ∧ SameIso raw iso ∧
      ∀ (c : Cfg) (now now' : Moment) (s : List Char), parse c raw now now' (bytes s) = parse c iso now now' s := by
  have hs : SameIso raw ⟨onChars raw.parseDatetime, onChars raw.parseDate⟩ :=
    ⟨onChars_same _ h.datetimeAscii, onChars_same _ h.dateAscii⟩
  refine ⟨_, ⟨?_, ?_, ?_, ?_⟩, hs, fun c now now' s => C126_bytes c raw _ hs now now' s⟩
  · exact fun i r d hd => (onChars_done _ hd).1
  · exact fun i r d hd => (onChars_done _ hd).1
  · intro i r d hd
    obtain ⟨r', hr⟩ := (onChars_done _ hd).2
    exact h.datetimeTyped _ _ _ hr
  · intro i r d hd
    obtain ⟨r', hr⟩ := (onChars_done _ hd).2
    exact h.dateTyped _ _ _ hr

/-- Parsers that know one date; used in an example only. -/
theorem oneDate_sane : RawSane ⟨fun _ => .error, Nom.map (tag "2017-02-28".toList) fun _ => .ymd 2017 2 28⟩ where
  datetimeAscii := by intro _ _ _ h; cases h
  dateAscii := by
    intro i r d h
    simp only [Nom.map, IRes.andThen, Nom.ret] at h
    split at h
    · rename_i r' u h'
      cases h
      exact ⟨_, tag_done h', by decide⟩
    · cases h
    · cases h
  datetimeTyped := by intro _ _ _ h; cases h
  dateTyped := by
    intro i r d h
    simp only [Nom.map, IRes.andThen, Nom.ret] at h
    split at h
    · cases h; simp [DateTyped]
    · cases h
    · cases h

example := C126_no_loss _ oneDate_sane

/-- **C126 (texts differ).** Different texts have different bytes, so nothing is mixed up on the way to the parser. -/
theorem C126_bytes_injective (s s' : List Char) (h : bytes s = bytes s') : s = s' := by
  have hinj : ∀ a b : UInt8, byteChar a = byteChar b → a = b := by
    intro a b e
    have h1 := byteChar_toNat a
    rw [e, byteChar_toNat b] at h1
    exact UInt8.toNat.inj h1.symm
  have h2 : ∀ l l' : List UInt8, l.map byteChar = l'.map byteChar → l = l' := by
    intro l
    induction l with
    | nil => intro l' e; cases l' with
      | nil => rfl
      | cons => simp at e
    | cons a l ih => intro l' e; cases l' with
      | nil => simp at e
      | cons b l' =>
        simp only [List.map_cons, List.cons.injEq] at e
        rw [hinj a b e.1, ih l' e.2]
  have h3 := h2 _ _ h
  have h4 : (String.ofList s).toByteArray = (String.ofList s').toByteArray := by
    simp only [String.toByteArray_ofList, List.utf8Encode, h3]
  have h5 := String.toByteArray_inj.1 h4
  simpa using congrArg String.toList h5

example (s : List Char) (h : bytes s = bytes "später".toList) : s = "später".toList := C126_bytes_injective _ _ h

end Props
