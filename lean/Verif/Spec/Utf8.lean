import Verif.Spec.Accepted

/-!
# Specification: the bytes of a text

`parse` hands the bytes of its argument to the parsers (src/parser/mod.rs:70, `s.as_bytes()`). The bytes are those of the UTF-8
encoding, as Lean's own library defines it. A byte is written as the character with that number, so that the parsers, which
are written for lists of characters, can be run on bytes.
-/

namespace Spec
open Kairos Kairos.Parser Nom

/-- A byte as the character with its number, 0 to 255. -/
def byteChar (b : UInt8) : Char := Char.ofNat b.toNat

/-- The bytes of a text in UTF-8. -/
def bytes (s : List Char) : List Char := (s.flatMap String.utf8EncodeChar).map byteChar

/-- The same answer, with the rest of the text in bytes. -/
def inBytes {α : Type} : IRes α → IRes α
  | .done rest a => .done (bytes rest) a
  | .error => .error
  | .incomplete => .incomplete

/-- Two pairs of ISO 8601 parsers, one reading bytes and one reading characters, give the same answers. -/
structure SameIso (raw iso : Iso) : Prop where
  datetime : ∀ s, raw.parseDatetime (bytes s) = inBytes (iso.parseDatetime s)
  date : ∀ s, raw.parseDate (bytes s) = inBytes (iso.parseDate s)

/-- What is assumed of the ISO 8601 parsers when they read bytes: they use up the beginning of their input, nothing but bytes below 128,
and their numbers have the declared types. -/
structure RawSane (raw : Iso) : Prop where
  datetimeAscii : ∀ i r d, raw.parseDatetime i = .done r d → ∃ t, i = t ++ r ∧ ∀ ch ∈ t, ch.toNat < 128
  dateAscii : ∀ i r d, raw.parseDate i = .done r d → ∃ t, i = t ++ r ∧ ∀ ch ∈ t, ch.toNat < 128
  datetimeTyped : ∀ i r d, raw.parseDatetime i = .done r d →
    DateTyped d.date ∧ (0 ≤ d.hour ∧ d.hour < 2 ^ 32) ∧ (0 ≤ d.minute ∧ d.minute < 2 ^ 32) ∧ (0 ≤ d.second ∧ d.second < 2 ^ 32)
  dateTyped : ∀ i r d, raw.parseDate i = .done r d → DateTyped d

end Spec
