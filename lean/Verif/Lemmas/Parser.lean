import Verif.Spec.Grammar

/-! Lemmas about the parsers. -/

namespace Kairos.Parser
open Nom Spec

/-! ### combinators -/

section
variable {α β : Type}

theorem bind_done {p : P α} {k : α → P β} {i r : List Char} {a : α} (h : p i = .done r a) : Nom.bind p k i = k a r := by
  simp only [Nom.bind, h, IRes.andThen]
theorem bind_error {p : P α} {k : α → P β} {i : List Char} (h : p i = .error) : Nom.bind p k i = .error := by
  simp only [Nom.bind, h, IRes.andThen]
theorem bind_incomplete {p : P α} {k : α → P β} {i : List Char} (h : p i = .incomplete) : Nom.bind p k i = .incomplete := by
  simp only [Nom.bind, h, IRes.andThen]

theorem bind_done_iff {p : P α} {k : α → P β} {i r : List Char} {b : β} :
    Nom.bind p k i = .done r b ↔ ∃ r' a, p i = .done r' a ∧ k a r' = .done r b := by
  unfold Nom.bind IRes.andThen
  cases h : p i with
  | done r' a =>
    constructor
    · intro h'; exact ⟨r', a, rfl, h'⟩
    · rintro ⟨_, _, h1, h2⟩; cases h1; exact h2
  | error => simp
  | incomplete => simp

theorem ret_done_iff {a b : α} {i r : List Char} : ret a i = .done r b ↔ i = r ∧ a = b := by simp [ret]

theorem complete_done {p : P α} {i r : List Char} {a : α} (h : p i = .done r a) : complete p i = .done r a := by
  simp only [complete, h]
theorem complete_error {p : P α} {i : List Char} (h : ∀ r a, p i ≠ .done r a) : complete p i = .error := by
  unfold complete; cases hp : p i <;> first | rfl | exact absurd hp (h _ _)
theorem complete_done_iff {p : P α} {i r : List Char} {a : α} : complete p i = .done r a ↔ p i = .done r a := by
  unfold complete; cases p i <;> simp
theorem complete_cases (p : P α) (i : List Char) : (∃ r a, complete p i = .done r a) ∨ complete p i = .error := by
  unfold complete; cases p i <;> simp

theorem opt_done {p : P α} {i r : List Char} {a : α} (h : p i = .done r a) : opt p i = .done r (some a) := by
  simp only [opt, h]
theorem opt_error {p : P α} {i : List Char} (h : p i = .error) : opt p i = .done i none := by
  simp only [opt, h]
theorem opt_complete_none {p : P α} {i : List Char} (h : ∀ r a, p i ≠ .done r a) : opt (complete p) i = .done i none :=
  opt_error (complete_error h)
theorem opt_sp (i : List Char) : opt sp i = .done (i.dropWhile isSp) (some ()) := rfl
theorem bind_opt_sp {k : Option Unit → P β} (i : List Char) : Nom.bind (opt sp) k i = k (some ()) (i.dropWhile isSp) := rfl
theorem bind_sp {k : Unit → P β} (i : List Char) : Nom.bind sp k i = k () (i.dropWhile isSp) := rfl

theorem opt_done_iff {p : P α} {i r : List Char} {o : Option α} :
    opt p i = .done r o ↔ (∃ a, o = some a ∧ p i = .done r a) ∨ (o = none ∧ r = i ∧ p i = .error) := by
  unfold opt
  cases p i <;> cases o <;> simp [eq_comm]

/-- `altComplete` never asks for more input. -/
theorem altComplete_cases (ps : List (P α)) (i : List Char) :
    (∃ r a, altComplete ps i = .done r a) ∨ altComplete ps i = .error := by
  unfold altComplete
  induction ps with
  | nil => exact .inr rfl
  | cons p ps ih =>
    rcases complete_cases p i with ⟨r, a, h⟩ | h
    · left; exact ⟨r, a, by simp only [List.map, alt, h]⟩
    · simp only [List.map, alt, h]; exact ih

theorem altComplete_nil (i : List Char) : altComplete ([] : List (P α)) i = .error := rfl
theorem altComplete_hit {p : P α} {ps : List (P α)} {i r : List Char} {a : α} (h : p i = .done r a) :
    altComplete (p :: ps) i = .done r a := by
  simp only [altComplete, List.map, alt, complete_done h]
theorem altComplete_miss {p : P α} {ps : List (P α)} {i : List Char} (h : ∀ r a, p i ≠ .done r a) :
    altComplete (p :: ps) i = altComplete ps i := by
  simp only [altComplete, List.map, alt, complete_error h]

theorem altComplete_done {ps : List (P α)} {i r : List Char} {a : α} (h : altComplete ps i = .done r a) :
    ∃ p ∈ ps, p i = .done r a := by
  induction ps with
  | nil => cases h
  | cons p ps ih =>
    cases hp : p i with
    | done r' a' =>
      rw [altComplete_hit hp] at h
      cases h
      exact ⟨p, by simp, hp⟩
    | error =>
      rw [altComplete_miss (by simp [hp])] at h
      obtain ⟨q, hq, e⟩ := ih h
      exact ⟨q, by simp [hq], e⟩
    | incomplete =>
      rw [altComplete_miss (by simp [hp])] at h
      obtain ⟨q, hq, e⟩ := ih h
      exact ⟨q, by simp [hq], e⟩
end

/-! ### tags -/

theorem tag_append (t rest : List Char) : tag t (t ++ rest) = .done rest () := by
  induction t with
  | nil => cases rest <;> rfl
  | cons x t ih => simp only [List.cons_append, tag, if_true]; exact ih

theorem tag_done {t i r : List Char} {u : Unit} (h : tag t i = .done r u) : i = t ++ r := by
  induction t generalizing i with
  | nil => cases i <;> simp [tag] at h <;> simp [h]
  | cons x t ih =>
    cases i with
    | nil => simp [tag] at h
    | cons y ys =>
      simp only [tag] at h
      split at h
      · rename_i e; rw [ih h, e]; rfl
      · cases h

theorem tag_ne_done {t i : List Char} (h : ¬ t <+: i) (r : List Char) (u : Unit) : tag t i ≠ .done r u := by
  intro e; exact h ⟨r, (tag_done e).symm⟩

/-- The alternatives of a table of tags. -/
def tags {α : Type} (l : List (String × α)) : P α := altComplete (l.map (fun p => map (tok p.1) fun _ => p.2))

theorem mapTok_append {α : Type} (s : String) (v : α) (rest : List Char) :
    map (tok s) (fun _ => v) (s.toList ++ rest) = .done rest v := by
  simp only [map, tok, tag_append, IRes.andThen, ret]

theorem mapTok_done {α : Type} {s : String} {v w : α} {i r : List Char} (h : map (tok s) (fun _ => v) i = .done r w) :
    i = s.toList ++ r ∧ v = w := by
  simp only [map, tok] at h
  cases ht : tag s.toList i with
  | done r' u => rw [ht] at h; simp only [IRes.andThen, ret] at h; cases h; exact ⟨tag_done ht, rfl⟩
  | error => rw [ht] at h; cases h
  | incomplete => rw [ht] at h; cases h

theorem tags_eq {α : Type} (l : List (String × α)) (i : List Char) :
    tags l i = match l.find? (fun p => p.1.toList.isPrefixOf i) with
      | some p => .done (i.drop p.1.toList.length) p.2
      | none => .error := by
  induction l with
  | nil => rfl
  | cons p l ih =>
    unfold tags at *
    simp only [List.map, List.find?]
    cases hp : p.1.toList.isPrefixOf i with
    | true =>
      obtain ⟨rest, rfl⟩ := List.isPrefixOf_iff_prefix.1 hp
      rw [altComplete_hit (mapTok_append _ _ _)]
      simp
    | false =>
      rw [altComplete_miss]
      · exact ih
      · intro r a h
        have := (mapTok_done h).1
        rw [this] at hp
        have : p.1.toList.isPrefixOf (p.1.toList ++ r) = true := List.isPrefixOf_iff_prefix.2 ⟨r, rfl⟩
        rw [this] at hp; cases hp

theorem tags_done {α : Type} {l : List (String × α)} {i r : List Char} {a : α} (h : tags l i = .done r a) :
    ∃ p ∈ l, i = p.1.toList ++ r ∧ p.2 = a := by
  obtain ⟨p, hp, e⟩ := altComplete_done h
  rw [List.mem_map] at hp
  obtain ⟨q, hq, rfl⟩ := hp
  exact ⟨q, hq, mapTok_done e⟩

/-- A word of letters is a prefix of a word and a rest that does not go on with a letter only if
it is a prefix of the word. -/
theorem prefix_of_word {p w rest : List Char} (hp : ∀ ch ∈ p, Letter ch) (hr : NoLetter rest) :
    p.isPrefixOf (w ++ rest) = p.isPrefixOf w := by
  induction p generalizing w with
  | nil => simp
  | cons x p ih =>
    cases w with
    | nil =>
      cases rest with
      | nil => rfl
      | cons y ys =>
        have h1 := hp x (by simp)
        have h2 := hr y rfl
        have hne : (x == y) = false := by simp; rintro rfl; exact h2 h1
        simp [List.isPrefixOf, hne]
    | cons y w =>
      simp only [List.cons_append, List.isPrefixOf]
      rw [ih (fun ch h => hp ch (by simp [h]))]

/-- Looking up a word in a table of words of letters. -/
theorem tags_word {α : Type} {l : List (String × α)} (hl : ∀ p ∈ l, ∀ ch ∈ p.1.toList, Letter ch) {w rest : List Char}
    (hr : NoLetter rest) {s : String} {v : α} (hw : s.toList = w)
    (hf : l.find? (fun p => p.1.toList.isPrefixOf w) = some (s, v)) : tags l (w ++ rest) = .done rest v := by
  rw [tags_eq]
  have : l.find? (fun p => p.1.toList.isPrefixOf (w ++ rest)) = l.find? (fun p => p.1.toList.isPrefixOf w) := by
    clear hf
    induction l with
    | nil => rfl
    | cons p l ih =>
      simp only [List.find?]
      rw [prefix_of_word (hl p (by simp)) hr, ih (fun q hq => hl q (by simp [hq]))]
  rw [this, hf]
  simp [hw]

/-! ### units and aliases -/

/-- The table of `unit_parser`. -/
def unitTable : List (String × TimeUnit) := [
  ("seconds", .second), ("second", .second), ("secs", .second), ("sec", .second), ("s", .second),
  ("minutes", .minute), ("minute", .minute), ("mins", .minute), ("min", .minute),
  ("hours", .hour), ("hour", .hour), ("hrs", .hour), ("hr", .hour),
  ("days", .day), ("day", .day), ("d", .day),
  ("weeks", .week), ("week", .week), ("w", .week),
  ("months", .month), ("month", .month),
  ("years", .year), ("year", .year), ("yrs", .year)]

theorem unitParser_eq : unitParser = tags unitTable := rfl

def aliasTable : List (String × UnitAlias) := [
  ("secondly", .secondly), ("minutely", .minutely), ("hourly", .hourly), ("daily", .daily), ("weekly", .weekly),
  ("monthly", .monthly), ("yearly", .yearly)]

theorem unitAlias_eq : unitAlias = tags aliasTable := rfl

theorem unitTable_letters : ∀ p ∈ unitTable, ∀ ch ∈ p.1.toList, Letter ch := by decide
theorem unitTable_sound : ∀ p ∈ unitTable, p.1 ∈ spellings p.2 := by decide
theorem unitTable_find : ∀ u : TimeUnit, ∀ s ∈ spellings u,
    unitTable.find? (fun p => p.1.toList.isPrefixOf s.toList) = some (s, u) := by
  intro u; cases u <;> decide

theorem unitParser_word {u : TimeUnit} {s : String} (hs : s ∈ spellings u) {rest : List Char} (hr : NoLetter rest) :
    unitParser (s.toList ++ rest) = .done rest u := by
  rw [unitParser_eq]
  exact tags_word unitTable_letters hr rfl (unitTable_find u s hs)

theorem unitParser_done {i r : List Char} {u : TimeUnit} (h : unitParser i = .done r u) :
    ∃ s ∈ spellings u, i = s.toList ++ r := by
  rw [unitParser_eq] at h
  obtain ⟨p, hp, e, rfl⟩ := tags_done h
  exact ⟨p.1, unitTable_sound p hp, e⟩

/-- An alias is recognised whatever follows. -/
theorem tags_first {α : Type} {l : List (String × α)} {s : String} {v : α} {rest : List Char}
    (hf : ∀ p ∈ l, p.1.toList.isPrefixOf (s.toList ++ rest) = true → p = (s, v)) (hm : (s, v) ∈ l) :
    tags l (s.toList ++ rest) = .done rest v := by
  rw [tags_eq]
  have : l.find? (fun p => p.1.toList.isPrefixOf (s.toList ++ rest)) = some (s, v) := by
    induction l with
    | nil => simp at hm
    | cons p l ih =>
      simp only [List.find?]
      cases hp : p.1.toList.isPrefixOf (s.toList ++ rest) with
      | true => simp only; rw [hf p (by simp) hp]
      | false =>
        simp only
        refine ih (fun q hq => hf q (by simp [hq])) ?_
        rcases List.mem_cons.1 hm with rfl | h
        · exfalso
          have : (s.toList).isPrefixOf (s.toList ++ rest) = true := List.isPrefixOf_iff_prefix.2 ⟨rest, rfl⟩
          rw [this] at hp; cases hp
        · exact h
  rw [this]
  simp

/-- The alias token of a unit. -/
def aliasTok : TimeUnit → UnitAlias
  | .second => .secondly
  | .minute => .minutely
  | .hour => .hourly
  | .day => .daily
  | .week => .weekly
  | .month => .monthly
  | .year => .yearly

theorem unitAlias_word (u : TimeUnit) (rest : List Char) :
    unitAlias ((aliasOf u).toList ++ rest) = .done rest (aliasTok u) := by
  rw [unitAlias_eq]
  refine tags_first ?_ (by cases u <;> decide)
  cases u <;> simp [aliasTable, aliasOf, aliasTok]

theorem unitAlias_done {i r : List Char} {a : UnitAlias} (h : unitAlias i = .done r a) :
    i = (aliasOf a.into).toList ++ r := by
  rw [unitAlias_eq] at h
  obtain ⟨p, hp, e, rfl⟩ := tags_done h
  rw [e]
  have : ∀ p ∈ aliasTable, p.1 = aliasOf p.2.into := by decide
  rw [← this p hp]

theorem aliasTok_into (u : TimeUnit) : (aliasTok u).into = u := by cases u <;> rfl

/-! ### characters -/

theorem isSp_iff (ch : Char) : isSp ch = true ↔ Blank ch := by
  simp [isSp, Blank, or_assoc]

theorem pastBlanks_eq (t : List Char) : pastBlanks t = t.dropWhile isSp := by
  induction t with
  | nil => rfl
  | cons ch t ih =>
    have h : (ch = ' ' ∨ ch = '\t' ∨ ch = '\r' ∨ ch = '\n') ↔ isSp ch = true := (isSp_iff ch).symm
    rw [pastBlanks, List.dropWhile_cons, ih]
    simp only [h]

theorem isDigit_iff (ch : Char) : isDigit ch = true ↔ ch ∈ "0123456789".toList := by
  constructor
  · intro h
    simp only [isDigit, Bool.and_eq_true, decide_eq_true_eq, Char.le_def, UInt32.le_iff_toNat_le] at h
    have h1 : 48 ≤ ch.toNat := h.1
    have h2 : ch.toNat ≤ 57 := h.2
    have h3 : ch = Char.ofNat ch.toNat := (Char.ofNat_toNat ch).symm
    rw [h3]
    generalize ch.toNat = n at *
    have : n = 48 ∨ n = 49 ∨ n = 50 ∨ n = 51 ∨ n = 52 ∨ n = 53 ∨ n = 54 ∨ n = 55 ∨ n = 56 ∨ n = 57 := by omega
    rcases this with rfl | rfl | rfl | rfl | rfl | rfl | rfl | rfl | rfl | rfl <;> decide
  · have : ∀ ch ∈ "0123456789".toList, isDigit ch = true := by decide
    exact this ch

theorem digit_not_blank {ch : Char} (h : ch ∈ "0123456789".toList) : ¬ Blank ch := by
  have : ∀ ch ∈ "0123456789".toList, ¬ Blank ch := by decide
  exact this ch h
theorem letter_not_blank {ch : Char} (h : Letter ch) : ¬ Blank ch := by
  have : ∀ ch ∈ "abcdefghijklmnopqrstuvwxyz".toList, ¬ Blank ch := by decide
  exact this ch h
theorem letter_not_digit {ch : Char} (h : Letter ch) : ¬ ch ∈ "0123456789".toList := by
  have : ∀ ch ∈ "abcdefghijklmnopqrstuvwxyz".toList, ¬ ch ∈ "0123456789".toList := by decide
  exact this ch h
theorem blank_not_letter {ch : Char} (h : Blank ch) : ¬ Letter ch := fun l => letter_not_blank l h
theorem blank_not_digit {ch : Char} (h : Blank ch) : ¬ ch ∈ "0123456789".toList := fun l => digit_not_blank l h

/-- `dropWhile` over an initial part that satisfies the test. -/
theorem dropWhile_append {p : Char → Bool} {b rest : List Char} (hb : ∀ ch ∈ b, p ch = true)
    (hr : ∀ ch, rest.head? = some ch → p ch = false) : (b ++ rest).dropWhile p = rest ∧ (b ++ rest).takeWhile p = b := by
  induction b with
  | nil =>
    cases rest with
    | nil => exact ⟨rfl, rfl⟩
    | cons x xs =>
      have hx := hr x rfl
      constructor
      · simp [hx]
      · simp [hx]
  | cons x b ih =>
    have hx := hb x (by simp)
    obtain ⟨h1, h2⟩ := ih (fun ch h => hb ch (by simp [h]))
    simp only [List.cons_append, List.dropWhile, List.takeWhile, hx, h1, h2, and_self]

theorem drop_blanks {b rest : List Char} (hb : Blanks b) (hr : ∀ ch, rest.head? = some ch → ¬ Blank ch) :
    (b ++ rest).dropWhile isSp = rest :=
  (dropWhile_append (fun ch h => (isSp_iff ch).2 (hb ch h))
    (fun ch h => by cases e : isSp ch <;> first | rfl | exact absurd ((isSp_iff ch).1 e) (hr ch h))).1

/-- Blanks are what `sp` eats. -/
theorem split_blanks (i : List Char) : ∃ b, Blanks b ∧ i = b ++ i.dropWhile isSp := by
  refine ⟨i.takeWhile isSp, ?_, (List.takeWhile_append_dropWhile).symm⟩
  intro ch h
  have := List.all_takeWhile (p := isSp) (l := i)
  rw [List.all_eq_true] at this
  exact (isSp_iff ch).1 (this ch h)

/-! ### integers -/

theorem idxOf_digit : ∀ ch ∈ "0123456789".toList, "0123456789".toList.idxOf ch = ch.toNat - '0'.toNat := by decide

theorem decimal_foldl {ds : List Char} (h : ∀ ch ∈ ds, ch ∈ "0123456789".toList) (acc : Nat) :
    ds.foldl (fun acc d => 10 * acc + (d.toNat - '0'.toNat)) acc = acc * 10 ^ ds.length + decimal ds := by
  induction ds generalizing acc with
  | nil => simp [decimal]
  | cons d ds ih =>
    simp only [List.foldl, decimal, List.length_cons]
    rw [ih (fun ch hc => h ch (by simp [hc])), ← idxOf_digit d (h d (by simp)), Nat.pow_succ,
      Nat.add_mul, Nat.mul_comm 10 acc, Nat.mul_assoc, Nat.mul_comm 10, Nat.add_assoc]

theorem i64FromStr_eq {ds : List Char} (h : ∀ ch ∈ ds, ch ∈ "0123456789".toList) :
    i64FromStr ds = if decimal ds < 2 ^ 63 then some (decimal ds : Int) else none := by
  unfold i64FromStr
  rw [decimal_foldl h 0]
  simp only [Nat.zero_mul, Nat.zero_add]
  by_cases hd : decimal ds < 2 ^ 63
  · rw [if_pos hd, if_pos (by omega)]
  · rw [if_neg hd, if_neg (by omega)]

theorem digit_append {ds rest : List Char} (hd : Digits ds) (hr : ∀ ch, rest.head? = some ch → ¬ ch ∈ "0123456789".toList) :
    digit (ds ++ rest) = .done rest ds := by
  obtain ⟨hne, hall⟩ := hd
  have hw := dropWhile_append (p := isDigit) (b := ds) (rest := rest) (fun ch h => (isDigit_iff ch).2 (hall ch h))
    (fun ch h => by cases e : isDigit ch <;> first | rfl | exact absurd ((isDigit_iff ch).1 e) (hr ch h))
  cases ds with
  | nil => exact absurd rfl hne
  | cons x xs =>
    have hx := (isDigit_iff x).2 (hall x (by simp))
    unfold digit
    simp only [List.cons_append] at hw ⊢
    rw [if_pos hx, hw.1, hw.2]

theorem digit_done {i r ds : List Char} (h : digit i = .done r ds) : Digits ds ∧ i = ds ++ r ∧
    (∀ ch, r.head? = some ch → ¬ ch ∈ "0123456789".toList) := by
  unfold digit at h
  cases i with
  | nil => cases h
  | cons x xs =>
    simp only at h
    split at h
    · rename_i hx
      simp only [IRes.done.injEq] at h
      obtain ⟨h1, h2⟩ := h
      subst h1 h2
      refine ⟨⟨?_, ?_⟩, ?_, ?_⟩
      · simp [hx]
      · intro ch hc
        have := List.all_takeWhile (p := isDigit) (l := x :: xs)
        rw [List.all_eq_true] at this
        exact (isDigit_iff ch).1 (this ch hc)
      · exact (List.takeWhile_append_dropWhile).symm
      · intro ch hc hm
        have := List.head?_dropWhile_not isDigit (x :: xs)
        rw [hc] at this
        simp only at this
        rw [(isDigit_iff ch).2 hm] at this
        cases this
    · cases h

/-- Reading a number, whatever follows. -/
theorem integer_eq {b ds rest : List Char} (hb : Blanks b) (hd : Digits ds)
    (hr : ∀ ch, rest.head? = some ch → ¬ ch ∈ "0123456789".toList) :
    integer (b ++ (ds ++ rest)) =
      if decimal ds < 2 ^ 63 then .done (rest.dropWhile isSp) (decimal ds : Int) else .error := by
  have h1 : (b ++ (ds ++ rest)).dropWhile isSp = ds ++ rest := by
    refine drop_blanks hb ?_
    intro ch hc
    cases ds with
    | nil => exact absurd rfl hd.1
    | cons x xs => cases hc; exact digit_not_blank (hd.2 _ (by simp))
  have h2 : mapRes (ws digit) i64FromStr (b ++ (ds ++ rest)) =
      if decimal ds < 2 ^ 63 then .done (rest.dropWhile isSp) (decimal ds : Int) else .error := by
    unfold mapRes ws
    simp only [Nom.bind, sp, IRes.andThen, h1, digit_append hd hr, ret, i64FromStr_eq hd.2]
    by_cases hlt : decimal ds < 2 ^ 63
    · simp only [if_pos hlt]
    · simp only [if_neg hlt]
  unfold integer alt
  rw [h2]
  by_cases hlt : decimal ds < 2 ^ 63
  · simp only [if_pos hlt]
  · simp only [if_neg hlt, alt]

theorem integer_done {i r : List Char} {n : Int} (h : integer i = .done r n) :
    ∃ b ds b', Blanks b ∧ Digits ds ∧ Blanks b' ∧ decimal ds < 2 ^ 63 ∧ n = decimal ds ∧ i = b ++ ds ++ b' ++ r := by
  unfold integer alt at h
  have h2 : mapRes (ws digit) i64FromStr i = .done r n := by
    split at h
    · simp [alt] at h
    · exact h
  unfold mapRes at h2
  rw [bind_done_iff] at h2
  obtain ⟨r', ds, h3, h4⟩ := h2
  unfold ws at h3
  rw [bind_sp, bind_done_iff] at h3
  obtain ⟨r2, ds', h5, h6⟩ := h3
  rw [bind_sp, ret_done_iff] at h6
  obtain ⟨h6, rfl⟩ := h6
  obtain ⟨g1, g2, g3⟩ := digit_done h5
  rw [i64FromStr_eq g1.2] at h4
  obtain ⟨b, hb, eb⟩ := split_blanks i
  obtain ⟨b', hb', eb'⟩ := split_blanks r2
  by_cases hlt : decimal ds' < 2 ^ 63
  · rw [if_pos hlt] at h4
    simp only [IRes.done.injEq] at h4
    obtain ⟨rfl, rfl⟩ := h4
    refine ⟨b, ds', b', hb, g1, hb', hlt, rfl, ?_⟩
    rw [eb, g2]
    conv => lhs; rw [eb', h6]
    simp
  · rw [if_neg hlt] at h4; cases h4

/-- No number starts here: the text goes on with something that is neither blank nor digit. -/
theorem integer_error {ch : Char} {i : List Char} (h1 : ¬ Blank ch) (h2 : ¬ ch ∈ "0123456789".toList) :
    integer (ch :: i) = .error := by
  have e1 : isSp ch = false := by cases e : isSp ch <;> first | rfl | exact absurd ((isSp_iff ch).1 e) h1
  have e2 : isDigit ch = false := by cases e : isDigit ch <;> first | rfl | exact absurd ((isDigit_iff ch).1 e) h2
  simp [integer, alt, mapRes, ws, Nom.bind, sp, IRes.andThen, digit, e1, e2]

/-! ### amounts -/

theorem name_head {u : TimeUnit} {s : String} (hs : s ∈ spellings u) (rest : List Char) :
    ∃ x xs, s.toList ++ rest = x :: xs ∧ Letter x := by
  have : ∀ u : TimeUnit, ∀ s ∈ spellings u, ∃ x, s.toList.head? = some x ∧ Letter x := by
    intro u; cases u <;> simp [spellings] <;> decide
  obtain ⟨x, h1, h2⟩ := this u s hs
  cases hl : s.toList with
  | nil => rw [hl] at h1; cases h1
  | cons y ys => rw [hl] at h1; cases h1; exact ⟨x, ys ++ rest, rfl, h2⟩

theorem amountParser_text {a : Amount} {t rest : List Char} (h : AmountText a t) (hr : NoLetter rest) :
    amountParser (t ++ rest) = .done rest a := by
  cases h with
  | number hb hd hb' hn hmax =>
    rename_i b ds b' unit name
    obtain ⟨x, xs, e, hx⟩ := name_head hn rest
    have hnd : ∀ ch, (b' ++ (name.toList ++ rest)).head? = some ch → ¬ ch ∈ "0123456789".toList := by
      intro ch hc
      cases b' with
      | nil => rw [List.nil_append, e] at hc; cases hc; exact letter_not_digit hx
      | cons y ys => cases hc; exact blank_not_digit (hb' _ (by simp))
    have hi := integer_eq hb hd hnd
    rw [if_pos hmax, drop_blanks hb' (by intro ch hc; rw [e] at hc; cases hc; exact letter_not_blank hx)] at hi
    have hassoc : b ++ ds ++ b' ++ name.toList ++ rest = b ++ (ds ++ (b' ++ (name.toList ++ rest))) := by simp
    rw [hassoc]
    unfold amountParser alt
    rw [bind_done hi, bind_done (unitParser_word hn hr)]
    rfl
  | alias unit =>
    have hi : integer ((aliasOf unit).toList ++ rest) = .error := by
      cases unit <;> exact integer_error (by decide) (by decide)
    unfold amountParser alt
    rw [bind_error hi]
    simp only
    unfold alt
    rw [bind_done (unitAlias_word unit rest), aliasTok_into]
    rfl

theorem amountParser_done {i r : List Char} {a : Amount} (h : amountParser i = .done r a) :
    ∃ t, AmountText a t ∧ i = t ++ r := by
  unfold amountParser alt at h
  split at h
  · unfold alt at h
    split at h
    · cases h
    · rw [bind_done_iff] at h
      obtain ⟨r', u, h1, h2⟩ := h
      rw [ret_done_iff] at h2
      obtain ⟨rfl, rfl⟩ := h2
      exact ⟨_, .alias u.into, unitAlias_done h1⟩
  · rw [bind_done_iff] at h
    obtain ⟨r1, n, h1, h2⟩ := h
    rw [bind_done_iff] at h2
    obtain ⟨r2, u, h3, h4⟩ := h2
    rw [ret_done_iff] at h4
    obtain ⟨rfl, rfl⟩ := h4
    obtain ⟨b, ds, b', g1, g2, g3, g4, rfl, rfl⟩ := integer_done h1
    obtain ⟨s, hs, rfl⟩ := unitParser_done h3
    exact ⟨_, .number g1 g2 g3 hs g4, by simp⟩

theorem amountText_ne {a : Amount} {t : List Char} (h : AmountText a t) : t ≠ [] := by
  cases h with
  | number hb hd hb' hn hmax => have := hd.1; simp [this]
  | alias unit => cases unit <;> simp [aliasOf]

/-! ### amount expressions -/

theorem operator_done {i r : List Char} {op : Operator} (h : operatorParser i = .done r op) : i = opChar op :: r := by
  unfold operatorParser alt at h
  split at h
  · unfold alt at h
    split at h
    · cases h
    · obtain ⟨h1, h2⟩ := mapTok_done h
      subst h2
      simpa [opChar] using h1
  · obtain ⟨h1, h2⟩ := mapTok_done h
    subst h2
    simpa [opChar] using h1

theorem operator_char (op : Operator) (rest : List Char) : operatorParser (opChar op :: rest) = .done rest op := by
  cases op
  · rfl
  · simp [operatorParser, alt, opChar, map, tok, tag, IRes.andThen, ret]

/-- The body of `amount_expr` uses the recursive parser only on shorter input. -/
theorem body_congr {r1 r2 : P AmountExpr} {i : List Char} (h : ∀ j, j.length < i.length → r1 j = r2 j) :
    amountExprBody r1 i = amountExprBody r2 i := by
  unfold amountExprBody
  cases ha : amountParser i with
  | error => rw [bind_error ha, bind_error ha]
  | incomplete => rw [bind_incomplete ha, bind_incomplete ha]
  | done r a =>
    rw [bind_done ha, bind_done ha, bind_opt_sp, bind_opt_sp]
    obtain ⟨t, ht, rfl⟩ := amountParser_done ha
    have hlen : (r.dropWhile isSp).length < (t ++ r).length := by
      have h1 := List.length_pos_iff.2 (amountText_ne ht)
      obtain ⟨b, -, e⟩ := split_blanks r
      have h2 := congrArg List.length e
      simp at h2 ⊢
      omega
    have : amountExprNext r1 (r.dropWhile isSp) = amountExprNext r2 (r.dropWhile isSp) := by
      unfold amountExprNext
      cases ho : operatorParser (r.dropWhile isSp) with
      | error => rw [bind_error ho, bind_error ho]
      | incomplete => rw [bind_incomplete ho, bind_incomplete ho]
      | done r' op =>
        rw [bind_done ho, bind_done ho, bind_opt_sp, bind_opt_sp]
        have e := operator_done ho
        have hlen' : (r'.dropWhile isSp).length < (t ++ r).length := by
          obtain ⟨b, -, e'⟩ := split_blanks r'
          have h2 := congrArg List.length e'
          rw [e] at hlen
          simp at h2 hlen ⊢
          omega
        simp only [Nom.bind, h _ hlen']
    simp only [Nom.bind, opt, complete, this]

theorem amountExprN_stable (n : Nat) : ∀ i : List Char, i.length < n → amountExprN n i = amountExpr i := by
  have key : ∀ (k n m : Nat) (i : List Char), i.length < k → i.length < n → i.length < m →
      amountExprN n i = amountExprN m i := by
    intro k
    induction k with
    | zero => intro n m i h; omega
    | succ k ih =>
      intro n m i hk hn hm
      obtain ⟨n, rfl⟩ : ∃ n', n = n' + 1 := ⟨n - 1, by omega⟩
      obtain ⟨m, rfl⟩ : ∃ m', m = m' + 1 := ⟨m - 1, by omega⟩
      exact body_congr (fun j hj => ih n m j (by omega) (by omega) (by omega))
  intro i hi
  exact key (i.length + 1) n (i.length + 1) i (by omega) hi (by omega)

/-- The recursion equation of the Rust parser. -/
theorem amountExpr_unfold (i : List Char) : amountExpr i = amountExprBody amountExpr i := by
  conv => lhs; unfold amountExpr
  exact body_congr (fun j hj => amountExprN_stable _ j hj)

theorem noLetter_blanks {b rest : List Char} (hb : Blanks b) (hr : NoLetter rest) : NoLetter (b ++ rest) := by
  intro ch hc
  cases b with
  | nil => exact hr ch hc
  | cons y ys => cases hc; exact blank_not_letter (hb _ (by simp))

theorem drop_append_blanks {b i : List Char} (hb : Blanks b) : (b ++ i).dropWhile isSp = i.dropWhile isSp := by
  induction b with
  | nil => rfl
  | cons x b ih =>
    have hx := (isSp_iff x).2 (hb x (by simp))
    simp only [List.cons_append, List.dropWhile, hx]
    exact ih (fun ch h => hb ch (by simp [h]))

theorem drop_nonblank {i : List Char} (h : ∀ ch, i.head? = some ch → ¬ Blank ch) : i.dropWhile isSp = i :=
  drop_blanks (b := []) (by intro ch h; cases h) h

/-- The blanks at the start of an amount are optional. -/
theorem amountText_drop {a : Amount} {t : List Char} (h : AmountText a t) :
    ∃ t0, AmountText a t0 ∧ ∀ r, (t ++ r).dropWhile isSp = t0 ++ r := by
  cases h with
  | number hb hd hb' hn hmax =>
    rename_i b ds b' unit name
    refine ⟨[] ++ ds ++ b' ++ name.toList, .number (by intro ch h; cases h) hd hb' hn hmax, fun r => ?_⟩
    have : b ++ ds ++ b' ++ name.toList ++ r = b ++ (ds ++ (b' ++ (name.toList ++ r))) := by simp
    rw [this, drop_blanks hb]
    · simp
    · intro ch hc
      cases ds with
      | nil => exact absurd rfl hd.1
      | cons x xs => cases hc; exact digit_not_blank (hd.2 _ (by simp))
  | alias unit =>
    refine ⟨_, .alias unit, fun r => drop_nonblank ?_⟩
    intro ch hc
    cases unit <;> (cases hc; decide)

theorem exprText_drop {e : AmountExpr} {t : List Char} (h : ExprText e t) :
    ∃ t0, ExprText e t0 ∧ ∀ r, (t ++ r).dropWhile isSp = t0 ++ r := by
  cases h with
  | single ha hb =>
    obtain ⟨t0, h1, h2⟩ := amountText_drop ha
    exact ⟨_, .single h1 hb, fun r => by rw [List.append_assoc, h2]; simp⟩
  | cons ha hb hb' he =>
    obtain ⟨t0, h1, h2⟩ := amountText_drop ha
    exact ⟨_, .cons h1 hb hb' he, fun r => by rw [List.append_assoc, List.append_assoc, h2]; simp⟩

/-- Every text of the grammar is parsed as the expression it is written for. -/
theorem amountExpr_text {e : AmountExpr} {t rest : List Char} (h : ExprText e t) (hr : Stop rest) :
    amountExpr (t ++ rest) = .done rest e := by
  induction e generalizing t with
  | single a =>
    cases h with
    | single ha hb =>
    rename_i t b
    rw [amountExpr_unfold, List.append_assoc]
    unfold amountExprBody
    rw [bind_done (amountParser_text ha (noLetter_blanks hb (fun ch hc => (hr ch hc).1))), bind_opt_sp,
      drop_blanks hb (fun ch hc => (hr ch hc).2.1)]
    have hno : ∀ r x, amountExprNext amountExpr rest ≠ .done r x := by
      intro r x hx
      unfold amountExprNext at hx
      rw [bind_done_iff] at hx
      obtain ⟨r', op, ho, -⟩ := hx
      have e := operator_done ho
      have := hr (opChar op) (by rw [e]; rfl)
      cases op
      · exact this.2.2.1 rfl
      · exact this.2.2.2 rfl
    rw [bind_done (opt_complete_none hno)]
    rfl
  | cons a op e ih =>
    cases h with
    | cons ha hb hb' he =>
    rename_i t b b' t'
    rw [amountExpr_unfold]
    have hassoc : t ++ b ++ opChar op :: (b' ++ t') ++ rest = t ++ (b ++ (opChar op :: (b' ++ (t' ++ rest)))) := by simp
    rw [hassoc]
    unfold amountExprBody
    have hop : NoLetter (opChar op :: (b' ++ (t' ++ rest))) := by
      intro ch hc; cases hc; cases op <;> decide
    rw [bind_done (amountParser_text ha (noLetter_blanks hb hop)), bind_opt_sp,
      drop_blanks hb (by intro ch hc; cases hc; cases op <;> decide)]
    have hnext : amountExpr ((b' ++ (t' ++ rest)).dropWhile isSp) = .done rest e := by
      rw [drop_append_blanks hb']
      obtain ⟨t0, h1, h2⟩ := exprText_drop he
      rw [h2]
      exact ih h1
    have hn : amountExprNext amountExpr (opChar op :: (b' ++ (t' ++ rest))) = .done rest (op, e) := by
      unfold amountExprNext
      rw [bind_done (operator_char op _), bind_opt_sp, bind_done hnext]
      rfl
    rw [bind_done (opt_done (complete_done hn))]
    rfl

/-- Only texts of the grammar are parsed. -/
theorem amountExpr_done {i r : List Char} {e : AmountExpr} (h : amountExpr i = .done r e) :
    ∃ t, ExprText e t ∧ i = t ++ r := by
  have key : ∀ (n : Nat) (i r : List Char) (e : AmountExpr), i.length < n → amountExpr i = .done r e →
      ∃ t, ExprText e t ∧ i = t ++ r := by
    intro n
    induction n with
    | zero => intro i r e h; omega
    | succ n ih =>
      intro i r e hn h
      rw [amountExpr_unfold] at h
      unfold amountExprBody at h
      rw [bind_done_iff] at h
      obtain ⟨r1, a, ha, h⟩ := h
      obtain ⟨t, ht, rfl⟩ := amountParser_done ha
      rw [bind_opt_sp, bind_done_iff] at h
      obtain ⟨r2, o, ho, h⟩ := h
      rw [ret_done_iff] at h
      obtain ⟨rfl, rfl⟩ := h
      obtain ⟨b, hb, eb⟩ := split_blanks r1
      rw [opt_done_iff] at ho
      rcases ho with ⟨⟨op, e'⟩, rfl, ho⟩ | ⟨rfl, rfl, -⟩
      · rw [complete_done_iff] at ho
        unfold amountExprNext at ho
        rw [bind_done_iff] at ho
        obtain ⟨r3, op', h1, h2⟩ := ho
        rw [bind_opt_sp, bind_done_iff] at h2
        obtain ⟨r4, e'', h3, h4⟩ := h2
        rw [ret_done_iff] at h4
        obtain ⟨rfl, h4⟩ := h4
        cases h4
        have e1 := operator_done h1
        obtain ⟨b', hb', eb'⟩ := split_blanks r3
        have hlen : (r3.dropWhile isSp).length < n := by
          have l1 := congrArg List.length eb
          have l2 := congrArg List.length e1
          have l3 := congrArg List.length eb'
          simp at l1 l2 l3 hn
          omega
        obtain ⟨t', ht', e2⟩ := ih _ _ _ hlen h3
        refine ⟨_, .cons (op := op) ht hb hb' ht', ?_⟩
        rw [eb, e1, eb', e2]
        simp
      · refine ⟨_, .single ht hb, ?_⟩
        conv => lhs; rw [eb]
        simp
  exact key (i.length + 1) i r e (by omega) h

end Kairos.Parser
