import Verif.Spec.Utf8
import Verif.Lemmas.Parser

/-!
# Parsers on the bytes of a text
-/

namespace Props
open Kairos Kairos.Parser Nom Spec

theorem byteChar_toNat (b : UInt8) : (byteChar b).toNat = b.toNat := by
  have h : b.toNat < 256 := b.toNat_lt
  simp only [byteChar, Char.toNat, Char.ofNat]
  rw [dif_pos (by simp [Nat.isValidChar]; omega)]
  simp [Char.ofNatAux, UInt32.toNat]

/-- The bytes of one character. -/
def charBytes (ch : Char) : List Char := (String.utf8EncodeChar ch).map byteChar

theorem bytes_nil : bytes [] = [] := rfl

theorem bytes_cons (ch : Char) (s : List Char) : bytes (ch :: s) = charBytes ch ++ bytes s := by
  simp [bytes, charBytes]

theorem charBytes_ascii {ch : Char} (h : ch.toNat < 128) : charBytes ch = [ch] := by
  have h' : ch.val.toNat ≤ 127 := by simp only [Char.toNat] at h; omega
  simp only [charBytes, String.utf8EncodeChar, if_pos h', List.map_cons, List.map_nil]
  congr 1
  apply Char.ext
  apply UInt32.toNat.inj
  have h2 := byteChar_toNat (UInt8.ofNat ch.val.toNat)
  simp only [Char.toNat] at h2
  rw [h2]
  simp
  omega

theorem charBytes_other {ch : Char} (h : ¬ ch.toNat < 128) : ∃ x xs, charBytes ch = x :: xs ∧ ∀ y ∈ x :: xs, 128 ≤ y.toNat := by
  have h' : ¬ ch.val.toNat ≤ 127 := by simp only [Char.toNat] at h; omega
  have hb : ∀ n : Nat, 128 ≤ n → n < 256 → 128 ≤ (byteChar (UInt8.ofNat n)).toNat := by
    intro n h1 h2
    rw [byteChar_toNat]
    simp
    omega
  simp only [charBytes, String.utf8EncodeChar, if_neg h']
  split
  · refine ⟨_, _, rfl, ?_⟩
    intro y hy
    simp only [List.mem_cons, List.map_cons, List.map_nil, List.not_mem_nil, or_false] at hy
    rcases hy with rfl | rfl <;> exact hb _ (by omega) (by omega)
  · split
    · refine ⟨_, _, rfl, ?_⟩
      intro y hy
      simp only [List.mem_cons, List.map_cons, List.map_nil, List.not_mem_nil, or_false] at hy
      rcases hy with rfl | rfl | rfl <;> exact hb _ (by omega) (by omega)
    · refine ⟨_, _, rfl, ?_⟩
      intro y hy
      simp only [List.mem_cons, List.map_cons, List.map_nil, List.not_mem_nil, or_false] at hy
      rcases hy with rfl | rfl | rfl | rfl <;> exact hb _ (by omega) (by omega)

/-- The first parser does on bytes what the second does on characters. -/
def SameP {α : Type} (p q : P α) : Prop := ∀ s, p (bytes s) = inBytes (q s)

variable {α β : Type}

theorem same_ret (a : α) : SameP (ret a) (ret a) := fun _ => rfl

theorem same_bind {p q : P α} {k l : α → P β} (h : SameP p q) (hk : ∀ a, SameP (k a) (l a)) : SameP (Nom.bind p k) (Nom.bind q l) := by
  intro s
  simp only [Nom.bind, h s]
  cases q s with
  | done r a => exact hk a r
  | error => rfl
  | incomplete => rfl

theorem same_map {p q : P α} (h : SameP p q) (f : α → β) : SameP (Nom.map p f) (Nom.map q f) :=
  same_bind h fun a => same_ret (f a)

theorem same_tag (t : List Char) (ht : ∀ ch ∈ t, ch.toNat < 128) : SameP (tag t) (tag t) := by
  induction t with
  | nil => intro s; cases s <;> simp [tag, inBytes, bytes_nil]
  | cons a t ih =>
    intro s
    cases s with
    | nil => rfl
    | cons x s =>
      rw [bytes_cons]
      by_cases hx : x.toNat < 128
      · rw [charBytes_ascii hx]
        simp only [List.cons_append, List.nil_append, tag]
        by_cases e : a = x
        · rw [if_pos e, if_pos e]
          exact ih (fun ch h => ht ch (List.mem_cons_of_mem _ h)) s
        · rw [if_neg e, if_neg e]; rfl
      · obtain ⟨y, ys, e, hy⟩ := charBytes_other hx
        rw [e]
        have ha := ht a (by simp)
        have h1 : a ≠ y := by intro e; have := hy y (by simp); rw [e] at ha; omega
        have h2 : a ≠ x := by intro e; rw [e] at ha; omega
        simp only [List.cons_append, tag, if_neg h1, if_neg h2]; rfl

/-- A test on characters that only ASCII characters pass. -/
theorem bytes_dropWhile (f : Char → Bool) (hf : ∀ ch, f ch = true → ch.toNat < 128) (s : List Char) :
    (bytes s).dropWhile f = bytes (s.dropWhile f) ∧ (bytes s).takeWhile f = s.takeWhile f := by
  induction s with
  | nil => exact ⟨rfl, rfl⟩
  | cons x s ih =>
    rw [bytes_cons]
    by_cases hx : x.toNat < 128
    · rw [charBytes_ascii hx]
      by_cases h : f x = true
      · simp [List.dropWhile, List.takeWhile, h, ih]
      · simp only [Bool.not_eq_true] at h
        simp [List.dropWhile, List.takeWhile, h, bytes_cons, charBytes_ascii hx]
    · obtain ⟨y, ys, e, hy⟩ := charBytes_other hx
      have h1 : f x = false := by
        cases h : f x with
        | false => rfl
        | true => exact absurd (hf x h) hx
      have h2 : f y = false := by
        cases h : f y with
        | false => rfl
        | true => have := hf y h; have := hy y (by simp); omega
      rw [e]
      simp [List.dropWhile, List.takeWhile, h1, h2, bytes_cons, e]

theorem isSp_ascii (ch : Char) (h : isSp ch = true) : ch.toNat < 128 := by
  simp only [isSp, Bool.or_eq_true, decide_eq_true_eq] at h
  rcases h with ((rfl | rfl) | rfl) | rfl <;> decide

theorem isDigit_ascii (ch : Char) (h : Nom.isDigit ch = true) : ch.toNat < 128 := by
  simp only [Nom.isDigit, Bool.and_eq_true, decide_eq_true_eq] at h
  have h2 : ch.val.toNat ≤ 57 := h.2
  simp only [Char.toNat]
  omega

theorem same_sp : SameP sp sp := by
  intro s
  simp only [sp, (bytes_dropWhile _ isSp_ascii s).1]; rfl

theorem same_digit : SameP digit digit := by
  intro s
  cases s with
  | nil => rfl
  | cons x s =>
    obtain ⟨h1, h2⟩ := bytes_dropWhile _ isDigit_ascii (x :: s)
    rw [bytes_cons] at h1 h2 ⊢
    by_cases hx : x.toNat < 128
    · rw [charBytes_ascii hx] at h1 h2 ⊢
      simp only [List.cons_append, List.nil_append] at h1 h2 ⊢
      simp only [digit]
      split
      · rw [h1, h2]; rfl
      · rfl
    · obtain ⟨y, ys, e, hy⟩ := charBytes_other hx
      rw [e]
      have d1 : ¬ Nom.isDigit x = true := fun h => hx (isDigit_ascii x h)
      have d2 : ¬ Nom.isDigit y = true := by intro h; have := isDigit_ascii y h; have := hy y (by simp); omega
      simp only [List.cons_append, digit, if_neg d1, if_neg d2]; rfl

theorem same_ws {p q : P α} (h : SameP p q) : SameP (ws p) (ws q) :=
  same_bind same_sp fun _ => same_bind h fun _ => same_bind same_sp fun _ => same_ret _

theorem same_mapRes {p q : P α} (h : SameP p q) (f : α → Option β) : SameP (mapRes p f) (mapRes q f) :=
  same_bind h fun a s => by
    show (match f a with | some b => IRes.done (bytes s) b | none => .error) = _
    cases f a <;> rfl

theorem same_complete {p q : P α} (h : SameP p q) : SameP (complete p) (complete q) := by
  intro s
  simp only [complete, h s]
  cases q s <;> rfl

theorem same_opt {p q : P α} (h : SameP p q) : SameP (opt p) (opt q) := by
  intro s
  simp only [opt, h s]
  cases q s <;> rfl

/-- Two lists of parsers, one after the other. -/
inductive SamePs : List (P α) → List (P α) → Prop
  | nil : SamePs [] []
  | cons {p q : P α} {ps qs : List (P α)} (h : SameP p q) (hs : SamePs ps qs) : SamePs (p :: ps) (q :: qs)

theorem same_alt {ps qs : List (P α)} (h : SamePs ps qs) : SameP (alt ps) (alt qs) := by
  induction h with
  | nil => intro s; rfl
  | @cons p q ps qs h _ ih =>
    intro s
    simp only [alt, h s]
    cases q s with
    | done r a => rfl
    | error => exact ih s
    | incomplete => rfl

theorem same_altComplete {ps qs : List (P α)} (h : SamePs ps qs) : SameP (altComplete ps) (altComplete qs) := by
  unfold altComplete
  apply same_alt
  induction h with
  | nil => exact .nil
  | cons h _ ih => exact .cons (same_complete h) ih

theorem same_tok (t : String) (ht : ∀ ch ∈ t.toList, ch.toNat < 128) : SameP (tok t) (tok t) := same_tag _ ht

theorem same_integer : SameP integer integer := same_alt (.cons (same_mapRes (same_ws same_digit) _) .nil)

theorem same_unit : SameP unitParser unitParser := by
  unfold unitParser
  apply same_altComplete
  repeat' first
    | exact .nil
    | refine .cons (same_map (same_tok _ (by decide)) _) ?_

theorem same_alias : SameP unitAlias unitAlias := by
  unfold unitAlias
  apply same_altComplete
  repeat' first
    | exact .nil
    | refine .cons (same_map (same_tok _ (by decide)) _) ?_

theorem same_operator : SameP operatorParser operatorParser := by
  unfold operatorParser
  apply same_alt
  repeat' first
    | exact .nil
    | refine .cons (same_map (same_tok _ (by decide)) _) ?_

theorem same_amount : SameP amountParser amountParser :=
  same_alt (.cons (same_bind same_integer fun _ => same_bind same_unit fun _ => same_ret _)
    (.cons (same_bind same_alias fun _ => same_ret _) .nil))

theorem same_amountExprN (n : Nat) : SameP (amountExprN n) (amountExprN n) := by
  induction n with
  | zero => intro s; rfl
  | succ n ih =>
    exact same_bind same_amount fun _ => same_bind (same_opt same_sp) fun _ =>
      same_bind (same_opt (same_complete (same_bind same_operator fun _ => same_bind (same_opt same_sp) fun _ => same_bind ih fun _ => same_ret _)))
        fun _ => same_ret _

theorem length_bytes (s : List Char) : s.length ≤ (bytes s).length := by
  induction s with
  | nil => simp
  | cons x s ih =>
    rw [bytes_cons, List.length_append, List.length_cons]
    have : 1 ≤ (charBytes x).length := by
      by_cases hx : x.toNat < 128
      · rw [charBytes_ascii hx]; simp
      · obtain ⟨y, ys, e, _⟩ := charBytes_other hx
        rw [e]; simp
    omega

theorem same_amountExpr : SameP amountExpr amountExpr := by
  intro s
  have h := same_amountExprN ((bytes s).length + 1) s
  rw [amountExprN_stable _ (bytes s) (by omega), amountExprN_stable _ s (by have := length_bytes s; omega)] at h
  exact h

theorem same_exact {raw iso : Iso} (h : SameIso raw iso) : SameP (exactDateParser raw) (exactDateParser iso) :=
  same_altComplete (.cons (same_map (same_tok _ (by decide)) _) (.cons (same_map (same_tok _ (by decide)) _)
    (.cons (same_map (same_tok _ (by decide)) _) (.cons (same_bind h.datetime fun _ => same_ret _)
      (.cons (same_bind h.date fun _ => same_ret _) .nil)))))

theorem same_date {raw iso : Iso} (h : SameIso raw iso) : SameP (date raw) (date iso) :=
  same_bind (same_exact h) fun _ => same_bind (same_opt (same_complete (same_bind same_sp fun _ => same_bind same_operator fun _ =>
    same_bind same_sp fun _ => same_bind same_amountExpr fun _ => same_ret _))) fun _ => same_ret _

theorem same_timetype {raw iso : Iso} (h : SameIso raw iso) : SameP (timetype raw) (timetype iso) :=
  same_alt (.cons (same_bind (same_date h) fun _ => same_ret _) (.cons (same_bind same_amountExpr fun _ => same_ret _) .nil))

theorem same_iterSpec : SameP iterSpec iterSpec := by
  unfold iterSpec
  apply same_altComplete
  repeat' first
    | exact .nil
    | refine .cons (same_map (same_tok _ (by decide)) _) ?_
    | refine .cons (same_bind (same_tok _ (by decide)) fun _ => same_bind same_integer fun _ => same_bind same_unit fun _ => same_ret _) ?_

theorem same_untilSpec {raw iso : Iso} (h : SameIso raw iso) : SameP (untilSpec raw) (untilSpec iso) :=
  same_altComplete (.cons (same_bind (same_tok _ (by decide)) fun _ => same_bind same_sp fun _ => same_bind (same_exact h) fun _ => same_ret _)
    (.cons (same_bind same_integer fun _ => same_bind same_sp fun _ => same_bind (same_tok _ (by decide)) fun _ => same_ret _) .nil))

theorem same_iterator {raw iso : Iso} (h : SameIso raw iso) : SameP (iterator raw) (iterator iso) :=
  same_bind (same_opt same_sp) fun _ => same_bind (same_date h) fun _ => same_bind (same_opt same_sp) fun _ => same_bind same_iterSpec fun _ =>
    same_bind (same_opt same_sp) fun _ => same_bind (same_opt (same_complete (same_untilSpec h))) fun _ => same_ret _

theorem same_doParse (c : Cfg) {raw iso : Iso} (h : SameIso raw iso) (now now' : Moment) :
    SameP (doParse c raw now now') (doParse c iso now now') :=
  same_altComplete (.cons (same_bind (same_iterator h) fun _ => same_ret _) (.cons (same_bind (same_timetype h) fun _ => same_ret _) .nil))

/-- If only ASCII has been used up, what is left are the bytes of the end of the text. -/
theorem bytes_split (t r : List Char) (ht : ∀ ch ∈ t, ch.toNat < 128) (s : List Char) (h : bytes s = t ++ r) :
    ∃ s', s = t ++ s' ∧ r = bytes s' := by
  induction t generalizing s with
  | nil => exact ⟨s, rfl, by simpa using h.symm⟩
  | cons a t ih =>
    cases s with
    | nil => simp [bytes_nil] at h
    | cons x s =>
      rw [bytes_cons] at h
      by_cases hx : x.toNat < 128
      · rw [charBytes_ascii hx] at h
        simp only [List.cons_append, List.nil_append, List.cons.injEq] at h
        obtain ⟨s', e1, e2⟩ := ih (fun ch hch => ht ch (List.mem_cons_of_mem _ hch)) s h.2
        exact ⟨s', by rw [h.1, e1]; rfl, e2⟩
      · obtain ⟨y, ys, e, hy⟩ := charBytes_other hx
        rw [e] at h
        simp only [List.cons_append, List.cons.injEq] at h
        have h1 := hy y (by simp)
        have h2 := ht a (by simp)
        rw [h.1] at h1
        omega

/-- A parser on characters, from one on bytes that uses up as many bytes as characters. -/
def onChars (p : P α) : P α := fun s =>
  match p (bytes s) with
  | .done r a => .done (s.drop ((bytes s).length - r.length)) a
  | .error => .error
  | .incomplete => .incomplete

theorem onChars_same (p : P α) (hp : ∀ i r a, p i = .done r a → ∃ t, i = t ++ r ∧ ∀ ch ∈ t, ch.toNat < 128) : SameP p (onChars p) := by
  intro s
  simp only [onChars]
  cases h : p (bytes s) with
  | done r a =>
    obtain ⟨t, e, ht⟩ := hp _ _ _ h
    obtain ⟨s', e1, e2⟩ := bytes_split t r ht s e
    rw [e]
    simp only [inBytes, List.length_append, Nat.add_sub_cancel]
    rw [e1, List.drop_left, e2]
  | error => rfl
  | incomplete => rfl

theorem onChars_done (p : P α) {s r : List Char} {a : α} (h : onChars p s = .done r a) : r <:+ s ∧ ∃ r', p (bytes s) = .done r' a := by
  simp only [onChars] at h
  cases e : p (bytes s) with
  | done r' a' =>
    rw [e] at h
    cases h
    exact ⟨List.drop_suffix _ _, r', rfl⟩
  | error => rw [e] at h; cases h
  | incomplete => rw [e] at h; cases h

end Props
