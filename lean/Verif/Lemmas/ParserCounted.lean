import Verif.Spec.Steps
import Verif.Lemmas.Parser

/-! The counting parsers return what the others return, and their steps are bounded. -/

namespace Nom.Counted

variable {α β : Type}

theorem erase_ret (a : α) : erase (ret a) = Nom.ret a := rfl

theorem erase_bind (p : P α) (k : α → P β) : erase (bind p k) = Nom.bind (erase p) fun a => erase (k a) := by
  funext i
  simp only [erase, bind, Nom.bind]
  rcases p i with ⟨r, n⟩
  cases r <;> rfl

theorem erase_map (p : P α) (f : α → β) : erase (map p f) = Nom.map (erase p) f := by
  unfold map
  rw [erase_bind]
  rfl

theorem erase_tag (t : List Char) : erase (tag t) = Nom.tag t := by
  induction t with
  | nil => funext i; cases i <;> rfl
  | cons t ts ih =>
    funext i
    cases i with
    | nil => rfl
    | cons x xs =>
      simp only [erase, tag, Nom.tag]
      split
      · exact congrFun ih xs
      · rfl

theorem erase_sp : erase sp = Nom.sp := rfl

theorem erase_digit : erase digit = Nom.digit := by
  funext i
  cases i with
  | nil => rfl
  | cons x xs =>
    simp only [erase, digit, Nom.digit]
    split <;> rfl

theorem erase_ws (p : P α) : erase (ws p) = Nom.ws (erase p) := by
  simp only [ws, Nom.ws, erase_bind, erase_sp, erase_ret]

theorem erase_mapRes (p : P α) (f : α → Option β) (n : α → Nat) : erase (mapRes p f n) = Nom.mapRes (erase p) f := by
  unfold mapRes Nom.mapRes
  rw [erase_bind]
  congr
  funext a i
  simp only [erase]
  cases f a <;> rfl

theorem erase_complete (p : P α) : erase (complete p) = Nom.complete (erase p) := by
  funext i
  simp only [erase, complete, Nom.complete]
  rcases p i with ⟨r, n⟩
  cases r <;> rfl

theorem erase_opt (p : P α) : erase (opt p) = Nom.opt (erase p) := by
  funext i
  simp only [erase, opt, Nom.opt]
  rcases p i with ⟨r, n⟩
  cases r <;> rfl

theorem erase_alt (ps : List (P α)) : erase (alt ps) = Nom.alt (ps.map erase) := by
  induction ps with
  | nil => rfl
  | cons p ps ih =>
    funext i
    have h := congrFun ih i
    simp only [erase] at h
    simp only [erase, alt, List.map_cons, Nom.alt]
    rcases p i with ⟨r, n⟩
    cases r
    · rfl
    · exact h
    · rfl

theorem erase_altComplete (ps : List (P α)) : erase (altComplete ps) = Nom.altComplete (ps.map erase) := by
  unfold altComplete Nom.altComplete
  rw [erase_alt, List.map_map, List.map_map]
  congr 2
  funext p
  exact erase_complete p

/-! ### bounds -/

theorem Bound.mono {p : P α} {a b a' b' : Nat} (h : Bound a b p) (ha : a ≤ a') (hb : b ≤ b') : Bound a' b' p := fun i =>
  ⟨Nat.le_trans (h i).1 (Nat.add_le_add (Nat.mul_le_mul_right _ ha) hb), (h i).2⟩

theorem Bound.ret (x : α) : Bound 0 0 (ret x) := fun i =>
  ⟨Nat.zero_le _, fun r y h => by
    simp only [Counted.ret, IRes.done.injEq] at h; rw [h.1]; exact Nat.le_refl _⟩

theorem Bound.bind {p : P α} {k : α → P β} {a b a' b' : Nat} (h : Bound a b p) (hk : ∀ x, Bound a' b' (k x)) :
    Bound (a + a') (b + b') (bind p k) := by
  intro i
  have hp := h i
  simp only [Counted.bind]
  rcases hr : p i with ⟨r, n⟩
  rw [hr] at hp
  cases r with
  | done r x =>
    obtain ⟨h1, h2⟩ := hp
    have h2 := h2 r x rfl
    obtain ⟨h3, h4⟩ := hk x r
    refine ⟨?_, fun r' y hy => Nat.le_trans (h4 r' y hy) h2⟩
    simp only at h1 ⊢
    have := Nat.mul_le_mul_left a' h2
    rw [Nat.add_mul]
    omega
  | error =>
    refine ⟨?_, fun r' y hy => by cases hy⟩
    have := hp.1
    simp only at this ⊢
    rw [Nat.add_mul]
    omega
  | incomplete =>
    refine ⟨?_, fun r' y hy => by cases hy⟩
    have := hp.1
    simp only at this ⊢
    rw [Nat.add_mul]
    omega

theorem Bound.map {p : P α} {f : α → β} {a b : Nat} (h : Bound a b p) : Bound a b (map p f) :=
  h.bind fun x => Bound.ret (f x)

theorem Bound.complete {p : P α} {a b : Nat} (h : Bound a b p) : Bound a b (complete p) := by
  intro i
  have hp := h i
  simp only [Counted.complete]
  rcases hr : p i with ⟨r, n⟩
  rw [hr] at hp
  cases r with
  | done r x => exact hp
  | error => exact hp
  | incomplete => exact ⟨hp.1, fun r x h => by cases h⟩

theorem Bound.opt {p : P α} {a b : Nat} (h : Bound a b p) : Bound a b (opt p) := by
  intro i
  have hp := h i
  simp only [Counted.opt]
  rcases hr : p i with ⟨r, n⟩
  rw [hr] at hp
  cases r with
  | done r x => exact ⟨hp.1, fun r' y h => by cases h; exact hp.2 r x rfl⟩
  | error => exact ⟨hp.1, fun r' y h => by cases h; exact Nat.le_refl _⟩
  | incomplete => exact ⟨hp.1, fun r x h => by cases h⟩

theorem Bound.nil : Bound 0 0 (alt ([] : List (P α))) := fun _ => ⟨Nat.zero_le _, fun _ _ h => by cases h⟩

theorem Bound.cons {p : P α} {ps : List (P α)} {a b a' b' : Nat} (h : Bound a b p) (hs : Bound a' b' (alt ps)) :
    Bound (a + a') (b + b') (alt (p :: ps)) := by
  intro i
  have hp := h i
  have hq := hs i
  simp only [alt]
  rcases hr : p i with ⟨r, n⟩
  rw [hr] at hp
  rw [Nat.add_mul]
  cases r with
  | done r x => exact ⟨by have := hp.1; simp only at this ⊢; omega, hp.2⟩
  | error => exact ⟨by have := hp.1; have := hq.1; simp only at *; omega, hq.2⟩
  | incomplete => exact ⟨by have := hp.1; simp only at this ⊢; omega, hp.2⟩

theorem Bound.nilc : Bound 0 0 (altComplete ([] : List (P α))) := Bound.nil

theorem Bound.consc {p : P α} {ps : List (P α)} {a b a' b' : Nat} (h : Bound a b p) (hs : Bound a' b' (altComplete ps)) :
    Bound (a + a') (b + b') (altComplete (p :: ps)) := Bound.cons h.complete hs

theorem Bound.tag (t : List Char) : Bound 0 (t.length + 1) (tag t) := by
  induction t with
  | nil => intro i; exact ⟨by simp [Counted.tag], fun r x h => by cases i <;> cases h <;> exact Nat.le_refl _⟩
  | cons t ts ih =>
    intro i
    cases i with
    | nil => exact ⟨by simp [Counted.tag], fun r x h => by cases h⟩
    | cons x xs =>
      obtain ⟨h1, h2⟩ := ih xs
      simp only [Counted.tag]
      split
      · refine ⟨?_, fun r y h => ?_⟩
        · simp only [List.length_cons] at *; omega
        · have := h2 r y h; simp only [List.length_cons]; omega
      · exact ⟨by simp, fun r x h => by cases h⟩

theorem while_length (p : Char → Bool) (i : List Char) : (i.takeWhile p).length + (i.dropWhile p).length = i.length := by
  rw [← List.length_append, List.takeWhile_append_dropWhile]

theorem Bound.sp : Bound 1 1 sp := by
  intro i
  have := while_length isSp i
  refine ⟨?_, fun r x h => ?_⟩
  · simp only [Counted.sp]; omega
  · simp only [Counted.sp, IRes.done.injEq] at h; rw [← h.1]; omega

end Nom.Counted

namespace Kairos.Parser.Counted
open Nom.Counted

theorem erase_tok (s : String) : erase (tok s) = Parser.tok s := erase_tag _

theorem erase_integer : erase integer = Parser.integer := by
  simp only [integer, Parser.integer, erase_alt, List.map, erase_mapRes, erase_ws, erase_digit]

theorem erase_unitParser : erase unitParser = Parser.unitParser := by
  simp only [unitParser, Parser.unitParser, erase_altComplete, List.map, erase_map, erase_tok]

theorem erase_operatorParser : erase operatorParser = Parser.operatorParser := by
  simp only [operatorParser, Parser.operatorParser, erase_alt, List.map, erase_map, erase_tok]

theorem erase_unitAlias : erase unitAlias = Parser.unitAlias := by
  simp only [unitAlias, Parser.unitAlias, erase_altComplete, List.map, erase_map, erase_tok]

theorem erase_amountParser : erase amountParser = Parser.amountParser := by
  simp only [amountParser, Parser.amountParser, erase_alt, List.map, erase_bind, erase_ret, erase_integer, erase_unitParser, erase_unitAlias]

theorem erase_amountExprBody (r : P AmountExpr) : erase (amountExprBody r) = Parser.amountExprBody (erase r) := by
  simp only [amountExprBody, Parser.amountExprBody, amountExprNext, Parser.amountExprNext, erase_bind, erase_ret, erase_opt, erase_complete,
    erase_sp, erase_amountParser, erase_operatorParser]

theorem erase_amountExprN (n : Nat) : erase (amountExprN n) = Parser.amountExprN n := by
  induction n with
  | zero => rfl
  | succ n ih => simp only [amountExprN, Parser.amountExprN, erase_amountExprBody, ih]

theorem erase_amountExpr : erase amountExpr = Parser.amountExpr := by
  funext i
  exact congrFun (erase_amountExprN (i.length + 1)) i

theorem erase_exactDateParser (iso : CountedIso) : erase (exactDateParser iso) = Parser.exactDateParser iso.erase := by
  simp only [exactDateParser, Parser.exactDateParser, erase_altComplete, List.map, erase_map, erase_bind, erase_ret, erase_tok, CountedIso.erase]

theorem erase_date (iso : CountedIso) : erase (date iso) = Parser.date iso.erase := by
  simp only [date, Parser.date, erase_bind, erase_ret, erase_opt, erase_complete, erase_sp, erase_operatorParser, erase_amountExpr,
    erase_exactDateParser]

theorem erase_timetype (iso : CountedIso) : erase (timetype iso) = Parser.timetype iso.erase := by
  simp only [timetype, Parser.timetype, erase_alt, List.map, erase_bind, erase_ret, erase_date, erase_amountExpr]

theorem erase_iterSpec : erase iterSpec = Parser.iterSpec := by
  simp only [iterSpec, Parser.iterSpec, erase_altComplete, List.map, erase_map, erase_bind, erase_ret, erase_tok, erase_integer, erase_unitParser]

theorem erase_untilSpec (iso : CountedIso) : erase (untilSpec iso) = Parser.untilSpec iso.erase := by
  simp only [untilSpec, Parser.untilSpec, erase_altComplete, List.map, erase_bind, erase_ret, erase_tok, erase_sp, erase_integer,
    erase_exactDateParser]

theorem erase_iterator (iso : CountedIso) : erase (iterator iso) = Parser.iterator iso.erase := by
  simp only [iterator, Parser.iterator, erase_bind, erase_ret, erase_opt, erase_complete, erase_sp, erase_date, erase_iterSpec, erase_untilSpec]

theorem erase_doParse (c : Cfg) (iso : CountedIso) (now now' : Moment) :
    erase (doParse c iso now now') = Parser.doParse c iso.erase now now' := by
  simp only [doParse, Parser.doParse, erase_altComplete, List.map, erase_bind, erase_ret, erase_iterator, erase_timetype]

/-! ### bounds -/

theorem bound_word {α : Type} (s : String) (f : Unit → α) (n : Nat) (h : s.toList.length + 1 = n) : Bound 0 n (map (tok s) f) :=
  h ▸ (Bound.tag s.toList).map

theorem bound_unitParser : Bound 0 120 unitParser := by
  have := ((bound_word "seconds" (fun _ => TimeUnit.second) 8 rfl).consc <| (bound_word "second" (fun _ => TimeUnit.second) 7 rfl).consc <|
    (bound_word "secs" (fun _ => TimeUnit.second) 5 rfl).consc <| (bound_word "sec" (fun _ => TimeUnit.second) 4 rfl).consc <|
    (bound_word "s" (fun _ => TimeUnit.second) 2 rfl).consc <| (bound_word "minutes" (fun _ => TimeUnit.minute) 8 rfl).consc <|
    (bound_word "minute" (fun _ => TimeUnit.minute) 7 rfl).consc <| (bound_word "mins" (fun _ => TimeUnit.minute) 5 rfl).consc <|
    (bound_word "min" (fun _ => TimeUnit.minute) 4 rfl).consc <| (bound_word "hours" (fun _ => TimeUnit.hour) 6 rfl).consc <|
    (bound_word "hour" (fun _ => TimeUnit.hour) 5 rfl).consc <| (bound_word "hrs" (fun _ => TimeUnit.hour) 4 rfl).consc <|
    (bound_word "hr" (fun _ => TimeUnit.hour) 3 rfl).consc <| (bound_word "days" (fun _ => TimeUnit.day) 5 rfl).consc <|
    (bound_word "day" (fun _ => TimeUnit.day) 4 rfl).consc <| (bound_word "d" (fun _ => TimeUnit.day) 2 rfl).consc <|
    (bound_word "weeks" (fun _ => TimeUnit.week) 6 rfl).consc <| (bound_word "week" (fun _ => TimeUnit.week) 5 rfl).consc <|
    (bound_word "w" (fun _ => TimeUnit.week) 2 rfl).consc <| (bound_word "months" (fun _ => TimeUnit.month) 7 rfl).consc <|
    (bound_word "month" (fun _ => TimeUnit.month) 6 rfl).consc <| (bound_word "years" (fun _ => TimeUnit.year) 6 rfl).consc <|
    (bound_word "year" (fun _ => TimeUnit.year) 5 rfl).consc <| (bound_word "yrs" (fun _ => TimeUnit.year) 4 rfl).consc Bound.nilc)
  exact this

theorem bound_unitAlias : Bound 0 53 unitAlias := by
  have := ((bound_word "secondly" (fun _ => UnitAlias.secondly) 9 rfl).consc <| (bound_word "minutely" (fun _ => UnitAlias.minutely) 9 rfl).consc <|
    (bound_word "hourly" (fun _ => UnitAlias.hourly) 7 rfl).consc <| (bound_word "daily" (fun _ => UnitAlias.daily) 6 rfl).consc <|
    (bound_word "weekly" (fun _ => UnitAlias.weekly) 7 rfl).consc <| (bound_word "monthly" (fun _ => UnitAlias.monthly) 8 rfl).consc <|
    (bound_word "yearly" (fun _ => UnitAlias.yearly) 7 rfl).consc Bound.nilc)
  exact this

theorem bound_operatorParser : Bound 0 4 operatorParser :=
  ((bound_word "+" (fun _ => Operator.plus) 2 rfl).cons <| (bound_word "-" (fun _ => Operator.minus) 2 rfl).cons Bound.nil)

/-- The steps of reading a number: three for each character read, and three more. -/
theorem integer_steps (i : List Char) : (integer i).2 ≤ 3 * i.length + 3 ∧
    ∀ r n, (integer i).1 = .done r n → r.length < i.length ∧ (integer i).2 + 3 * r.length ≤ 3 * i.length + 3 := by
  have h1 := while_length Nom.isSp i
  cases hi : i.dropWhile Nom.isSp with
  | nil =>
    have e : integer i = (.incomplete, (i.takeWhile Nom.isSp).length + 1 + 1) := by
      simp [integer, alt, mapRes, ws, Nom.Counted.bind, sp, digit, hi]
    rw [e]
    exact ⟨by simp only; omega, fun r n h => by cases h⟩
  | cons x xs =>
    rw [hi] at h1
    by_cases hd : Nom.isDigit x = true
    · have h2 := while_length Nom.isDigit (x :: xs)
      have h3 := while_length Nom.isSp ((x :: xs).dropWhile Nom.isDigit)
      have h4 : 0 < ((x :: xs).takeWhile Nom.isDigit).length := by simp [hd]
      cases hf : i64FromStr ((x :: xs).takeWhile Nom.isDigit) with
      | none =>
        have e : integer i = (.error, (i.takeWhile Nom.isSp).length + 1 + (((x :: xs).takeWhile Nom.isDigit).length + 1 +
            ((((x :: xs).dropWhile Nom.isDigit).takeWhile Nom.isSp).length + 1)) + 2 * ((x :: xs).takeWhile Nom.isDigit).length) := by
          simp only [integer, alt, mapRes, ws, Nom.Counted.bind, sp, digit, hi, hd, if_true, hf, Nom.Counted.ret, Nat.add_zero]
        rw [e]
        exact ⟨by simp only; omega, fun r n h => by cases h⟩
      | some v =>
        have e : integer i = (.done (((x :: xs).dropWhile Nom.isDigit).dropWhile Nom.isSp) v,
            (i.takeWhile Nom.isSp).length + 1 + (((x :: xs).takeWhile Nom.isDigit).length + 1 +
            ((((x :: xs).dropWhile Nom.isDigit).takeWhile Nom.isSp).length + 1)) + 2 * ((x :: xs).takeWhile Nom.isDigit).length) := by
          simp only [integer, alt, mapRes, ws, Nom.Counted.bind, sp, digit, hi, hd, if_true, hf, Nom.Counted.ret, Nat.add_zero]
        rw [e]
        refine ⟨by simp only; omega, fun r n h => ?_⟩
        simp only [Nom.IRes.done.injEq] at h
        rw [← h.1]
        simp only
        omega
    · have e : integer i = (.error, (i.takeWhile Nom.isSp).length + 1 + 1) := by
        simp [integer, alt, mapRes, ws, Nom.Counted.bind, sp, digit, hi, hd]
      rw [e]
      exact ⟨by simp only; omega, fun r n h => by cases h⟩

theorem bound_integer : Bound 3 3 integer := fun i =>
  ⟨(integer_steps i).1, fun r n h => Nat.le_of_lt ((integer_steps i).2 r n h).1⟩

/-- A word of the language is at the start: nothing is read of a number. -/
theorem integer_letter {ch : Char} {i : List Char} (h1 : Nom.isSp ch = false) (h2 : Nom.isDigit ch = false) :
    integer (ch :: i) = (.error, 2) := by
  simp [integer, alt, mapRes, ws, Nom.Counted.bind, sp, digit, h1, h2]

theorem alias_start {i : List Char} {r : List Char} {u : UnitAlias} (h : (unitAlias i).1 = .done r u) :
    ∃ ch j, i = ch :: j ∧ Nom.isSp ch = false ∧ Nom.isDigit ch = false ∧ r.length < i.length := by
  have h : erase unitAlias i = .done r u := h
  rw [erase_unitAlias] at h
  have h := unitAlias_done h
  cases hu : u.into <;> rw [hu] at h <;> subst h <;>
    exact ⟨_, _, rfl, by decide, by decide, by simp [Spec.aliasOf]; omega⟩

/-- The steps of reading an amount: three for each character read, and 176 more. -/
theorem amountParser_steps (i : List Char) : (amountParser i).2 ≤ 3 * i.length + 176 ∧
    ∀ r a, (amountParser i).1 = .done r a → r.length < i.length ∧ (amountParser i).2 + 3 * r.length ≤ 3 * i.length + 176 := by
  obtain ⟨a1, a2⟩ := bound_unitAlias i
  obtain ⟨h1, h2⟩ := integer_steps i
  -- the alias, after something else failed
  have alias : ∀ n, n ≤ 3 * i.length + 123 → (∀ ch j, i = ch :: j → Nom.isSp ch = false → Nom.isDigit ch = false → n = 2) →
      ((alt [Nom.Counted.bind unitAlias fun u => Nom.Counted.ret (Amount.mk 1 u.into)] i).2 + n ≤ 3 * i.length + 176) ∧
      ∀ r a, (alt [Nom.Counted.bind unitAlias fun u => Nom.Counted.ret (Amount.mk 1 u.into)] i).1 = .done r a →
        r.length < i.length ∧ (alt [Nom.Counted.bind unitAlias fun u => Nom.Counted.ret (Amount.mk 1 u.into)] i).2 + n + 3 * r.length ≤
          3 * i.length + 176 := by
    intro n hn h
    simp only [alt, Nom.Counted.bind, Nom.Counted.ret]
    rcases hu : unitAlias i with ⟨o, m⟩
    rw [hu] at a1
    cases o with
    | done r u =>
      obtain ⟨ch, j, g1, g2, g3, g4⟩ := alias_start (i := i) (r := r) (u := u) (by rw [hu])
      have := h ch j g1 g2 g3
      simp only at a1 ⊢
      refine ⟨by omega, fun r' a e => ?_⟩
      simp only [Nom.IRes.done.injEq] at e
      rw [← e.1]
      omega
    | error => simp only at a1 ⊢; exact ⟨by omega, fun r a e => by cases e⟩
    | incomplete => simp only at a1 ⊢; exact ⟨by omega, fun r a e => by cases e⟩
  have letters : ∀ ch j, i = ch :: j → Nom.isSp ch = false → Nom.isDigit ch = false → (integer i).1 = .error ∧ (integer i).2 = 2 := by
    intro ch j e g1 g2
    rw [e, integer_letter g1 g2]
    exact ⟨rfl, rfl⟩
  rw [amountParser, alt]
  rcases hi : integer i with ⟨o, n⟩
  rw [hi] at h1 h2 letters
  simp only at h1 h2 letters
  cases o with
  | done r1 v =>
    obtain ⟨h3, h4⟩ := h2 r1 v rfl
    obtain ⟨u1, u2⟩ := bound_unitParser r1
    rcases hu : unitParser r1 with ⟨o, m⟩
    rw [hu] at u1 u2
    simp only at u1 u2
    cases o with
    | done r2 u =>
      have e : Nom.Counted.bind integer (fun number => Nom.Counted.bind unitParser fun unit => Nom.Counted.ret (Amount.mk number unit)) i =
          (.done r2 ⟨v, u⟩, n + m) := by
        simp only [Nom.Counted.bind, hi, hu, Nom.Counted.ret, Nat.add_zero]
      rw [e]
      have := u2 r2 u rfl
      simp only
      refine ⟨by omega, fun r' a e => ?_⟩
      simp only [Nom.IRes.done.injEq] at e
      rw [← e.1]
      omega
    | error =>
      have e : Nom.Counted.bind integer (fun number => Nom.Counted.bind unitParser fun unit => Nom.Counted.ret (Amount.mk number unit)) i =
          (.error, n + m) := by
        simp only [Nom.Counted.bind, hi, hu]
      rw [e]
      simp only
      have := alias (n + m) (by omega) (fun ch j g g1 g2 => by have := (letters ch j g g1 g2).1; cases this)
      exact ⟨by omega, fun r a h => by have := this.2 r a h; omega⟩
    | incomplete =>
      have e : Nom.Counted.bind integer (fun number => Nom.Counted.bind unitParser fun unit => Nom.Counted.ret (Amount.mk number unit)) i =
          (.incomplete, n + m) := by
        simp only [Nom.Counted.bind, hi, hu]
      rw [e]
      simp only
      exact ⟨by omega, fun r a h => by cases h⟩
  | error =>
    have e : Nom.Counted.bind integer (fun number => Nom.Counted.bind unitParser fun unit => Nom.Counted.ret (Amount.mk number unit)) i =
        (.error, n) := by
      simp only [Nom.Counted.bind, hi]
    rw [e]
    simp only
    have := alias n (by omega) (fun ch j g g1 g2 => (letters ch j g g1 g2).2)
    exact ⟨by omega, fun r a h => by have := this.2 r a h; omega⟩
  | incomplete =>
    have e : Nom.Counted.bind integer (fun number => Nom.Counted.bind unitParser fun unit => Nom.Counted.ret (Amount.mk number unit)) i =
        (.incomplete, n) := by
      simp only [Nom.Counted.bind, hi]
    rw [e]
    simp only
    exact ⟨by omega, fun r a h => by cases h⟩

theorem operator_shorter {i r : List Char} {op : Operator} (h : (operatorParser i).1 = .done r op) : r.length + 1 = i.length := by
  have h : erase operatorParser i = .done r op := h
  rw [erase_operatorParser] at h
  rw [operator_done h]
  rfl

theorem sp_steps (i : List Char) : 0 < (sp i).2 ∧ (sp i).2 + (i.dropWhile Nom.isSp).length = i.length + 1 := by
  have := while_length Nom.isSp i
  exact ⟨Nat.succ_pos _, by simp only [sp]; omega⟩

/-- Reading amounts, whatever the number of levels: nothing is read twice, since after an amount there is only one way to go on. -/
theorem bound_amountExprN (n : Nat) : Bound 94 182 (amountExprN n) := by
  induction n with
  | zero => exact fun i => ⟨Nat.zero_le _, fun r x h => by cases h⟩
  | succ n ih =>
    intro i
    obtain ⟨h1, h2⟩ := amountParser_steps i
    simp only [amountExprN, amountExprBody]
    rcases ha : amountParser i with ⟨o, m⟩
    rw [ha] at h1 h2
    simp only at h1 h2
    cases o with
    | error => simp only [Nom.Counted.bind, ha]; exact ⟨by omega, fun r x h => by cases h⟩
    | incomplete => simp only [Nom.Counted.bind, ha]; exact ⟨by omega, fun r x h => by cases h⟩
    | done r1 a =>
      obtain ⟨h3, h4⟩ := h2 r1 a rfl
      obtain ⟨h5', h5⟩ := sp_steps r1
      generalize hm : (sp r1).2 = m2 at h5 h5'
      have hs : opt sp r1 = (.done (r1.dropWhile Nom.isSp) (some ()), m2) := by rw [← hm]; rfl
      simp only [Nom.Counted.bind, ha, hs]
      generalize r1.dropWhile Nom.isSp = r2 at h5 hs
      obtain ⟨o1, o2⟩ := bound_operatorParser r2
      rcases ho : operatorParser r2 with ⟨o, m3⟩
      rw [ho] at o1
      simp only at o1
      cases o with
      | error =>
        have e : opt (complete (amountExprNext (amountExprN n))) r2 = (.done r2 none, m3) := by
          simp only [opt, complete, amountExprNext, Nom.Counted.bind, ho]
        rw [e]
        simp only [Nom.Counted.ret]
        refine ⟨by omega, fun r x h => ?_⟩
        simp only [Nom.IRes.done.injEq] at h
        rw [← h.1]; omega
      | incomplete =>
        have e : opt (complete (amountExprNext (amountExprN n))) r2 = (.done r2 none, m3) := by
          simp only [opt, complete, amountExprNext, Nom.Counted.bind, ho]
        rw [e]
        simp only [Nom.Counted.ret]
        refine ⟨by omega, fun r x h => ?_⟩
        simp only [Nom.IRes.done.injEq] at h
        rw [← h.1]; omega
      | done r3 op =>
        have h6 := operator_shorter (i := r2) (r := r3) (op := op) (by rw [ho])
        obtain ⟨h7', h7⟩ := sp_steps r3
        generalize hm' : (sp r3).2 = m4 at h7 h7'
        have hs' : opt sp r3 = (.done (r3.dropWhile Nom.isSp) (some ()), m4) := by rw [← hm']; rfl
        generalize hr4 : r3.dropWhile Nom.isSp = r4 at h7 hs'
        obtain ⟨i1, i2⟩ := ih r4
        rcases hx : amountExprN n r4 with ⟨o, m5⟩
        rw [hx] at i1 i2
        simp only at i1 i2
        cases o with
        | error =>
          have e : opt (complete (amountExprNext (amountExprN n))) r2 = (.done r2 none, m3 + (m4 + m5)) := by
            simp only [opt, complete, amountExprNext, Nom.Counted.bind, ho] at hs' ⊢
            simp only [hs', hx]
          rw [e]
          simp only [Nom.Counted.ret]
          refine ⟨by omega, fun r x h => ?_⟩
          simp only [Nom.IRes.done.injEq] at h
          rw [← h.1]; omega
        | incomplete =>
          have e : opt (complete (amountExprNext (amountExprN n))) r2 = (.done r2 none, m3 + (m4 + m5)) := by
            simp only [opt, complete, amountExprNext, Nom.Counted.bind, ho] at hs' ⊢
            simp only [hs', hx]
          rw [e]
          simp only [Nom.Counted.ret]
          refine ⟨by omega, fun r x h => ?_⟩
          simp only [Nom.IRes.done.injEq] at h
          rw [← h.1]; omega
        | done r5 y =>
          have h8 := i2 r5 y rfl
          have e : opt (complete (amountExprNext (amountExprN n))) r2 = (.done r5 (some (op, y)), m3 + (m4 + (m5 + 0))) := by
            simp only [opt, complete, amountExprNext, Nom.Counted.bind, ho] at hs' ⊢
            simp only [hs', hx, Nom.Counted.ret]
          rw [e]
          simp only [Nom.Counted.ret]
          refine ⟨by omega, fun r x h => ?_⟩
          simp only [Nom.IRes.done.injEq] at h
          rw [← h.1]; omega

theorem bound_amountExpr : Bound 94 182 amountExpr := fun i => bound_amountExprN (i.length + 1) i

variable {iso : CountedIso} {k : Nat}

theorem bound_exactDateParser (h : iso.Linear k) : Bound (2 * k) (2 * k + 25) (exactDateParser iso) := by
  have := ((bound_word "today" (fun _ => ExactDate.today) 6 rfl).consc <| (bound_word "yesterday" (fun _ => ExactDate.yesterday) 10 rfl).consc <|
    (bound_word "tomorrow" (fun _ => ExactDate.tomorrow) 9 rfl).consc <| (h.1.bind fun d => Bound.ret (ExactDate.iso8601DateTime d)).consc <|
    (h.2.bind fun d => Bound.ret (ExactDate.iso8601Date d)).consc Bound.nilc)
  exact this.mono (by omega) (by omega)

theorem bound_date (h : iso.Linear k) : Bound (2 * k + 96) (2 * k + 213) (date iso) := by
  have := (bound_exactDateParser h).bind fun exact => (Bound.opt (Bound.complete (Bound.sp.bind fun _ => bound_operatorParser.bind fun op =>
    Bound.sp.bind fun _ => bound_amountExpr.bind fun a => Bound.ret (op, a)))).bind fun o => Bound.ret (PDate.mk exact o)
  exact this.mono (by omega) (by omega)

theorem bound_timetype (h : iso.Linear k) : Bound (2 * k + 190) (2 * k + 395) (timetype iso) := by
  have := ((bound_date h).bind fun d => Bound.ret (PTimeType.date d)).cons <|
    (bound_amountExpr.bind fun a => Bound.ret (PTimeType.amountExpr a)).cons Bound.nil
  exact this.mono (by omega) (by omega)

theorem bound_iterSpec : Bound 3 182 iterSpec := by
  have := ((bound_word "secondly" (fun _ => Iterspec.secondly) 9 rfl).consc <| (bound_word "minutely" (fun _ => Iterspec.minutely) 9 rfl).consc <|
    (bound_word "hourly" (fun _ => Iterspec.hourly) 7 rfl).consc <| (bound_word "daily" (fun _ => Iterspec.daily) 6 rfl).consc <|
    (bound_word "weekly" (fun _ => Iterspec.weekly) 7 rfl).consc <| (bound_word "monthly" (fun _ => Iterspec.monthly) 8 rfl).consc <|
    (bound_word "yearly" (fun _ => Iterspec.yearly) 7 rfl).consc <|
    ((Bound.tag "every".toList).bind fun _ => bound_integer.bind fun number => bound_unitParser.bind fun unit =>
      Bound.ret (Iterspec.every number unit)).consc Bound.nilc)
  exact this.mono (by decide) (by decide)

theorem bound_untilSpec (h : iso.Linear k) : Bound (2 * k + 5) (2 * k + 42) (untilSpec iso) := by
  have := ((Bound.tag "until".toList).bind fun _ => Bound.sp.bind fun _ => (bound_exactDateParser h).bind fun e =>
      Bound.ret (UntilSpec.exact e)).consc <|
    (bound_integer.bind fun n => Bound.sp.bind fun _ => (Bound.tag "times".toList).bind fun _ => Bound.ret (UntilSpec.times n)).consc Bound.nilc
  refine this.mono (by omega) ?_
  have : "until".toList.length = 5 := by decide
  have : "times".toList.length = 5 := by decide
  omega

theorem bound_iterator (h : iso.Linear k) : Bound (4 * k + 107) (4 * k + 440) (iterator iso) := by
  have := Bound.sp.opt.bind fun _ => (bound_date h).bind fun d => Bound.sp.opt.bind fun _ => bound_iterSpec.bind fun spec =>
    Bound.sp.opt.bind fun _ => (bound_untilSpec h).complete.opt.bind fun u => Bound.ret (PIterator.mk d spec u)
  exact this.mono (by omega) (by omega)

theorem bound_doParse (c : Cfg) (h : iso.Linear k) (now now' : Moment) :
    Bound (6 * k + 297) (6 * k + 835) (doParse c iso now now') := by
  have := ((bound_iterator h).bind fun it => Bound.ret (wrapIterator (it.intoUserIterator c now now'))).consc <|
    ((bound_timetype h).bind fun tt => Bound.ret (tt.intoTimetype c now >>= fun t => .ok (.timeType t))).consc Bound.nilc
  exact this.mono (by omega) (by omega)

end Kairos.Parser.Counted
