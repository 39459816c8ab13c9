import Verif.Spec.Reader
import Verif.Lemmas.ParserParse
import Verif.Lemmas.Meaning

/-! The parsers read what the reader of `Spec/Reader.lean` reads. -/

namespace Spec
open Kairos Kairos.Parser Nom

variable {α β : Type}

theorem wir_bind (p : P α) (k : α → P β) (t : List Char) :
    whatIsRead (Nom.bind p k t) = (whatIsRead (p t)).bind fun q => whatIsRead (k q.1 q.2) := by
  unfold Nom.bind IRes.andThen
  cases p t <;> rfl

theorem wir_ret (a : α) (t : List Char) : whatIsRead (ret a t) = some (a, t) := rfl

theorem wir_map (p : P α) (f : α → β) (t : List Char) :
    whatIsRead (Nom.map p f t) = (whatIsRead (p t)).map fun q => (f q.1, q.2) := by
  unfold Nom.map IRes.andThen
  cases p t <;> rfl

theorem wir_complete (p : P α) (t : List Char) : whatIsRead (complete p t) = whatIsRead (p t) := by
  unfold complete
  cases p t <;> rfl

theorem wir_opt (p : P α) (t : List Char) :
    whatIsRead (opt (complete p) t) =
      some (match whatIsRead (p t) with | some (a, r) => (some a, r) | none => (none, t)) := by
  unfold opt complete
  cases p t <;> rfl

theorem wir_altComplete_nil (t : List Char) : whatIsRead (altComplete ([] : List (P α)) t) = none := rfl

theorem wir_altComplete_cons (p : P α) (ps : List (P α)) (t : List Char) :
    whatIsRead (altComplete (p :: ps) t) = (whatIsRead (p t)).or (whatIsRead (altComplete ps t)) := by
  unfold altComplete
  simp only [List.map, alt, complete]
  cases p t <;> simp [whatIsRead]

/-! ### words -/

theorem hits_all {l : List (String × α)} (hp : l.Pairwise fun p q => ¬ p.1.toList <+: q.1.toList) (t : List Char) :
    longest l t = (l.find? fun p => p.1.toList.isPrefixOf t).map fun p => (p.2, t.drop p.1.length) := by
  unfold longest
  simp only
  congr 1
  have hp' := hp.filter (fun w => w.1.toList.isPrefixOf t)
  have hm : ∀ p ∈ l.filter (fun w => w.1.toList.isPrefixOf t), p.1.toList <+: t := fun p h =>
    List.isPrefixOf_iff_prefix.1 (List.mem_filter.1 h).2
  rw [show l.find? (fun w => w.1.toList.isPrefixOf t) = (l.filter fun w => w.1.toList.isPrefixOf t).head? from
    (List.head?_filter ..).symm]
  generalize l.filter (fun w => w.1.toList.isPrefixOf t) = hits at *
  cases hits with
  | nil => rfl
  | cons p rest =>
    rw [List.find?_cons_of_pos]
    · rfl
    · simp only [List.all_cons, Nat.le_refl, decide_true, Bool.true_and, List.all_eq_true, decide_eq_true_eq]
      intro q hq
      have h1 := (List.pairwise_cons.1 hp').1 q hq
      have h2 := hm p (List.mem_cons_self ..)
      have h3 := hm q (List.mem_cons_of_mem _ hq)
      rcases List.prefix_or_prefix_of_prefix h2 h3 with h | h
      · exact absurd h h1
      · have := h.length_le
        rwa [String.length_toList, String.length_toList] at this

theorem wir_tags {l : List (String × α)} (hp : l.Pairwise fun p q => ¬ p.1.toList <+: q.1.toList) (t : List Char) :
    whatIsRead (tags l t) = longest l t := by
  rw [hits_all hp, tags_eq]
  cases l.find? (fun p => p.1.toList.isPrefixOf t) with
  | none => rfl
  | some p => simp only [whatIsRead, Option.map, String.length_toList]

theorem longest_some {l : List (String × α)} {t r : List Char} {a : α} (h : longest l t = some (a, r)) :
    ∃ w, (w, a) ∈ l ∧ t = w.toList ++ r := by
  unfold longest at h
  rw [Option.map_eq_some_iff] at h
  obtain ⟨⟨w, b⟩, h1, h2⟩ := h
  have h3 := List.mem_filter.1 (List.mem_of_find?_eq_some h1)
  simp only [Prod.mk.injEq] at h2
  obtain ⟨rfl, rfl⟩ := h2
  obtain ⟨r, rfl⟩ := List.isPrefixOf_iff_prefix.1 h3.2
  refine ⟨w, h3.1, ?_⟩
  rw [← String.length_toList]
  simp

theorem wir_unit (t : List Char) : whatIsRead (unitParser t) = longest unitWords t :=
  wir_tags (l := unitTable) (by decide +kernel) t

theorem wir_tok (w : String) (t : List Char) : whatIsRead (tok w t) = longest [(w, ())] t := by
  have h := wir_tags (l := [(w, ())]) (by simp) t
  rw [← h]
  have : whatIsRead (tags [(w, ())] t) = whatIsRead (altComplete [Nom.map (tok w) fun _ => ()] t) := rfl
  rw [this, wir_altComplete_cons, wir_altComplete_nil, wir_map]
  cases whatIsRead (tok w t) <;> rfl

theorem wir_alias (t : List Char) :
    (whatIsRead (unitAlias t)).map (fun q => ((⟨1, q.1.into⟩ : Amount), q.2)) = readAlias t := by
  have e : unitAlias = tags aliasTable := rfl
  unfold readAlias
  rw [e, wir_tags (by decide +kernel), hits_all (by decide +kernel), hits_all (by decide +kernel)]
  have e2 : aliasWords = aliasTable.map fun p => (p.1, p.2.into) := by decide +kernel
  rw [e2, List.find?_map]
  simp only [Function.comp_def, Option.map_map]

theorem wir_operator (t : List Char) : whatIsRead (operatorParser t) = longest operatorWords t := by
  rw [hits_all (by decide +kernel)]
  match t with
  | [] => rfl
  | ch :: t =>
    by_cases h1 : ch = '+'
    · subst h1; rfl
    by_cases h2 : ch = '-'
    · subst h2; rfl
    have e1 : ¬ '+' = ch := fun e => h1 e.symm
    have e2 : ¬ '-' = ch := fun e => h2 e.symm
    simp [operatorParser, alt, Nom.map, tok, tag, e1, e2, whatIsRead, operatorWords, IRes.andThen]

/-! ### numbers -/

theorem digitsOf_eq (t : List Char) : digitsOf t = t.takeWhile isDigit := by
  unfold digitsOf
  congr 1
  funext ch
  have := isDigit_iff ch
  cases h : isDigit ch with
  | true => simpa using this.1 h
  | false =>
    rw [h] at this
    cases h2 : "0123456789".toList.contains ch with
    | false => rfl
    | true => exact absurd (this.2 (List.contains_iff_mem.1 h2)) (by simp)

theorem drop_takeWhile (p : Char → Bool) (t : List Char) : t.drop (t.takeWhile p).length = t.dropWhile p := by
  induction t with
  | nil => rfl
  | cons x xs ih =>
    by_cases h : p x = true
    · simp [List.takeWhile, List.dropWhile, h, ih]
    · simp [List.takeWhile, List.dropWhile, h]

theorem wir_integer (t : List Char) : whatIsRead (integer t) = readNumber t := by
  unfold readNumber
  simp only [pastBlanks_eq, digitsOf_eq, drop_takeWhile]
  unfold integer alt mapRes ws
  simp only [Nom.bind, sp, IRes.andThen, ret]
  generalize t.dropWhile isSp = s
  match s with
  | [] => rfl
  | x :: xs =>
    by_cases h : isDigit x = true
    · have hd : ∀ ch ∈ (x :: xs).takeWhile isDigit, ch ∈ "0123456789".toList := by
        intro ch hc
        exact (isDigit_iff ch).1 ((List.all_eq_true.1 List.all_takeWhile) ch hc)
      have hne : (x :: xs).takeWhile isDigit ≠ [] := by simp [List.takeWhile, h]
      simp only [digit, h, if_true, i64FromStr_eq hd, hne, ne_eq, not_false_eq_true, true_and]
      by_cases hlt : decimal ((x :: xs).takeWhile isDigit) < 2 ^ 63
      · simp only [if_pos hlt]; rfl
      · simp only [if_neg hlt]; rfl
    · have e : (x :: xs).takeWhile isDigit = [] := by simp [List.takeWhile, h]
      simp [digit, h, e, alt, whatIsRead]

/-! ### amounts -/

theorem wir_counted (t : List Char) :
    whatIsRead (Nom.bind integer (fun n => Nom.bind unitParser fun u => ret (⟨n, u⟩ : Amount)) t) = readCounted t := by
  unfold readCounted
  rw [wir_bind, wir_integer]
  cases readNumber t with
  | none => rfl
  | some q =>
    simp only [Option.bind_some, wir_bind, wir_unit]
    cases longest unitWords q.2 <;> rfl

theorem alias_head {t : List Char} {q : Amount × List Char} (h : readAlias t = some q) : integer t = .error := by
  unfold readAlias at h
  rw [Option.map_eq_some_iff] at h
  obtain ⟨⟨u, r⟩, h1, -⟩ := h
  obtain ⟨w, hw, rfl⟩ := longest_some h1
  have : ∀ p ∈ aliasWords, ∃ ch, p.1.toList.head? = some ch ∧ ¬ Blank ch ∧ ch ∉ "0123456789".toList := by
    intro p hp
    simp only [aliasWords, allUnits, List.map, List.mem_cons, List.not_mem_nil, or_false, aliasOf] at hp
    rcases hp with rfl | rfl | rfl | rfl | rfl | rfl | rfl <;> refine ⟨_, rfl, ?_, ?_⟩ <;> decide
  obtain ⟨ch, hc, hb, hd⟩ := this _ hw
  simp only at hc
  cases hl : w.toList with
  | nil => rw [hl] at hc; cases hc
  | cons x xs =>
    rw [hl] at hc
    cases hc
    exact integer_error hb hd

theorem wir_amount (t : List Char) : whatIsRead (amountParser t) = readAmount t := by
  have h2 : whatIsRead (Nom.bind unitAlias (fun a => ret (⟨1, a.into⟩ : Amount)) t) = readAlias t := by
    rw [← wir_alias, wir_bind]
    cases whatIsRead (unitAlias t) <;> rfl
  have h1 := wir_counted t
  have hc : readCounted t = none ∨ readAlias t = none := by
    cases h : readAlias t with
    | none => exact .inr rfl
    | some q =>
      left
      unfold readCounted
      rw [← wir_integer, alias_head h]; rfl
  have h3 : ∀ q, readAlias t = some q →
      Nom.bind integer (fun n => Nom.bind unitParser fun u => ret (⟨n, u⟩ : Amount)) t = .error := fun q h => by
    rw [bind_error (alias_head h)]
  unfold amountParser readAmount
  simp only [alt]
  generalize Nom.bind integer (fun n => Nom.bind unitParser fun u => ret (⟨n, u⟩ : Amount)) t = p at *
  generalize Nom.bind unitAlias (fun a => ret (⟨1, a.into⟩ : Amount)) t = s at *
  cases p with
  | done r a =>
    rw [← h1] at hc ⊢
    simp only [whatIsRead, reduceCtorEq, false_or] at hc
    rw [hc]; rfl
  | error =>
    rw [← h1, ← h2]
    cases s <;> rfl
  | incomplete =>
    cases h : readAlias t with
    | none => rw [← h1]; rfl
    | some q => exact absurd (h3 q h) (by simp)

theorem readAmount_shorter {t r : List Char} {a : Amount} (h : readAmount t = some (a, r)) : r.length < t.length := by
  rw [← wir_amount] at h
  cases hp : amountParser t with
  | done r' a' =>
    rw [hp] at h
    simp only [whatIsRead, Option.some.injEq, Prod.mk.injEq] at h
    obtain ⟨rfl, rfl⟩ := h
    obtain ⟨u, hu, rfl⟩ := amountParser_done hp
    have := List.length_pos_iff.2 (amountText_ne hu)
    simp; omega
  | error => rw [hp] at h; cases h
  | incomplete => rw [hp] at h; cases h

theorem pastBlanks_length (t : List Char) : (pastBlanks t).length ≤ t.length := by
  rw [pastBlanks_eq]; exact (List.dropWhile_suffix isSp).length_le

theorem wir_amountExpr (n : Nat) : ∀ t : List Char, t.length ≤ n → whatIsRead (amountExpr t) = readAmountsN n t := by
  induction n with
  | zero =>
    intro t h
    cases t with
    | nil => rfl
    | cons x xs => simp at h
  | succ n ih =>
    intro t h
    rw [amountExpr_unfold]
    unfold amountExprBody readAmountsN
    rw [wir_bind, wir_amount]
    cases ha : readAmount t with
    | none => rfl
    | some q =>
      obtain ⟨a, r⟩ := q
      have hr := readAmount_shorter ha
      simp only [Option.bind_some, Option.map_some]
      rw [bind_opt_sp, ← pastBlanks_eq, wir_bind, wir_opt]
      unfold amountExprNext
      rw [wir_bind, wir_operator]
      cases ho : longest operatorWords (pastBlanks r) with
      | none => rfl
      | some q =>
        obtain ⟨op, r2⟩ := q
        obtain ⟨w, -, e⟩ := longest_some ho
        have h2 := pastBlanks_length r
        have h3 := pastBlanks_length r2
        have h4 : r2.length ≤ (pastBlanks r).length := by rw [e]; simp
        simp only [Option.bind_some]
        rw [bind_opt_sp, ← pastBlanks_eq, wir_bind, ih _ (by omega)]
        cases readAmountsN n (pastBlanks r2) <;> rfl

theorem wir_amounts (t : List Char) : whatIsRead (amountExpr t) = readAmounts t := wir_amountExpr _ t (Nat.le_refl _)

/-! ### dates -/

theorem wir_exact (iso : Iso) (t : List Char) : whatIsRead (exactDateParser iso t) = readExact iso t := by
  unfold exactDateParser readExact
  have h : whatIsRead (tags dayWords t) = longest dayWords t := wir_tags (by decide +kernel) t
  rw [← h]
  unfold tags dayWords
  simp only [List.map, wir_altComplete_cons, wir_altComplete_nil, wir_bind, wir_ret]
  cases whatIsRead (Nom.map (tok "today") (fun _ => ExactDate.today) t) <;>
  cases whatIsRead (Nom.map (tok "yesterday") (fun _ => ExactDate.yesterday) t) <;>
  cases whatIsRead (Nom.map (tok "tomorrow") (fun _ => ExactDate.tomorrow) t) <;>
  cases whatIsRead (iso.parseDatetime t) <;> cases whatIsRead (iso.parseDate t) <;> rfl

theorem wir_date (iso : Iso) (t : List Char) : whatIsRead (date iso t) = readDate iso t := by
  unfold date readDate
  rw [wir_bind, wir_exact]
  cases readExact iso t with
  | none => rfl
  | some q =>
    obtain ⟨e, r⟩ := q
    simp only [Option.bind_some, Option.map_some]
    rw [wir_bind, wir_opt, bind_sp, ← pastBlanks_eq, wir_bind, wir_operator]
    cases longest operatorWords (pastBlanks r) with
    | none => rfl
    | some q =>
      obtain ⟨op, r2⟩ := q
      simp only [Option.bind_some]
      rw [bind_sp, ← pastBlanks_eq, wir_bind, wir_amounts]
      cases readAmounts (pastBlanks r2) <;> rfl

/-! ### iterators -/

/-- The step the words of the iterator stand for. -/
def stepOf : Iterspec → Amount
  | .every i unit => ⟨i, unit⟩
  | .secondly => ⟨1, .second⟩
  | .minutely => ⟨1, .minute⟩
  | .hourly => ⟨1, .hour⟩
  | .daily => ⟨1, .day⟩
  | .weekly => ⟨1, .week⟩
  | .monthly => ⟨1, .month⟩
  | .yearly => ⟨1, .year⟩

theorem recur_means (c : Cfg) (s : Iterspec) : s.recur c = (amountMeans c (stepOf s)).out := by
  have h : ∀ i u, unitToAmount c i u = (amountMeans c ⟨i, u⟩).out := fun i u => by
    rw [← amount_means]; cases u <;> rfl
  cases s with
  | every i u => exact h i u
  | secondly => exact h 1 .second
  | minutely => exact h 1 .minute
  | hourly => exact h 1 .hour
  | daily => exact h 1 .day
  | weekly => exact h 1 .week
  | monthly => exact h 1 .month
  | yearly => exact h 1 .year

theorem wir_step (t : List Char) :
    (whatIsRead (iterSpec t)).map (fun q => (stepOf q.1, q.2)) = readStep t := by
  unfold iterSpec readStep
  rw [← wir_alias]
  unfold unitAlias
  simp only [wir_altComplete_cons, wir_altComplete_nil, wir_bind, wir_ret, wir_map, wir_tok, wir_integer, wir_unit]
  have e : ∀ w, longest [(w, ())] t = none ∨ ∃ r, longest [(w, ())] t = some ((), r) := fun w => by
    cases longest [(w, ())] t with
    | none => exact .inl rfl
    | some q => exact .inr ⟨q.2, rfl⟩
  rcases e "secondly" with h1 | ⟨r, h1⟩ <;> simp only [h1, Option.map_none, Option.map_some, Option.none_or, Option.some_or]
  · rcases e "minutely" with h2 | ⟨r, h2⟩ <;> simp only [h2, Option.map_none, Option.map_some, Option.none_or, Option.some_or]
    · rcases e "hourly" with h3 | ⟨r, h3⟩ <;> simp only [h3, Option.map_none, Option.map_some, Option.none_or, Option.some_or]
      · rcases e "daily" with h4 | ⟨r, h4⟩ <;> simp only [h4, Option.map_none, Option.map_some, Option.none_or, Option.some_or]
        · rcases e "weekly" with h5 | ⟨r, h5⟩ <;>
            simp only [h5, Option.map_none, Option.map_some, Option.none_or, Option.some_or]
          · rcases e "monthly" with h6 | ⟨r, h6⟩ <;>
              simp only [h6, Option.map_none, Option.map_some, Option.none_or, Option.some_or]
            · rcases e "yearly" with h7 | ⟨r, h7⟩ <;>
                simp only [h7, Option.map_none, Option.map_some, Option.none_or, Option.some_or]
              · rcases e "every" with h8 | ⟨r, h8⟩
                · simp only [h8]; rfl
                · simp only [h8, Option.bind_some, readCounted]
                  cases readNumber r with
                  | none => rfl
                  | some q =>
                    simp only [Option.bind_some]
                    cases longest unitWords q.2 <;> rfl
              · rfl
            · rfl
          · rfl
        · rfl
      · rfl
    · rfl
  · rfl

theorem readNumber_past {t r : List Char} {n : Int} (h : readNumber t = some (n, r)) : pastBlanks r = r := by
  unfold readNumber at h
  simp only at h
  split at h
  · simp only [Option.some.injEq, Prod.mk.injEq] at h
    obtain ⟨-, rfl⟩ := h
    generalize List.drop _ _ = s
    induction s with
    | nil => rfl
    | cons x xs ih =>
      by_cases hx : x = ' ' ∨ x = '\t' ∨ x = '\r' ∨ x = '\n'
      · simpa [pastBlanks, hx] using ih
      · simp [pastBlanks, hx]
  · cases h

theorem wir_bound (iso : Iso) (t : List Char) : whatIsRead (untilSpec iso t) = readBound iso t := by
  unfold untilSpec readBound
  rw [wir_altComplete_cons, wir_altComplete_cons, wir_altComplete_nil, Option.or_none]
  congr 1
  · rw [wir_bind, wir_tok]
    cases longest [("until", ())] t with
    | none => rfl
    | some q =>
      simp only [Option.bind_some]
      rw [bind_sp, ← pastBlanks_eq, wir_bind, wir_exact]
      cases readExact iso (pastBlanks q.2) <;> rfl
  · rw [wir_bind, wir_integer]
    cases h : readNumber t with
    | none => rfl
    | some q =>
      simp only [Option.bind_some]
      rw [bind_sp, ← pastBlanks_eq, readNumber_past h, wir_bind, wir_tok]
      cases longest [("times", ())] q.2 <;> rfl

theorem wir_iterator (iso : Iso) (t : List Char) :
    (whatIsRead (iterator iso t)).map (fun q => ((⟨q.1.date, stepOf q.1.spec, q.1.until_⟩ : Repeated), q.2)) =
      readIterator iso t := by
  unfold iterator readIterator
  rw [bind_opt_sp, ← pastBlanks_eq, wir_bind, wir_date]
  cases readDate iso (pastBlanks t) with
  | none => rfl
  | some q =>
    simp only [Option.bind_some]
    rw [bind_opt_sp, ← pastBlanks_eq, wir_bind, ← wir_step]
    cases whatIsRead (iterSpec (pastBlanks q.2)) with
    | none => rfl
    | some q2 =>
      simp only [Option.bind_some, Option.map_some]
      rw [bind_opt_sp, ← pastBlanks_eq, wir_bind, wir_opt, wir_bound]
      cases readBound iso (pastBlanks q2.2) <;> rfl

/-! ### what comes out -/

theorem momentOf_eq (c : Cfg) (a : Answer) : momentOf c a = (a.out >>= intoNdt c) := by
  cases a with
  | value v =>
    show _ = intoNdt c v
    unfold momentOf intoNdt
    simp only
    cases calculate c v with
    | ok r => cases r <;> rfl
    | err e => rfl
    | panic => rfl
    | oof => rfl
  | refused e => rfl
  | overflow => rfl

theorem step_amount (c : Cfg) (a : Amount) (v : TT) (h : amountMeans c a = .value v) : v.isAAmount = true := by
  unfold amountMeans at h
  split at h
  · split at h
    · cases h
    · cases h; rfl
  · cases h
    cases a.unit <;> rfl

theorem repeats_eq (c : Cfg) (now now' : Moment) (p : PIterator) :
    p.intoUserIterator c now now' = repeats c now now' ⟨p.date, stepOf p.spec, p.until_⟩ := by
  obtain ⟨d, s, u⟩ := p
  unfold PIterator.intoUserIterator repeats
  simp only [recur_means, date_means, exact_means]
  cases hs : amountMeans c (stepOf s) with
  | refused e => rfl
  | overflow => rfl
  | value v =>
    have hv := step_amount c _ v hs
    have hb : ∀ m, Iter.build m v = .ok { base := .moment m, increment := v, hadFirst := false } := fun m => by
      simp [Iter.build, hv]
    have hm : ∀ {β : Type} (k : Moment → Out β),
        ((dateMeans c now d).out >>= fun x => intoNdt c x >>= k) = (momentOf c (dateMeans c now d) >>= k) := fun k => by
      rw [momentOf_eq]; cases (dateMeans c now d).out <;> rfl
    show (match u with | some (.exact e) => _ | some (.times i) => _ | none => _) = _
    match u with
    | none =>
      simp only [hb]
      show ((dateMeans c now d).out >>= fun x => intoNdt c x >>= _) = _
      rw [hm]
      cases momentOf c (dateMeans c now d) <;> rfl
    | some (.times i) =>
      simp only [hb]
      show ((dateMeans c now d).out >>= fun x => intoNdt c x >>= _) = _
      rw [hm]
      cases momentOf c (dateMeans c now d) <;> rfl
    | some (.exact e) =>
      simp only [hb]
      show ((dateMeans c now d).out >>= fun x => intoNdt c x >>= _) = _
      rw [hm]
      cases momentOf c (dateMeans c now d) with
      | ok m =>
        show ((exactMeans c now' e).out >>= fun x => intoNdt c x >>= _) = _
        simp only [momentOf_eq]
        cases (exactMeans c now' e).out with
        | ok x =>
          show (intoNdt c x >>= _) = match intoNdt c x with | .ok l => _ | .err k => _ | .panic => _ | .oof => _
          cases intoNdt c x <;> rfl
        | err e => rfl
        | panic => rfl
        | oof => rfl
      | err e => rfl
      | panic => rfl
      | oof => rfl

theorem wir_none {p : IRes α} (h : whatIsRead p = none) (r : List Char) (a : α) : p ≠ .done r a := by
  intro e; rw [e] at h; cases h

theorem wir_some {p : IRes α} {q : α × List Char} (h : whatIsRead p = some q) : p = .done q.2 q.1 := by
  cases p with
  | done r a => cases h; rfl
  | error => cases h
  | incomplete => cases h

theorem date_error (iso : Iso) (t : List Char) (hn : ∀ r d, date iso t ≠ .done r d) : date iso t = .error := by
  cases h : date iso t with
  | done r a => exact absurd h (hn r a)
  | error => rfl
  | incomplete =>
    exfalso
    unfold date at h
    rcases altComplete_cases _ t with ⟨r, a, e⟩ | e
    · rw [exactDateParser, bind_done e] at h
      rcases complete_cases (Nom.bind sp fun _ => Nom.bind operatorParser fun op => Nom.bind sp fun _ =>
        Nom.bind amountExpr fun a => ret (op, a)) r with ⟨r2, b, e2⟩ | e2
      · rw [bind_done (opt_done e2)] at h; cases h
      · rw [bind_done (opt_error e2)] at h; cases h
    · rw [exactDateParser, bind_error e] at h; cases h

end Spec
