import Verif.Lemmas.ParserIter
import Verif.Lemmas.NoPanic

/-! `parse` as a whole. -/

namespace Kairos.Parser
open Nom Spec

/-! ### which of the two forms is taken -/

theorem parse_iterator {c : Cfg} {iso : Iso} {now now' : Moment} {i r : List Char} {it : PIterator}
    (h : iterator iso i = .done r it) : parse c iso now now' i = wrapIterator (it.intoUserIterator c now now') := by
  unfold parse doParse
  rw [altComplete_hit (r := r) (a := wrapIterator (it.intoUserIterator c now now')) (by rw [bind_done h]; rfl)]

theorem parse_timetype {c : Cfg} {iso : Iso} {now now' : Moment} {i r : List Char} {t : PTimeType}
    (hn : ∀ r it, iterator iso i ≠ .done r it) (h : timetype iso i = .done r t) :
    parse c iso now now' i = (t.intoTimetype c now >>= fun v => .ok (.timeType v)) := by
  unfold parse doParse
  rw [altComplete_miss, altComplete_hit (r := r) (a := t.intoTimetype c now >>= fun v => .ok (.timeType v))
    (by rw [bind_done h]; rfl)]
  intro r a e
  rw [bind_done_iff] at e
  obtain ⟨r', it, h1, -⟩ := e
  exact hn _ _ h1

theorem parse_none {c : Cfg} {iso : Iso} {now now' : Moment} {i : List Char}
    (hn : ∀ r it, iterator iso i ≠ .done r it) (h : ∀ r t, timetype iso i ≠ .done r t) :
    parse c iso now now' i = .err .nomError := by
  unfold parse doParse
  rw [altComplete_miss, altComplete_miss, altComplete_nil]
  · intro r a e
    rw [bind_done_iff] at e
    obtain ⟨r', it, h1, -⟩ := e
    exact h _ _ h1
  · intro r a e
    rw [bind_done_iff] at e
    obtain ⟨r', it, h1, -⟩ := e
    exact hn _ _ h1

/-- Every text is taken as an iterator, or as a date or amount, or rejected. -/
theorem parse_cases (c : Cfg) (iso : Iso) (now now' : Moment) (i : List Char) :
    (∃ r it, iterator iso i = .done r it ∧ parse c iso now now' i = wrapIterator (it.intoUserIterator c now now')) ∨
    ((∀ r it, iterator iso i ≠ .done r it) ∧ ∃ r t, timetype iso i = .done r t ∧
      parse c iso now now' i = (t.intoTimetype c now >>= fun v => .ok (.timeType v))) ∨
    ((∀ r it, iterator iso i ≠ .done r it) ∧ (∀ r t, timetype iso i ≠ .done r t) ∧
      parse c iso now now' i = .err .nomError) := by
  by_cases h : ∃ r it, iterator iso i = .done r it
  · obtain ⟨r, it, h⟩ := h
    exact .inl ⟨r, it, h, parse_iterator h⟩
  · have hn : ∀ r it, iterator iso i ≠ .done r it := fun r it e => h ⟨r, it, e⟩
    by_cases h' : ∃ r t, timetype iso i = .done r t
    · obtain ⟨r, t, h'⟩ := h'
      exact .inr (.inl ⟨hn, r, t, h', parse_timetype hn h'⟩)
    · have hn' : ∀ r t, timetype iso i ≠ .done r t := fun r it e => h' ⟨r, it, e⟩
      exact .inr (.inr ⟨hn, hn', parse_none hn hn'⟩)

/-! ### dates -/

theorem iterSpec_done_head {i r : List Char} {s : Iterspec} (h : iterSpec i = .done r s) :
    ∃ x xs, i = x :: xs ∧ Letter x := by
  obtain ⟨p, hp, e⟩ := altComplete_done h
  simp only [List.mem_cons, List.not_mem_nil, or_false] at hp
  rcases hp with rfl | rfl | rfl | rfl | rfl | rfl | rfl | rfl
  iterate 7 exact ⟨_, _, (mapTok_done e).1, by decide⟩
  rw [bind_done_iff] at e
  obtain ⟨r', x, h1, -⟩ := e
  exact ⟨_, _, tag_done h1, by decide⟩

theorem date_text {iso : Iso} {d : PDate} {t rest : List Char} (h : DateText iso d t rest) (hr : Stop rest) :
    date iso (t ++ rest) = .done rest d := by
  cases h with
  | mk he ho =>
  rename_i dt ot e o
  rw [List.append_assoc]
  cases ho with
  | none =>
    refine date_plain he ?_
    intro ch hc
    rw [List.nil_append] at hc
    cases rest with
    | nil => cases hc
    | cons x xs =>
      have hx := hr x rfl
      have : isSp x = false := by
        cases hs : isSp x with
        | false => rfl
        | true => exact absurd ((isSp_iff _).1 hs) hx.2.1
      rw [List.dropWhile_cons, this] at hc
      cases hc
      exact hx.2.2
  | some hb hb' ha =>
    rename_i op a b b' et
    have hassoc : b ++ opChar op :: (b' ++ et) ++ rest = b ++ opChar op :: (b' ++ (et ++ rest)) := by simp
    rw [hassoc] at he ⊢
    exact date_offset he hb hb' ha ⟨fun ch hc => (hr ch hc).2, .inl fun ch hc => (hr ch hc).1⟩

theorem dateText_readings {iso : Iso} {d : PDate} {t rest : List Char} (h : DateText iso d t rest) (hr : Stop rest) :
    (∀ r it, iterator iso (t ++ rest) ≠ .done r it) ∧ timetype iso (t ++ rest) = .done rest (.date d) := by
  have hd := date_text h hr
  have hhead : ∀ ch, (t ++ rest).head? = some ch → ¬ Blank ch := by
    cases h with
    | mk he ho => rw [List.append_assoc]; exact exactText_head he
  have hdrop : (t ++ rest).dropWhile isSp = t ++ rest :=
    drop_blanks (b := []) (by intro ch h; cases h) hhead
  have hdrop' : rest.dropWhile isSp = rest :=
    drop_blanks (b := []) (by intro ch h; cases h) (fun ch hc => (hr ch hc).2.1)
  have hit : ∀ r it, iterator iso (t ++ rest) ≠ .done r it := by
    intro r it e
    unfold iterator at e
    rw [bind_opt_sp, hdrop, bind_done hd, bind_opt_sp, hdrop', bind_done_iff] at e
    obtain ⟨r', s, h1, -⟩ := e
    obtain ⟨x, xs, rfl, hx⟩ := iterSpec_done_head h1
    exact (hr x rfl).1 hx
  have htt : timetype iso (t ++ rest) = .done rest (.date d) := by
    unfold timetype alt
    rw [bind_done hd]
    rfl
  exact ⟨hit, htt⟩

theorem parse_dateText {c : Cfg} {iso : Iso} {now now' : Moment} {d : PDate} {t rest : List Char}
    (h : DateText iso d t rest) (hr : Stop rest) :
    parse c iso now now' (t ++ rest) = (d.intoTimetype c now >>= fun v => .ok (.timeType v)) := by
  rw [parse_timetype (dateText_readings h hr).1 (dateText_readings h hr).2]
  rfl

/-! ### iterators -/

/-- `parse` on the text of an iterator. -/
theorem parse_iterText {c : Cfg} {iso : Iso} {now now' : Moment} {d : PDate} {unit : TimeUnit} {n : Int} {u : Option UntilSpec}
    {t : List Char} (h : IterText iso d unit n u t) :
    ∃ step : Iterspec, step.recur c = unitToAmount c n unit ∧
      parse c iso now now' t = wrapIterator (PIterator.intoUserIterator c now now' ⟨d, step, u⟩) := by
  obtain ⟨step, h1, h2⟩ := iterator_text c h
  exact ⟨step, h2, parse_iterator h1⟩

/-! ### the errors of conversion -/

/-- An outcome without running out of fuel, whose only errors are out-of-bounds ones. -/
def Bnd {α : Type} (x : Out α) : Prop := x ≠ .oof ∧ ∀ e, x = .err e → ∃ Y M D H MI S, e = .outOfBounds Y M D H MI S

theorem Bnd.ok {α : Type} (a : α) : Bnd (.ok a : Out α) := ⟨by simp, by simp⟩
theorem Bnd.panic {α : Type} : Bnd (.panic : Out α) := ⟨by simp, by simp⟩
theorem Bnd.bind {α β : Type} {x : Out α} {f : α → Out β} (h : Bnd x) (hf : ∀ a, Bnd (f a)) : Bnd (x >>= f) := by
  cases x with
  | ok a => exact hf a
  | err e => exact ⟨by simp, fun e' he => by cases he; exact h.2 e rfl⟩
  | panic => exact Bnd.panic
  | oof => exact absurd rfl h.1

theorem bnd_chk (c : Cfg) (x : Int) : Bnd (c.chk x : Out Int) := by
  unfold Cfg.chk
  split
  · exact Bnd.ok _
  · split
    · exact Bnd.panic
    · exact Bnd.ok _

theorem bnd_weeks (c : Cfg) (n : Int) : Bnd (TT.weeks c n) := by
  unfold TT.weeks Cfg.mul
  exact (bnd_chk c _).bind fun _ => Bnd.ok _

theorem bnd_amount (c : Cfg) (a : Amount) : Bnd (a.intoTimetype c) := by
  obtain ⟨n, u⟩ := a
  cases u <;> first | exact Bnd.ok _ | exact bnd_weeks c n

theorem bnd_expr (c : Cfg) (e : AmountExpr) : Bnd (e.intoTimetype c) := by
  induction e with
  | single a => exact bnd_amount c a
  | cons a op e ih => cases op <;> exact (bnd_amount c a).bind fun _ => ih.bind fun _ => Bnd.ok _

theorem bnd_ofOption {α : Type} (o : Option α) (Y M D H MI S : Int) :
    Bnd (OutE.ofOption o (ErrorKind.outOfBounds Y M D H MI S) : Out α) := by
  cases o with
  | none => exact ⟨by simp [OutE.ofOption], fun e he => by cases he; exact ⟨_, _, _, _, _, _, rfl⟩⟩
  | some a => exact Bnd.ok a

theorem bnd_midnight (nd : Date) : Bnd (nd.andHms 0 0 0 : Out Moment) := by
  unfold Date.andHms; split
  · exact Bnd.ok _
  · exact Bnd.panic

theorem bnd_newYear (c : Cfg) (y : Int) : Bnd (newYear c y) :=
  (bnd_ofOption _ _ _ _ _ _ _).bind fun nd => (bnd_midnight nd).bind fun _ => Bnd.ok _

theorem bnd_exact (c : Cfg) (now : Moment) (e : ExactDate) : Bnd (e.intoTimetype c now) := by
  cases e with
  | today => exact Bnd.ok _
  | yesterday => exact Bnd.ok _
  | tomorrow => exact Bnd.ok _
  | iso8601Date d =>
    cases d with
    | ymd y m d => exact (bnd_ofOption _ _ _ _ _ _ _).bind fun nd => (bnd_midnight nd).bind fun _ => Bnd.ok _
    | week y ww d => exact (bnd_newYear c y).bind fun _ => (bnd_weeks c ww).bind fun _ => Bnd.ok _
    | ordinal y d => exact (bnd_newYear c y).bind fun _ => Bnd.ok _
  | iso8601DateTime d =>
    obtain ⟨d, h, mi, s, ms, th, tm⟩ := d
    cases d with
    | ymd y m d => exact (bnd_ofOption _ _ _ _ _ _ _).bind fun _ => Bnd.ok _
    | week y ww d => exact (bnd_newYear c y).bind fun _ => (bnd_weeks c ww).bind fun _ => Bnd.ok _
    | ordinal y d => exact (bnd_newYear c y).bind fun _ => Bnd.ok _

theorem bnd_date (c : Cfg) (now : Moment) (d : PDate) : Bnd (d.intoTimetype c now) := by
  obtain ⟨e, o⟩ := d
  refine (bnd_exact c now e).bind fun b => ?_
  cases o with
  | none => exact Bnd.ok _
  | some p =>
    obtain ⟨op, a⟩ := p
    cases op <;> exact (bnd_expr c a).bind fun _ => Bnd.ok _

theorem bnd_timetype (c : Cfg) (now : Moment) (t : PTimeType) : Bnd (t.intoTimetype c now) := by
  cases t with
  | date d => exact bnd_date c now d
  | amountExpr a => exact bnd_expr c a

/-! ### no running out of fuel in iterators -/

/-- Not out of fuel. -/
def Fin {α : Type} (x : Out α) : Prop := x ≠ .oof
theorem Fin.bind {α β : Type} {x : Out α} {f : α → Out β} (h : Fin x) (hf : ∀ a, Fin (f a)) : Fin (x >>= f) := by
  cases x with
  | ok a => exact hf a
  | err e => simp [Fin]
  | panic => simp [Fin]
  | oof => exact absurd rfl h

theorem fin_ndt (c : Cfg) (t : TT) : Fin (intoNdt c t) := by
  unfold intoNdt
  refine Fin.bind (calculate_ne_oof c t) fun v => ?_
  cases v.getMoment <;> simp [Fin, OutE.ofOption]

theorem fin_recur (c : Cfg) (s : Iterspec) : Fin (s.recur c) := by
  have : ∀ n u, Fin (unitToAmount c n u) := by
    intro n u
    cases u <;> first | exact (Bnd.ok _).1 | exact (bnd_weeks c n).1
  cases s <;> simp only [Iterspec.recur] <;> exact this _ _

theorem fin_build (m : Moment) (t : TT) : Fin (Iter.build m t) := by
  unfold Iter.build; split <;> simp [Fin]

theorem fin_iterator (c : Cfg) (now now' : Moment) (it : PIterator) : Fin (it.intoUserIterator c now now') := by
  obtain ⟨d, s, u⟩ := it
  refine (fin_recur c s).bind fun r => ?_
  have hok : ∀ {α : Type} (a : α), Fin (.ok a : Out α) := fun a => (Bnd.ok a).1
  have base := Fin.bind (bnd_date c now d).1 (fun t => fin_ndt c t)
  cases u with
  | none => exact Fin.bind (bnd_date c now d).1 fun _ => (fin_ndt c _).bind fun _ => (fin_build _ _).bind fun _ => hok _
  | some u =>
    cases u with
    | times n =>
      exact Fin.bind (bnd_date c now d).1 fun _ => (fin_ndt c _).bind fun _ => (fin_build _ _).bind fun _ => hok _
    | exact e =>
      exact Fin.bind (bnd_date c now d).1 fun _ => (fin_ndt c _).bind fun _ =>
        Fin.bind (bnd_exact c now' e).1 fun _ => (fin_ndt c _).bind fun _ => (fin_build _ _).bind fun _ => hok _

/-! ### no panics in the wrapping build -/

theorem np_weeks (c : Cfg) (n : Int) : NP (TT.weeks c.release n) := by
  unfold TT.weeks Cfg.mul
  exact (np_chk c _).bind fun _ => NP.ok _

theorem np_amount (c : Cfg) (a : Amount) : NP (a.intoTimetype c.release) := by
  obtain ⟨n, u⟩ := a
  cases u <;> first | exact NP.ok _ | exact np_weeks c n

theorem np_expr (c : Cfg) (e : AmountExpr) : NP (e.intoTimetype c.release) := by
  induction e with
  | single a => exact np_amount c a
  | cons a op e ih => cases op <;> exact (np_amount c a).bind fun _ => ih.bind fun _ => NP.ok _

theorem np_ofOption {α : Type} (o : Option α) (e : ErrorKind) : NP (OutE.ofOption o e : Out α) := by
  cases o <;> simp [NP, OutE.ofOption]

theorem np_newYear (c : Cfg) (y : Int) : NP (newYear c y) :=
  (np_ofOption _ _).bind fun nd => (np_midnight nd).bind fun _ => NP.ok _

/-- The week number of a week date. -/
def ExactDate.weekNo : ExactDate → Int
  | .iso8601Date (.week _ ww _) => ww
  | .iso8601DateTime ⟨.week _ ww _, _, _, _, _, _, _⟩ => ww
  | _ => 0

/-- Converting a date does not panic, in either profile, unless an ISO week number overflows. -/
theorem np_exact (c : Cfg) (now : Moment) (e : ExactDate) (h : NP (TT.weeks c e.weekNo)) : NP (e.intoTimetype c now) := by
  cases e with
  | today => exact NP.ok _
  | yesterday => exact NP.ok _
  | tomorrow => exact NP.ok _
  | iso8601Date d =>
    cases d with
    | ymd y m d => exact (np_ofOption _ _).bind fun nd => (np_midnight nd).bind fun _ => NP.ok _
    | week y ww d => exact (np_newYear c y).bind fun _ => NP.bind h fun _ => NP.ok _
    | ordinal y d => exact (np_newYear c y).bind fun _ => NP.ok _
  | iso8601DateTime d =>
    obtain ⟨d, h', mi, s, ms, th, tm⟩ := d
    cases d with
    | ymd y m d => exact (np_ofOption _ _).bind fun _ => NP.ok _
    | week y ww d => exact (np_newYear c y).bind fun _ => NP.bind h fun _ => NP.ok _
    | ordinal y d => exact (np_newYear c y).bind fun _ => NP.ok _

theorem np_date (c : Cfg) (now : Moment) (d : PDate) (h : NP (TT.weeks c d.exact.weekNo))
    (h' : ∀ op a, d.offset = some (op, a) → NP (a.intoTimetype c)) : NP (d.intoTimetype c now) := by
  obtain ⟨e, o⟩ := d
  refine (np_exact c now e h).bind fun b => ?_
  cases o with
  | none => exact NP.ok _
  | some p =>
    obtain ⟨op, a⟩ := p
    cases op <;> exact (h' _ _ rfl).bind fun _ => NP.ok _

theorem np_timetype_release (c : Cfg) (now : Moment) (t : PTimeType) : NP (t.intoTimetype c.release now) := by
  cases t with
  | date d => exact np_date _ now d (np_weeks c _) (fun _ a _ => np_expr c a)
  | amountExpr a => exact np_expr c a

theorem np_ndt (c : Cfg) (t : TT) : NP (intoNdt c.release t) := by
  unfold intoNdt
  exact (calculate_np c t).bind fun v => np_ofOption _ _

theorem np_unitToAmount (c : Cfg) (n : Int) (u : TimeUnit) (h : NP (TT.weeks c n)) : NP (unitToAmount c n u) := by
  cases u <;> first | exact NP.ok _ | exact h

theorem np_iterBuild (m : Moment) (t : TT) : NP (Iter.build m t) := by
  unfold Iter.build; split <;> simp [NP]

/-- The number of the step. -/
def Iterspec.number : Iterspec → Int
  | .every n _ => n
  | _ => 1

theorem np_recur (c : Cfg) (s : Iterspec) (h : NP (TT.weeks c s.number)) : NP (s.recur c) := by
  cases s <;> simp only [Iterspec.recur, Iterspec.number] at * <;> exact np_unitToAmount c _ _ h

/-- Making the iterator does not panic if none of its steps does. -/
theorem np_iterator (c : Cfg) (now now' : Moment) (it : PIterator) (hr : NP (it.spec.recur c))
    (hd : NP (it.date.intoTimetype c now)) (hd' : ∀ t, it.date.intoTimetype c now = .ok t → NP (intoNdt c t))
    (he : ∀ e, it.until_ = some (.exact e) → NP (e.intoTimetype c now') ∧ ∀ t, e.intoTimetype c now' = .ok t → NP (intoNdt c t)) :
    NP (it.intoUserIterator c now now') := by
  obtain ⟨d, s, u⟩ := it
  simp only at hr hd hd' he
  refine hr.bind fun r => ?_
  have dep : ∀ {α β : Type} {x : Out α} {f : α → Out β}, NP x → (∀ a, x = .ok a → NP (f a)) → NP (x >>= f) := by
    intro α β x f h hf
    cases x with
    | ok a => exact hf a rfl
    | err e => exact NP.err e
    | panic => exact absurd rfl h
    | oof => exact NP.oof
  cases u with
  | none => exact dep hd fun t ht => (hd' t ht).bind fun _ => (np_iterBuild _ _).bind fun _ => NP.ok _
  | some u =>
    cases u with
    | times n => exact dep hd fun t ht => (hd' t ht).bind fun _ => (np_iterBuild _ _).bind fun _ => NP.ok _
    | exact e =>
      obtain ⟨h1, h2⟩ := he e rfl
      exact dep hd fun t ht => (hd' t ht).bind fun _ => dep h1 fun t ht => (h2 t ht).bind fun _ =>
        (np_iterBuild _ _).bind fun _ => NP.ok _

theorem np_wrap {x : Out UserIterator} (h : NP x) : NP (wrapIterator x) := by
  cases x with
  | ok a => exact NP.ok _
  | err e => exact NP.ok _
  | panic => exact absurd rfl h
  | oof => exact NP.oof

theorem parse_release_np (c : Cfg) (iso : Iso) (now now' : Moment) (i : List Char) :
    NP (parse c.release iso now now' i) := by
  rcases parse_cases c.release iso now now' i with ⟨r, it, -, e⟩ | ⟨-, r, t, -, e⟩ | ⟨-, -, e⟩
  · rw [e]
    refine np_wrap (np_iterator _ now now' it (np_recur _ _ (np_weeks c _)) (np_timetype_release c now (.date it.date))
      (fun t _ => np_ndt c t) (fun e _ => ⟨np_exact _ now' e (np_weeks c _), fun t _ => np_ndt c t⟩))
  · rw [e]; exact (np_timetype_release c now t).bind fun _ => NP.ok _
  · rw [e]; exact NP.err _

end Kairos.Parser
