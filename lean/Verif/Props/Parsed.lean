import Verif.Props.Kinds
import Verif.Props.Safety
import Verif.Props.ParserDates
import Verif.Lemmas.ShortNumbers

/-!
# C78: what `parse` returns can be calculated
-/

namespace Props
open Kairos Kairos.Parser Spec

theorem weeks_kind {c : Cfg} {n : Int} {v : TT} (h : TT.weeks c n = .ok v) : kind v = some .amount := by
  unfold TT.weeks at h
  obtain ⟨k, -, h⟩ := bind_ok_inv h
  cases h; rfl

theorem amount_kind {c : Cfg} {a : Amount} {v : TT} (h : a.intoTimetype c = .ok v) : kind v = some .amount := by
  unfold Amount.intoTimetype at h
  split at h <;> first | (cases h; rfl) | exact weeks_kind h

theorem expr_kind {c : Cfg} {a : AmountExpr} {v : TT} (h : a.intoTimetype c = .ok v) : kind v = some .amount := by
  induction a generalizing v with
  | single a => exact amount_kind h
  | cons a op e ih =>
    cases op with
    | plus =>
      unfold AmountExpr.intoTimetype at h
      obtain ⟨x, hx, h⟩ := bind_ok_inv h
      obtain ⟨y, hy, h⟩ := bind_ok_inv h
      cases h
      simp [kind, amount_kind hx, ih hy]
    | minus =>
      unfold AmountExpr.intoTimetype at h
      obtain ⟨x, hx, h⟩ := bind_ok_inv h
      obtain ⟨y, hy, h⟩ := bind_ok_inv h
      cases h
      have hk := amount_kind hx
      have : endMarked x = false := by
        cases x <;> first | rfl | (simp only [kind] at hk; split at hk <;> cases hk)
      simp [kind, hk, ih hy, this]

theorem newYear_moment {c : Cfg} {y : Int} {v : TT} (h : newYear c y = .ok v) : ∃ m, v = .moment m := by
  unfold newYear at h
  obtain ⟨nd, -, h⟩ := bind_ok_inv h
  obtain ⟨m, -, h⟩ := bind_ok_inv h
  cases h; exact ⟨m, rfl⟩

/-- A date is a moment; only `yesterday` is a difference. -/
theorem exact_kind {c : Cfg} {now : Moment} {e : ExactDate} {v : TT} (h : e.intoTimetype c now = .ok v) :
    kind v = some .moment ∧ endMarked v = false ∧ (v.isSubtraction = true → e = .yesterday) := by
  have add : ∀ {x y : TT}, (kind x = some .moment ∧ endMarked x = false ∧ x.isSubtraction = false) → kind y = some .amount →
      kind (x + y) = some .moment ∧ endMarked (x + y) = false ∧ (x + y).isSubtraction = false := by
    intro x y ⟨h1, h2, h3⟩ hy
    exact ⟨by simp [kind, h1, h2, h3, hy], rfl, rfl⟩
  have mom : ∀ m, kind (.moment m) = some .moment ∧ endMarked (.moment m) = false ∧ (TT.moment m).isSubtraction = false :=
    fun _ => ⟨rfl, rfl, rfl⟩
  have fin : (kind v = some .moment ∧ endMarked v = false ∧ v.isSubtraction = false) →
      kind v = some .moment ∧ endMarked v = false ∧ (v.isSubtraction = true → e = .yesterday) :=
    fun ⟨h1, h2, h3⟩ => ⟨h1, h2, fun h => by rw [h3] at h; cases h⟩
  cases e with
  | today => cases h; exact fin (mom _)
  | yesterday => cases h; exact ⟨rfl, rfl, fun _ => rfl⟩
  | tomorrow => cases h; exact fin (add (mom _) rfl)
  | iso8601Date d =>
    refine fin ?_
    cases d with
    | ymd y m d =>
      unfold ExactDate.intoTimetype at h
      obtain ⟨nd, -, h⟩ := bind_ok_inv h
      obtain ⟨m, -, h⟩ := bind_ok_inv h
      cases h; exact mom _
    | week y ww d =>
      unfold ExactDate.intoTimetype at h
      obtain ⟨x, hx, h⟩ := bind_ok_inv h
      obtain ⟨w, hw, h⟩ := bind_ok_inv h
      obtain ⟨m, rfl⟩ := newYear_moment hx
      cases h; exact add (add (mom _) (weeks_kind hw)) rfl
    | ordinal y d =>
      unfold ExactDate.intoTimetype at h
      obtain ⟨x, hx, h⟩ := bind_ok_inv h
      obtain ⟨m, rfl⟩ := newYear_moment hx
      cases h; exact add (mom _) rfl
  | iso8601DateTime d =>
    refine fin ?_
    obtain ⟨d, hh, mi, s, ms, t1, t2⟩ := d
    cases d with
    | ymd y m d =>
      unfold ExactDate.intoTimetype at h
      obtain ⟨nd, -, h⟩ := bind_ok_inv h
      cases h; exact mom _
    | week y ww d =>
      unfold ExactDate.intoTimetype at h
      obtain ⟨x, hx, h⟩ := bind_ok_inv h
      obtain ⟨w, hw, h⟩ := bind_ok_inv h
      obtain ⟨m, rfl⟩ := newYear_moment hx
      cases h; exact add (add (add (add (add (mom _) (weeks_kind hw)) rfl) rfl) rfl) rfl
    | ordinal y d =>
      unfold ExactDate.intoTimetype at h
      obtain ⟨x, hx, h⟩ := bind_ok_inv h
      obtain ⟨m, rfl⟩ := newYear_moment hx
      cases h; exact add (add (add (add (mom _) rfl) rfl) rfl) rfl

theorem date_kind {c : Cfg} {now : Moment} {d : PDate} {v : TT} (h : d.intoTimetype c now = .ok v) :
    kind v = some .moment ∨ (d.exact = .yesterday ∧ ∃ a, d.offset = some (.plus, a)) := by
  obtain ⟨e, o⟩ := d
  unfold PDate.intoTimetype at h
  obtain ⟨b, hb, h⟩ := bind_ok_inv h
  obtain ⟨h1, h2, h3⟩ := exact_kind hb
  rcases o with _ | ⟨_ | _, a⟩
  · cases h; exact .inl h1
  · obtain ⟨x, hx, h⟩ := bind_ok_inv h
    cases h
    by_cases hs : b.isSubtraction = true
    · exact .inr ⟨h3 hs, a, rfl⟩
    · left; simp [kind, h1, h2, expr_kind hx, hs]
  · obtain ⟨x, hx, h⟩ := bind_ok_inv h
    cases h
    left; simp [kind, h1, h2, expr_kind hx]

/-- The text starts with `yesterday +`. -/
def YesterdayPlus (s : List Char) : Prop := ∃ b rest, Blanks b ∧ s = "yesterday".toList ++ b ++ '+' :: rest

theorem dateAt_yesterday {iso : Iso} {d : PDate} {t rest : List Char} (h : DateAt iso d t rest) (he : d.exact = .yesterday)
    {a : AmountExpr} (ho : d.offset = some (.plus, a)) : YesterdayPlus (t ++ rest) := by
  cases h with
  | mk h1 h2 =>
    simp only at he ho
    subst he; subst ho
    cases h1
    cases h2 with
    | some hb hb' hx => exact ⟨_, _, hb, by simp [opChar]; rfl⟩

/-- **C78 (partial).** An expression that `parse` returns can be calculated: its kind is an amount or a moment (so the
result is an amount, a moment, or OutOfBounds, C76), unless the text starts with `yesterday +`. Missing: those texts,
see `C78_refuted`. -/
theorem C78_expressions_partial (c : Cfg) (iso : Iso) (hi : IsoSane iso) (now now' : Moment) (s : List Char) (v : TT)
    (h : parse c iso now now' s = .ok (.timeType v)) (hs : ¬ YesterdayPlus s) :
    kind v = some .amount ∨ kind v = some .moment := by
  rcases C65_only_dates_and_amounts c iso hi now now' s v h with ⟨t, rest, d, rfl, hd, hv⟩ | ⟨t, rest, e, rfl, -, hv⟩
  · rcases date_kind (date_value.mp hv) with hk | ⟨he, a, ho⟩
    · exact .inr hk
    · exact absurd (dateAt_yesterday hd he ho) hs
  · exact .inl (expr_kind (amounts_value.mp hv))

example := C78_expressions_partial (std .debug) noIso isoSane_noIso (at_ 2017 1 1 0 0 0) (at_ 2017 1 1 0 0 0) "today - 5days".toList
  (.moment (at_ 2017 1 1 0 0 0) - .days 5) (by decide +kernel)

/-- **C78 refuted.** `yesterday + <amounts>` is accepted by the parser, but what it returns cannot be calculated, whatever
the day. (It is `(today - 1 day) + amounts`, which the evaluator rejects, C07.) -/
theorem C78_refuted (c : Cfg) (iso : Iso) (now now' : Moment) (b b' t rest : List Char) (a : AmountExpr) (hb : Blanks b)
    (hb' : Blanks b') (ht : ExprText a t) (hr : Stop rest) (hm : exprMag a ≤ 9223372036854775807) :
    ∃ v, parse c iso now now' ("yesterday".toList ++ (b ++ '+' :: (b' ++ t)) ++ rest) = .ok (.timeType v) ∧
      ∀ w, calculate c v ≠ .ok w := by
  have hp := exprText_pos ht
  have hw := a.into_tree (c := c) (weeksFit_of_mag hp hm)
  have hD : DateText iso ⟨.yesterday, some (.plus, a)⟩ ("yesterday".toList ++ (b ++ '+' :: (b' ++ t))) rest :=
    .mk (.yesterday _) (.some (op := .plus) hb hb' ht)
  have hP := parse_dateOffset c iso now now' .yesterday _ _ rest _ hD hr rfl
  refine ⟨TT.moment now - TT.days 1 + a.tree.toTT, by rw [hP]; simp only [hw, OutE.ok_bind], fun w => C76_no_kind c _ w ?_⟩
  have := expr_kind hw
  simp [kind, this, TT.isSubtraction]

/-- **C78 refuted**, concretely: on 16 June 2017, `yesterday + 2 days`. -/
theorem C78_refuted_witness (iso : Iso) (now' : Moment) :
    ∃ v, parse (std .debug) iso (at_ 2017 6 16 12 0 0) now' "yesterday + 2days".toList = .ok (.timeType v) ∧
      calculate (std .debug) v = .err (.cannotAdd (.days 2) (.moment (at_ 2017 6 15 12 0 0))) := by
  have h1 : AmountText ⟨2, .day⟩ "2days".toList :=
    .number (b := []) (ds := "2".toList) (b' := []) (unit := .day) (name := "days")
      (by decide) (by decide) (by decide) (by decide) (by decide)
  have h2 : ExprText (.single ⟨2, .day⟩) "2days".toList := .single (b := []) h1 (by decide)
  have hD : DateText iso ⟨.yesterday, some (.plus, .single ⟨2, .day⟩)⟩ "yesterday + 2days".toList [] :=
    .mk (dt := "yesterday".toList) (.yesterday _) (.some (op := .plus) (b := " ".toList) (b' := " ".toList) (by decide) (by decide) h2)
  have hP := parse_dateOffset (std .debug) iso (at_ 2017 6 16 12 0 0) now' .yesterday _ _ [] _ hD (by intro ch h; cases h) rfl
  exact ⟨_, hP, by decide +kernel⟩

example (now now' : Moment) := C78_refuted (std .debug) noIso now now' [' '] [' '] _ [] _ (by decide) (by decide) sample_amounts (by intro ch h; cases h) (by decide)

/-- Other texts with an offset are fine. -/
example : ¬ YesterdayPlus "today + 2days".toList ∧ ¬ YesterdayPlus "yesterday - 2days".toList ∧
    ¬ YesterdayPlus "5days + 2hours".toList := by
  have key : ∀ s, YesterdayPlus s → '+' ∈ s ∧ s.head? = some 'y' := by
    rintro s ⟨b, rest, -, rfl⟩
    exact ⟨by simp, rfl⟩
  exact ⟨fun h => absurd (key _ h).2 (by decide), fun h => absurd (key _ h).1 (by decide),
    fun h => absurd (key _ h).2 (by decide)⟩

/-- **C78 (partial), iterators.** If the text of an iterator is accepted, the iterator can be built, or a date is out of
bounds, unless the text starts with `yesterday +` (after blanks). -/
theorem C78_iterators_partial (c : Cfg) (iso : Iso) (hi : IsoSane iso) (now now' : Moment) (s : List Char) (e : ErrorKind)
    (h : parse c iso now now' s = .ok (.iterator (.error e)))
    (hs : ∀ b s', Blanks b → s = b ++ s' → ¬ YesterdayPlus s') :
    ∃ Y M D H MI S, e = .outOfBounds Y M D H MI S := by
  have ndt : ∀ v, kind v = some .moment → ∀ e, intoNdt c v = .err e → ∃ Y M D H MI S, e = .outOfBounds Y M D H MI S := by
    intro v hk e he
    unfold intoNdt at he
    rcases C76_moments c v hk with ⟨m, hc⟩ | ⟨y, mo, d, hh, mi, s, hc⟩ | ⟨hc, -⟩ <;> rw [hc] at he
    · cases he
    · cases he; exact ⟨_, _, _, _, _, _, rfl⟩
    · cases he
  have errB : ∀ {α β : Type} {x : Out α} {f : α → Out β} {e : ErrorKind}, (x >>= f) = .err e →
      x = .err e ∨ ∃ a, x = .ok a ∧ f a = .err e := by
    intro α β x f e hx
    cases x with
    | ok a => exact .inr ⟨a, rfl, hx⟩
    | err e' => cases hx; exact .inl rfl
    | panic => cases hx
    | oof => cases hx
  rcases parse_cases c iso now now' s with ⟨r, it, hit, hp⟩ | ⟨-, r, t, ht, hp⟩ | ⟨-, -, hp⟩
  · rw [hp] at h
    obtain ⟨unit, n, t, hI, rfl, hrec, -⟩ := iterator_done c hi hit
    have hx : it.intoUserIterator c now now' = .err e := by
      cases hx : it.intoUserIterator c now now' <;> rw [hx] at h <;> cases h
      rfl
    have dk : ∀ v, it.date.intoTimetype c now = .ok v → kind v = some .moment := by
      intro v hv
      rcases date_kind hv with hk | ⟨he, a, ho⟩
      · exact hk
      · cases hI with
        | mk hb0 hd hb1 hst hb2 hu =>
          have := dateAt_yesterday hd he ho
          exact absurd this (hs _ _ hb0 (by simp only [List.append_assoc]))
    have stepk : ∀ v, it.spec.recur c = .ok v → v.isAAmount = true := by
      intro v hv
      have : ∀ n u, unitToAmount c n u = .ok v → v.isAAmount = true := by
        intro n u hv
        cases u <;> first
          | (cases hv; rfl)
          | (unfold unitToAmount TT.weeks at hv; obtain ⟨k, -, hv⟩ := bind_ok_inv hv; cases hv; rfl)
      cases hsp : it.spec <;> rw [hsp] at hv <;> simp only [Iterspec.recur] at hv <;> exact this _ _ hv
    have bld : ∀ m v e, v.isAAmount = true → Iter.build m v ≠ .err e := by
      intro m v e hv hb
      unfold Iter.build at hb
      rw [hv] at hb
      simp at hb
    have recE : ∀ e, it.spec.recur c ≠ .err e := by
      intro e he
      have : ∀ n u, unitToAmount c n u ≠ .err e := by
        intro n u hv
        cases u <;> first
          | (cases hv; done)
          | (unfold unitToAmount TT.weeks at hv
             rcases errB hv with hv | ⟨a, -, hv⟩
             · exact chk_ne_err c _ e hv
             · cases hv)
      cases hsp : it.spec <;> rw [hsp] at he <;> simp only [Iterspec.recur] at he <;> exact this _ _ he
    unfold PIterator.intoUserIterator at hx
    rcases errB hx with hx | ⟨step, hst, hx⟩
    · exact absurd hx (recE e)
    have hsa := stepk step hst
    have dateE : ∀ e, it.date.intoTimetype c now = .err e → ∃ Y M D H MI S, e = .outOfBounds Y M D H MI S :=
      fun e he => (bnd_date c now it.date).2 e he
    split at hx
    · rename_i ex hex
      rcases errB hx with hx | ⟨v, hv, hx⟩
      · exact dateE e hx
      rcases errB hx with hx | ⟨m, hm, hx⟩
      · exact ndt v (dk v hv) e hx
      rcases errB hx with hx | ⟨w, hw, hx⟩
      · exact (bnd_exact c now' ex).2 e hx
      rcases errB hx with hx | ⟨m', hm', hx⟩
      · exact ndt w (exact_kind hw).1 e hx
      rcases errB hx with hx | ⟨i, hi', hx⟩
      · exact absurd hx (bld m step e hsa)
      · cases hx
    · rcases errB hx with hx | ⟨v, hv, hx⟩
      · exact dateE e hx
      rcases errB hx with hx | ⟨m, hm, hx⟩
      · exact ndt v (dk v hv) e hx
      rcases errB hx with hx | ⟨i, hi', hx⟩
      · exact absurd hx (bld m step e hsa)
      · cases hx
    · rcases errB hx with hx | ⟨v, hv, hx⟩
      · exact dateE e hx
      rcases errB hx with hx | ⟨m, hm, hx⟩
      · exact ndt v (dk v hv) e hx
      rcases errB hx with hx | ⟨i, hi', hx⟩
      · exact absurd hx (bld m step e hsa)
      · cases hx
  · rw [hp] at h
    cases hx : t.intoTimetype c now <;> rw [hx] at h <;> cases h
  · rw [hp] at h; cases h

/-- An iterator text that is accepted although its date is out of bounds: `tomorrow` on chrono's last day. -/
example : parse (std .debug) noIso (at_ 262143 12 31 8 0 0) (at_ 262143 12 31 8 0 0) "tomorrow daily".toList =
      .ok (.iterator (.error (.outOfBounds 262144 1 8 8 0 0))) ∧
    ∀ b s', Blanks b → "tomorrow daily".toList = b ++ s' → ¬ YesterdayPlus s' := by
  refine ⟨by decide +kernel, ?_⟩
  rintro b s' - hs ⟨b', rest, -, rfl⟩
  have : '+' ∈ "tomorrow daily".toList := by rw [hs]; simp
  exact absurd this (by decide)

end Props
