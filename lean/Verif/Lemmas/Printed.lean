import Verif.Lemmas.ErrorText
import Verif.Lemmas.ParserSafe
import Verif.Props.Texts

/-! What the program prints consists of existing moments and of the library's own errors, whatever its arguments are. -/

namespace Kairos.Parser
open Spec Props

/-- A value with the property `Q`, or one of the library's own errors. -/
def Fair (c : Cfg) {α : Type} (Q : α → Prop) (r : Out α) : Prop := (∀ v, r = .ok v → Q v) ∧ ∀ e, r = .err e → OwnError c e

variable {c : Cfg}

theorem Fair.ok {α : Type} {Q : α → Prop} {v : α} (h : Q v) : Fair c Q (.ok v) :=
  ⟨fun _ e => by cases e; exact h, fun _ e => (nomatch e)⟩

theorem Fair.err {α : Type} {Q : α → Prop} {e : ErrorKind} (h : OwnError c e) : Fair c Q (.err e : Out α) :=
  ⟨fun _ e => (nomatch e), fun _ e => by cases e; exact h⟩

theorem Fair.panic {α : Type} {Q : α → Prop} : Fair c Q (.panic : Out α) := ⟨fun _ e => (nomatch e), fun _ e => (nomatch e)⟩
theorem Fair.oof {α : Type} {Q : α → Prop} : Fair c Q (.oof : Out α) := ⟨fun _ e => (nomatch e), fun _ e => (nomatch e)⟩

theorem Fair.bind {α β : Type} {Q : α → Prop} {Q' : β → Prop} {r : Out α} {f : α → Out β} (h : Fair c Q r)
    (hf : ∀ v, Q v → Fair c Q' (f v)) : Fair c Q' (r >>= f) := by
  cases r with
  | ok v => exact hf v (h.1 v rfl)
  | err e => exact Fair.err (h.2 e rfl)
  | panic => exact Fair.panic
  | oof => exact Fair.oof

theorem Fair.mono {α : Type} {Q Q' : α → Prop} {r : Out α} (h : Fair c Q r) (hq : ∀ v, Q v → Q' v) : Fair c Q' r :=
  ⟨fun v e => hq v (h.1 v e), h.2⟩

/-- Errors that name nothing. -/
theorem own_plain {e : ErrorKind} (h : e = .notADateInsideIterator ∨ (∃ s, e = .argumentErrorNotAMoment s)) : OwnError c e := by
  rcases h with rfl | ⟨s, rfl⟩ <;> exact ⟨by simp, by simp [operands], by simp⟩

theorem own_bounds {y mo d h mi s : Int} (hb : 0 ≤ mo ∧ 0 ≤ d ∧ 0 ≤ h ∧ 0 ≤ mi ∧ 0 ≤ s) :
    OwnError c (.outOfBounds y mo d h mi s) :=
  ⟨by simp, by simp [operands], by intro _ _ _ _ _ _ e; cases e; exact hb⟩

theorem fair_ofOption {α : Type} {Q : α → Prop} {o : Option α} {e : ErrorKind} (h : ∀ a, o = some a → Q a) (he : OwnError c e) :
    Fair c Q (OutE.ofOption o e : Out α) := by
  cases o with
  | none => exact Fair.err he
  | some a => exact Fair.ok (h a rfl)

theorem fair_midnight {y m d : Int} {e : ErrorKind} (he : OwnError c e) :
    Fair c (fun v => ∃ mm, v = .moment mm ∧ Proper c mm)
      (do let nd ← OutE.ofOption (fromYmdOpt c y m d) e; .ok (TT.moment (← nd.andHms 0 0 0)) : Out TT) := by
  have t0 : Cal.ValidTime 0 0 0 := by decide
  refine (fair_ofOption (Q := fun nd : Date => c.minYear ≤ nd.year ∧ nd.year ≤ c.maxYear ∧ Cal.ValidDate nd.year nd.month nd.day)
    ?_ he).bind ?_
  · intro nd hnd
    obtain ⟨rfl, h⟩ := fromYmdOpt_some c hnd
    exact h
  · intro nd h
    rw [andHms_ok t0, OutE.ok_bind]
    exact Fair.ok ⟨_, rfl, ⟨h.1, h.2.1, h.2.2, t0, by simp, by simp⟩, by simp⟩

theorem fair_weeks (n : Int) : Fair c (AllMoments (Proper c)) (TT.weeks c n) := by
  unfold TT.weeks Cfg.mul Cfg.chk
  split
  · exact Fair.ok trivial
  · split
    · exact Fair.panic
    · exact Fair.ok trivial

theorem fair_exact {now : Moment} (hn : Proper c now) {e : ExactDate} (h : ExactTyped e) :
    Fair c (AllMoments (Proper c)) (e.intoTimetype c now) := by
  cases e with
  | today => exact Fair.ok hn
  | yesterday => exact Fair.ok ⟨hn, trivial⟩
  | tomorrow => exact Fair.ok ⟨hn, trivial⟩
  | iso8601Date d =>
    cases d with
    | ymd y m d =>
      refine (fair_midnight (own_bounds (by obtain ⟨-, h1, h2⟩ := h; omega))).mono ?_
      rintro v ⟨mm, rfl, hm⟩
      exact hm
    | week y ww d =>
      simp only [ExactDate.intoTimetype, newYear]
      refine (fair_midnight (own_bounds (by decide))).bind ?_
      rintro v ⟨mm, rfl, hm⟩
      refine (fair_weeks ww).bind ?_
      intro w hw
      exact Fair.ok ⟨⟨hm, hw⟩, trivial⟩
    | ordinal y d =>
      simp only [ExactDate.intoTimetype, newYear]
      refine (fair_midnight (own_bounds (by decide))).bind ?_
      rintro v ⟨mm, rfl, hm⟩
      exact Fair.ok ⟨hm, trivial⟩
  | iso8601DateTime d =>
    obtain ⟨d, hh, mi, s, ms, th, tm⟩ := d
    obtain ⟨h, k1, k2, k3⟩ := h
    simp only at h k1 k2 k3
    cases d with
    | ymd y m d =>
      simp only [ExactDate.intoTimetype]
      refine (fair_ofOption (Q := fun mm : Moment => Proper c mm) ?_ (own_bounds (by obtain ⟨-, h1, h2⟩ := h; omega))).bind ?_
      · intro mm hmm
        rw [Option.bind_eq_some_iff] at hmm
        obtain ⟨nd, hnd, hm⟩ := hmm
        obtain ⟨rfl, g1, g2, g3⟩ := fromYmdOpt_some c hnd
        obtain ⟨rfl, g4⟩ := andHmsOpt_some hm
        exact ⟨⟨g1, g2, g3, g4, by simp, by simp⟩, by simp⟩
      · intro mm hm
        exact Fair.ok hm
    | week y ww d =>
      simp only [ExactDate.intoTimetype, newYear]
      refine (fair_midnight (own_bounds (by decide))).bind ?_
      rintro v ⟨mm, rfl, hm⟩
      refine (fair_weeks ww).bind ?_
      intro w hw
      exact Fair.ok ⟨⟨⟨⟨⟨hm, hw⟩, trivial⟩, trivial⟩, trivial⟩, trivial⟩
    | ordinal y d =>
      simp only [ExactDate.intoTimetype, newYear]
      refine (fair_midnight (own_bounds (by decide))).bind ?_
      rintro v ⟨mm, rfl, hm⟩
      exact Fair.ok ⟨⟨⟨⟨hm, trivial⟩, trivial⟩, trivial⟩, trivial⟩

theorem fair_amount (a : Amount) : Fair c (AllMoments (Proper c)) (a.intoTimetype c) := by
  unfold Amount.intoTimetype
  split <;> first
    | exact Fair.ok trivial
    | exact fair_weeks _

theorem fair_expr (e : AmountExpr) : Fair c (AllMoments (Proper c)) (e.intoTimetype c) := by
  induction e with
  | single a => exact fair_amount a
  | cons a op e ih =>
    cases op <;> simp only [AmountExpr.intoTimetype]
    all_goals
      refine (fair_amount a).bind fun v hv => ih.bind fun w hw => Fair.ok ⟨hv, hw⟩

theorem fair_date {iso : Iso} (hi : IsoSane iso) {now : Moment} (hn : Proper c now) {d : PDate} {t r : List Char}
    (h : DateAt iso d t r) : Fair c (AllMoments (Proper c)) (d.intoTimetype c now) := by
  cases h with
  | mk he ho =>
    rename_i dt ot e o
    refine (fair_exact hn (exactAt_typed hi he)).bind ?_
    intro b hb
    rcases o with _ | ⟨op, a⟩
    · exact Fair.ok hb
    · cases op <;> simp only
      all_goals exact (fair_expr a).bind fun w hw => Fair.ok ⟨hb, hw⟩

/-- An amount or an existing moment. -/
def Plain (c : Cfg) (v : TT) : Prop := AllMoments (Proper c) v ∧ v.isLeaf = true

theorem fair_calculate (hc : Sane c) {t : TT} (ht : AllMoments (Proper c) t) : Fair c (Plain c) (calculate c t) :=
  ⟨fun _ h => ⟨calculate_inv (c := c) (fun m hm => ⟨hm.1, by rw [hm.2]; intro h; omega⟩) ht h, calculate_isLeaf h⟩,
    fun _ h => own_of_calculate hc ht h⟩

theorem fair_ndt (hc : Sane c) {t : TT} (ht : AllMoments (Proper c) t) : Fair c (Proper c) (intoNdt c t) := by
  unfold intoNdt
  refine (fair_calculate hc ht).bind fun v hv => fair_ofOption ?_ (own_plain (.inl rfl))
  intro m hm
  cases v <;> simp only [TT.getMoment] at hm <;> first | (cases hm; done) | (cases hm; exact hv.1)

/-- The moments in the state of an iterator. -/
def IterFine (c : Cfg) (it : Iter) : Prop := AllMoments (Proper c) it.base ∧ AllMoments (Proper c) it.increment ∧
  (it.hadFirst = false → it.base.isLeaf = true)

/-- The moments in the state of an iterator that a text describes. -/
def UserFine (c : Cfg) : UserIterator → Prop
  | .iterator it => IterFine c it
  | .timesIter s => IterFine c s.inner
  | .untilIterator it _ => IterFine c it

theorem fair_build {m : Moment} (hm : Proper c m) {t : TT} (ht : AllMoments (Proper c) t) : Fair c (IterFine c) (Iter.build m t) := by
  unfold Iter.build
  split
  · refine Fair.err ⟨by simp, ?_, by simp⟩
    intro x hx
    simp only [operands, List.mem_cons, List.not_mem_nil, or_false] at hx
    rw [hx]; exact ht
  · exact Fair.ok ⟨hm, ht, fun _ => rfl⟩

/-- An item: none, or one that is as `Fair` says. -/
def FairItem (c : Cfg) (i : Item) : Prop := ∀ r, i = some r → Fair c (Plain c) r

theorem fair_next (hc : Sane c) {it : Iter} (h : IterFine c it) : IterFine c (it.next c).1 ∧ FairItem c (it.next c).2 := by
  unfold Iter.next
  split
  · rename_i hf
    refine ⟨⟨h.1, h.2.1, fun e => by cases e⟩, ?_⟩
    rintro r e
    cases e
    exact Fair.ok ⟨h.1, h.2.2 (by simpa using hf)⟩
  · rename_i hf
    have hb : AllMoments (Proper c) (it.base + it.increment) := ⟨h.1, h.2.1⟩
    have hfair := fair_calculate hc hb
    have hn : it.hadFirst = false → ∀ {p : Prop}, p := fun e => absurd (by rw [e]; rfl) hf
    simp only [Iter.skip, Iter.recalculate]
    cases hcalc : calculate c (it.base + it.increment) with
    | ok v => exact ⟨⟨(hfair.1 v hcalc).1, h.2.1, fun e => hn e⟩, by rintro r e; cases e; exact Fair.ok (hfair.1 v hcalc)⟩
    | err x => exact ⟨⟨hb, h.2.1, fun e => hn e⟩, by rintro r e; cases e; exact Fair.err (hfair.2 x hcalc)⟩
    | panic => exact ⟨⟨hb, h.2.1, fun e => hn e⟩, by rintro r e; cases e; exact Fair.panic⟩
    | oof => exact ⟨⟨hb, h.2.1, fun e => hn e⟩, by rintro r e; cases e; exact Fair.oof⟩

theorem fair_until (hc : Sane c) (ending : Moment) {it : Iter} (h : IterFine c it) :
    IterFine c (untilNext c (Iter.next c) ending it).1 ∧ FairItem c (untilNext c (Iter.next c) ending it).2 := by
  have hn := fair_next hc h
  unfold untilNext
  split
  · rename_i s' e
    rw [e] at hn
    exact ⟨hn.1, by rintro r e; cases e⟩
  · rename_i s' tt e
    rw [e] at hn
    have ht : Plain c tt := (hn.2 _ rfl).1 tt rfl
    have hf := fair_calculate hc ht.1
    split
    · rename_i v hv
      split
      · split
        · exact ⟨hn.1, by rintro r e; cases e; exact Fair.ok (hf.1 v hv)⟩
        · exact ⟨hn.1, by rintro r e; cases e⟩
      · exact ⟨hn.1, by rintro r e; cases e; exact Fair.err (own_plain (.inr ⟨_, rfl⟩))⟩
    · exact ⟨hn.1, by rintro r e; cases e; exact hf⟩
  · rename_i s' r _ e
    rw [e] at hn
    exact hn

theorem fair_times (hc : Sane c) {s : TimesState Iter} (h : IterFine c s.inner) :
    IterFine c (timesNext c (Iter.next c) s).1.inner ∧ FairItem c (timesNext c (Iter.next c) s).2 := by
  have hn := fair_next hc h
  unfold timesNext
  split
  · exact ⟨h, by rintro r e; cases e⟩
  · have : Fair c (fun _ => True) (c.add s.count 1 : Out Int) := by
      unfold Cfg.add Cfg.chk
      split
      · exact Fair.ok trivial
      · split
        · exact Fair.panic
        · exact Fair.ok trivial
    split
    · exact hn
    · rename_i e he
      exact ⟨h, by rintro r e'; cases e'; exact Fair.err (this.2 e he)⟩
    · exact ⟨h, by rintro r e; cases e; exact Fair.panic⟩
    · exact ⟨h, by rintro r e; cases e; exact Fair.oof⟩

theorem fair_user (hc : Sane c) {ui : UserIterator} (h : UserFine c ui) : UserFine c (ui.next c).1 ∧ FairItem c (ui.next c).2 := by
  cases ui with
  | iterator it => exact fair_next hc h
  | timesIter s => exact fair_times hc h
  | untilIterator it e => exact fair_until hc e h

theorem fair_recur {n : Int} {u : TimeUnit} : Fair c (AllMoments (Proper c)) (unitToAmount c n u) := by
  unfold unitToAmount
  split <;> first
    | exact Fair.ok trivial
    | exact fair_weeks _

theorem fair_userIterator (hc : Sane c) {iso : Iso} (hi : IsoSane iso) {now now' : Moment} (hn : Proper c now) (hn' : Proper c now')
    {i r : List Char} {it : PIterator} (h : iterator iso i = .done r it) : Fair c (UserFine c) (it.intoUserIterator c now now') := by
  obtain ⟨u, n, t, hat, -, hrec, -⟩ := iterator_done c hi h
  obtain ⟨d, spec, ub⟩ := it
  simp only at hat hrec
  cases hat with
  | mk _ hd _ _ _ hu =>
    simp only [PIterator.intoUserIterator, hrec]
    refine fair_recur.bind fun rc hrc => ?_
    have base := (fair_date (c := c) hi hn hd)
    split
    · rename_i e
      cases hu with
      | untilDate _ he =>
      exact base.bind fun v hv => (fair_ndt hc hv).bind fun m hm => (fair_exact hn' (exactAt_typed hi he)).bind fun v hv =>
        (fair_ndt hc hv).bind fun m' _ => (fair_build hm hrc).bind fun it hit => Fair.ok hit
    · exact base.bind fun v hv => (fair_ndt hc hv).bind fun m hm => (fair_build hm hrc).bind fun it hit => Fair.ok hit
    · exact base.bind fun v hv => (fair_ndt hc hv).bind fun m hm => (fair_build hm hrc).bind fun it hit => Fair.ok hit

end Kairos.Parser
