import Verif.Lemmas.ParserSound
import Verif.Lemmas.Safe

/-! Short texts with short numbers never overflow. -/

namespace Kairos.Parser
open Nom Spec

theorem Safe.np {ε α : Type} {Q : α → Prop} {x : OutE ε α} (h : Safe Q x) : NP x := h.1

theorem total_toTT (t : AmtTree) : (total t.toTT : Int) = t.mag := by
  induction t with
  | amt u n =>
    cases u <;> simp only [AmtTree.toTT, amt, total, AmtTree.mag, TUnit.secs] <;> split <;> omega
  | plus a b iha ihb =>
    have : total (a.toTT + b.toTT) = total a.toTT + total b.toTT := rfl
    simp only [AmtTree.toTT, AmtTree.mag, this]; omega
  | minus a b iha ihb =>
    have : total (a.toTT - b.toTT) = total a.toTT + total b.toTT := rfl
    simp only [AmtTree.toTT, AmtTree.mag, this]; omega

theorem allMoments_toTT (P : Moment → Prop) (t : AmtTree) : AllMoments P t.toTT := by
  induction t with
  | amt u n => cases u <;> trivial
  | plus a b iha ihb => exact ⟨iha, ihb⟩
  | minus a b iha ihb => exact ⟨iha, ihb⟩

theorem decimal_lt {ds : List Char} (h : ∀ ch ∈ ds, ch ∈ "0123456789".toList) : decimal ds < 10 ^ ds.length := by
  induction ds with
  | nil => simp [decimal]
  | cons d ds ih =>
    have h1 := ih (fun ch hc => h ch (by simp [hc]))
    have h2 : "0123456789".toList.idxOf d < 10 := by
      have := List.idxOf_lt_length_iff.2 (h d (by simp))
      simpa using this
    simp only [decimal, List.length_cons]
    rw [Nat.pow_succ]
    generalize 10 ^ ds.length = p at *
    have : "0123456789".toList.idxOf d * p ≤ 9 * p := Nat.mul_le_mul_right _ (by omega)
    omega

theorem _root_.Spec.ShortNumbers.sub {k : Nat} {p t q : List Char} (h : ShortNumbers k (p ++ t ++ q)) : ShortNumbers k t := by
  intro a ds b e hd
  exact h (p ++ a) ds (b ++ q) (by rw [e]; simp) hd

theorem _root_.Spec.ShortNumbers.left {k : Nat} {t q : List Char} (h : ShortNumbers k (t ++ q)) : ShortNumbers k t :=
  ShortNumbers.sub (p := []) (q := q) (by simpa using h)
theorem _root_.Spec.ShortNumbers.right {k : Nat} {p t : List Char} (h : ShortNumbers k (p ++ t)) : ShortNumbers k t :=
  ShortNumbers.sub (p := p) (q := []) (by simpa using h)

theorem _root_.Spec.ShortNumbers.decimal {k : Nat} {s p ds q : List Char} (h : ShortNumbers k s) (e : s = p ++ ds ++ q)
    (hd : Digits ds) : decimal ds < 10 ^ k :=
  Nat.lt_of_lt_of_le (decimal_lt hd.2) (Nat.pow_le_pow_right (by decide) (h p ds q e hd))

theorem amountText_bound {a : Amount} {t : List Char} (h : AmountText a t) {k : Nat} (hs : ShortNumbers k t) :
    0 ≤ a.number ∧ a.number ≤ (10 ^ k : Nat) := by
  cases h with
  | number hb hd hb' hn hmax =>
    rename_i b ds b' unit name
    have := hs.decimal (p := b) (q := b' ++ name.toList) (by simp) hd
    simp only
    omega
  | alias u =>
    have : 0 < 10 ^ k := Nat.pow_pos (by decide)
    simp only
    omega

theorem unitSecs_bound (u : TimeUnit) : 0 ≤ unitSecs u ∧ unitSecs u ≤ 31104000 := by cases u <;> decide

theorem exprMag_bound {e : AmountExpr} {t : List Char} (h : ExprText e t) {k : Nat} (hs : ShortNumbers k t) :
    exprMag e ≤ ((10 ^ k : Nat) : Int) * 31104000 * t.length := by
  have one : ∀ (a : Amount) (B : Int) (l : Int), 0 ≤ a.number → a.number ≤ B → 1 ≤ l →
      a.number * unitSecs a.unit ≤ B * 31104000 * l := by
    intro a B l h0 h1 hl
    have hu := unitSecs_bound a.unit
    have s1 : a.number * unitSecs a.unit ≤ B * unitSecs a.unit := Int.mul_le_mul_of_nonneg_right h1 hu.1
    have s2 : B * unitSecs a.unit ≤ B * 31104000 := Int.mul_le_mul_of_nonneg_left hu.2 (by omega)
    have s3 : B * 31104000 * 1 ≤ B * 31104000 * l := Int.mul_le_mul_of_nonneg_left hl (by omega)
    omega
  have B0 : (0 : Int) ≤ ((10 ^ k : Nat) : Int) := Int.natCast_nonneg _
  generalize hB : ((10 ^ k : Nat) : Int) = B at *
  induction h with
  | single ha hb =>
    rename_i a t b
    have hl := List.length_pos_iff.2 (amountText_ne ha)
    have := amountText_bound ha hs.left
    simp only [exprMag]
    exact one a B _ this.1 (by omega) (by rw [List.length_append]; omega)
  | cons ha hb hb' he ih =>
    rename_i a op e t b b' t'
    have hl := List.length_pos_iff.2 (amountText_ne ha)
    have h1 := amountText_bound ha (k := k) (by rw [List.append_assoc] at hs; exact hs.left)
    have h2 := ih (by
      have := hs.right
      rw [show opChar op :: (b' ++ t') = (opChar op :: b') ++ t' by simp] at this
      exact this.right)
    have h3 := one a B t.length h1.1 (by omega) (by omega)
    have hlen : ((t ++ b ++ opChar op :: (b' ++ t')).length : Int) = t.length + (b.length + b'.length + 1) + t'.length := by
      simp; omega
    simp only [exprMag]
    rw [hlen, Int.mul_add, Int.mul_add]
    have : 0 ≤ B * 31104000 * ((b.length : Int) + b'.length + 1) := Int.mul_nonneg (by omega) (by omega)
    omega

/-! ### dates -/

/-- The numbers of an ISO date have the types of the crate. -/
def ExactTyped : ExactDate → Prop
  | .iso8601Date d => DateTyped d
  | .iso8601DateTime d => DateTyped d.date ∧ (0 ≤ d.hour ∧ d.hour < 2 ^ 32) ∧ (0 ≤ d.minute ∧ d.minute < 2 ^ 32) ∧
      (0 ≤ d.second ∧ d.second < 2 ^ 32)
  | _ => True

theorem exactAt_typed {iso : Iso} (hi : IsoSane iso) {e : ExactDate} {t r : List Char} (h : ExactAt iso e t r) :
    ExactTyped e := by
  cases h with
  | datetime h => exact hi.datetimeTyped _ _ _ h
  | date h => exact hi.dateTyped _ _ _ h
  | _ => trivial

theorem safe_ofOption {α : Type} {Q : α → Prop} {o : Option α} {e : ErrorKind} (h : ∀ a, o = some a → Q a) :
    Safe Q (OutE.ofOption o e : Out α) := by
  cases o with
  | none => exact Safe.err e
  | some a => exact Safe.ok (h a rfl)

theorem safe_midnight (c : Cfg) (y m d : Int) (e : ErrorKind) :
    Safe (fun v => ∃ mm : Moment, v = TT.moment mm ∧ mm.Valid c)
      (OutE.ofOption (fromYmdOpt c y m d) e >>= fun nd => (nd.andHms 0 0 0 : Out Moment) >>= fun mm => .ok (.moment mm)) := by
  have t0 : Cal.ValidTime 0 0 0 := by decide
  refine (safe_ofOption (Q := fun nd : Date => c.minYear ≤ nd.year ∧ nd.year ≤ c.maxYear ∧ Cal.ValidDate nd.year nd.month nd.day)
    ?_).bind ?_
  · intro nd hnd
    obtain ⟨rfl, h⟩ := fromYmdOpt_some c hnd
    exact h
  · intro nd h
    rw [andHms_ok t0, OutE.ok_bind]
    exact Safe.ok ⟨_, rfl, h.1, h.2.1, h.2.2, t0, by simp, by simp⟩

theorem safe_exact (c : Cfg) (now : Moment) (hn : now.Valid c) {e : ExactDate} (h : ExactTyped e) :
    Safe (Fine c 3000000000000000) (e.intoTimetype c now) := by
  have hweeks : ∀ ww : Int, 0 ≤ ww ∧ ww < 2 ^ 32 → TT.weeks c ww = .ok (.days (7 * ww)) :=
    fun ww h => weeks_ok (by unfold InI64; omega)
  cases e with
  | today => exact Safe.ok ⟨by simp [total], hn⟩
  | yesterday => exact Safe.ok ⟨by show total (.subtraction _ _) ≤ _; simp [total], hn, trivial⟩
  | tomorrow => exact Safe.ok ⟨by show total (.addition _ _) ≤ _; simp [total], hn, trivial⟩
  | iso8601Date d =>
    cases d with
    | ymd y m d =>
      refine (safe_midnight c y m d _).mono ?_
      rintro v ⟨mm, rfl, hm⟩
      exact ⟨by simp [total], hm⟩
    | week y ww d =>
      obtain ⟨-, h2, h3⟩ := h
      simp only [ExactDate.intoTimetype, newYear]
      refine (safe_midnight c y 1 1 _).bind ?_
      rintro v ⟨mm, rfl, hm⟩
      rw [hweeks ww h2]
      refine Safe.ok ⟨?_, ⟨hm, trivial⟩, trivial⟩
      show total (.addition (.addition _ _) _) ≤ _
      simp only [total]; omega
    | ordinal y d =>
      obtain ⟨-, h3⟩ := h
      simp only [ExactDate.intoTimetype, newYear]
      refine (safe_midnight c y 1 1 _).bind ?_
      rintro v ⟨mm, rfl, hm⟩
      refine Safe.ok ⟨?_, hm, trivial⟩
      show total (.addition _ _) ≤ _
      simp only [total]; omega
  | iso8601DateTime d =>
    obtain ⟨d, hh, mi, s, ms, th, tm⟩ := d
    obtain ⟨h, k1, k2, k3⟩ := h
    simp only at h k1 k2 k3
    cases d with
    | ymd y m d =>
      simp only [ExactDate.intoTimetype]
      refine (safe_ofOption (Q := fun mm : Moment => mm.Valid c) ?_).bind ?_
      · intro mm hmm
        rw [Option.bind_eq_some_iff] at hmm
        obtain ⟨nd, hnd, hm⟩ := hmm
        obtain ⟨rfl, g1, g2, g3⟩ := fromYmdOpt_some c hnd
        obtain ⟨rfl, g4⟩ := andHmsOpt_some hm
        exact ⟨g1, g2, g3, g4, by simp, by simp⟩
      · intro mm hm
        exact Safe.ok ⟨by simp [total], hm⟩
    | week y ww d =>
      obtain ⟨-, h2, h3⟩ := h
      simp only [ExactDate.intoTimetype, newYear]
      refine (safe_midnight c y 1 1 _).bind ?_
      rintro v ⟨mm, rfl, hm⟩
      rw [hweeks ww h2]
      refine Safe.ok ⟨?_, ⟨⟨⟨⟨hm, trivial⟩, trivial⟩, trivial⟩, trivial⟩, trivial⟩
      show total (.addition (.addition (.addition (.addition (.addition _ _) _) _) _) _) ≤ _
      simp only [total]; omega
    | ordinal y d =>
      obtain ⟨-, h3⟩ := h
      simp only [ExactDate.intoTimetype, newYear]
      refine (safe_midnight c y 1 1 _).bind ?_
      rintro v ⟨mm, rfl, hm⟩
      refine Safe.ok ⟨?_, ⟨⟨⟨hm, trivial⟩, trivial⟩, trivial⟩, trivial⟩
      show total (.addition (.addition (.addition (.addition _ _) _) _) _) ≤ _
      simp only [total]; omega

theorem safe_expr (c : Cfg) {e : AmountExpr} {t : List Char} (h : ExprText e t) (hs : ShortNumbers 8 t) (hl : t.length ≤ 1000) :
    Safe (Fine c 3200000000000000000) (e.intoTimetype c) := by
  have hp := exprText_pos h
  have hb := exprMag_bound h hs
  have hb' : exprMag e ≤ 3200000000000000000 := by
    rw [show ((10 ^ 8 : Nat) : Int) = 100000000 by decide] at hb
    omega
  rw [e.into_tree (weeksFit_of_mag hp (by omega))]
  refine Safe.ok ⟨?_, allMoments_toTT _ _⟩
  have := total_toTT e.tree
  rw [e.mag_tree hp] at this
  omega

theorem safe_expr18 (c : Cfg) {e : AmountExpr} {t : List Char} (h : ExprText e t) (hs : ShortNumbers 18 t) :
    NP (e.intoTimetype c) := by
  have : e.WeeksFit := by
    have one : ∀ (a : Amount) (t : List Char), AmountText a t → ShortNumbers 18 t → a.unit = .week → InI64 (7 * a.number) := by
      intro a t h hs _
      have := amountText_bound h hs
      rw [show ((10 ^ 18 : Nat) : Int) = 1000000000000000000 by decide] at this
      unfold InI64; omega
    induction h with
    | single ha hb => exact one _ _ ha hs.left
    | cons ha hb hb' he ih =>
      rename_i a op e t b b' t'
      refine ⟨one _ _ ha (by rw [List.append_assoc] at hs; exact hs.left), ih ?_⟩
      have := hs.right
      rw [show opChar op :: (b' ++ t') = (opChar op :: b') ++ t' by simp] at this
      exact this.right
  rw [e.into_tree this]
  exact NP.ok _

theorem safe_date (c : Cfg) (now : Moment) (hn : now.Valid c) {iso : Iso} (hi : IsoSane iso) {d : PDate} {t r : List Char}
    (h : DateAt iso d t r) (hs : ShortNumbers 8 t) (hl : t.length ≤ 1000) :
    Safe (Fine c 4000000000000000000) (d.intoTimetype c now) := by
  cases h with
  | mk he ho =>
    rename_i dt ot e o
    refine (safe_exact c now hn (exactAt_typed hi he)).bind ?_
    rintro b ⟨hb1, hb2⟩
    cases ho with
    | none => exact Safe.ok ⟨by omega, hb2⟩
    | some hb hb' ha =>
      rename_i op a b0 b' t'
      have hs' : ShortNumbers 8 t' := by
        have := hs.right.right
        rw [show opChar op :: (b' ++ t') = (opChar op :: b') ++ t' by simp] at this
        exact this.right
      have hl' : t'.length ≤ 1000 := by simp at hl; omega
      cases op <;> simp only
      · refine (safe_expr c ha hs' hl').bind ?_
        rintro x ⟨hx1, hx2⟩
        refine Safe.ok ⟨?_, hb2, hx2⟩
        show total (.addition _ _) ≤ _
        simp only [total]; omega
      · refine (safe_expr c ha hs' hl').bind ?_
        rintro x ⟨hx1, hx2⟩
        refine Safe.ok ⟨?_, hb2, hx2⟩
        show total (.subtraction _ _) ≤ _
        simp only [total]; omega

theorem safe_ndt (c : Cfg) (hc : Sane c) {t : TT} (h : Fine c 4000000000000000000 t) : NP (intoNdt c t) := by
  unfold intoNdt
  exact NP.bind (calculate_safe c hc t h.1 h.2).1 fun v => np_ofOption _ _

theorem np_date18 (c : Cfg) (now : Moment) {iso : Iso} (hi : IsoSane iso) {d : PDate} {t r : List Char}
    (h : DateAt iso d t r) (hs : ShortNumbers 18 t) : NP (d.intoTimetype c now) := by
  cases h with
  | mk he ho =>
    rename_i dt ot e o
    have hty := exactAt_typed hi he
    refine np_date c now _ ?_ ?_
    · have hw : 0 ≤ e.weekNo ∧ e.weekNo < 2 ^ 32 := by
        cases e with
        | iso8601Date d => cases d <;> simp only [ExactDate.weekNo] <;> first | exact hty.2.1 | omega
        | iso8601DateTime d =>
          obtain ⟨d, hh, mi, s, ms, th, tm⟩ := d
          cases d <;> simp only [ExactDate.weekNo] <;> first | exact hty.1.2.1 | omega
        | _ => simp [ExactDate.weekNo]
      rw [weeks_ok (by unfold InI64; simp only; omega)]
      exact NP.ok _
    · intro op a e
      cases ho with
      | none => cases e
      | some hb hb' ha =>
        cases e
        rename_i b0 b' t'
        have := hs.right.right
        rw [show opChar op :: (b' ++ t') = (opChar op :: b') ++ t' by simp] at this
        exact safe_expr18 c ha this.right

theorem parse_short_np (c : Cfg) (hc : Sane c) {iso : Iso} (hi : IsoSane iso) (now now' : Moment) (hn : now.Valid c)
    (hn' : now'.Valid c) (s : List Char) (hs : ShortNumbers 8 s) (hl : s.length ≤ 1000) :
    NP (parse c iso now now' s) := by
  rcases parse_cases c iso now now' s with ⟨r, it, h, e⟩ | ⟨-, r, t, h, e⟩ | ⟨-, -, e⟩
  · rw [e]
    obtain ⟨u, n, t, hI, rfl, hr, hnum⟩ := iterator_done c hi h
    obtain ⟨d, spec, un⟩ := it
    simp only at hI hr hnum
    cases hI with
    | mk hb0 hd hb1 hst hb2 hu =>
      rename_i b0 dt b1 st b2 ut
      have hsd : ShortNumbers 8 dt := hs.left.right.left
      have hst' : ShortNumbers 8 st := hs.left.right.right.right.left
      have hld : dt.length ≤ 1000 := by simp at hl; omega
      have hnb : 0 ≤ n ∧ n ≤ 100000000 := by
        cases hst with
        | alias => omega
        | every hb hd' hb' hnm hmax =>
          rename_i b ds b' name
          have := hst'.decimal (p := "every".toList ++ b) (q := b' ++ name.toList) (by simp) hd'
          omega
      have hD := safe_date c now hn hi hd hsd hld
      refine np_wrap (np_iterator c now now' _ ?_ hD.1 ?_ ?_)
      · simp only
        rw [hr]
        refine np_unitToAmount c n u ?_
        rw [weeks_ok (by unfold InI64; omega)]
        exact NP.ok _
      · intro t ht
        exact safe_ndt c hc (hD.2 t ht)
      · intro e he
        simp only at he
        cases hu with
        | none => cases he
        | times => cases he
        | untilDate hb hex =>
          cases he
          have hE := safe_exact c now' hn' (exactAt_typed hi hex)
          exact ⟨hE.1, fun t ht => safe_ndt c hc ⟨by have := (hE.2 t ht).1; omega, (hE.2 t ht).2⟩⟩
  · rw [e]
    rcases timetype_done hi h with ⟨d, tx, rfl, hd, rfl⟩ | ⟨a, tx, rfl, ha, rfl⟩
    · exact NP.bind (safe_date c now hn hi hd hs.left (by simp at hl; omega)).1 fun _ => NP.ok _
    · exact NP.bind (safe_expr c ha hs.left (by simp at hl; omega)).1 fun _ => NP.ok _
  · rw [e]; exact NP.err _

/-- Without a step, numbers of up to 18 digits are safe. -/
theorem parse_short18_np (c : Cfg) {iso : Iso} (hi : IsoSane iso) (now now' : Moment)
    (s : List Char) (hs : ShortNumbers 18 s) (hno : ∀ d u n b t r, s = t ++ r → ¬ IterAt iso d u n b t r) :
    NP (parse c iso now now' s) := by
  rcases parse_cases c iso now now' s with ⟨r, it, h, e⟩ | ⟨-, r, t, h, e⟩ | ⟨-, -, e⟩
  · obtain ⟨u, n, t, hI, e', -⟩ := iterator_done c hi h
    exact absurd hI (hno _ _ _ _ _ _ e')
  · rw [e]
    rcases timetype_done hi h with ⟨d, tx, rfl, hd, rfl⟩ | ⟨a, tx, rfl, ha, rfl⟩
    · exact NP.bind (np_date18 c now hi hd hs.left) fun _ => NP.ok _
    · exact NP.bind (safe_expr18 c ha hs.left) fun _ => NP.ok _
  · rw [e]; exact NP.err _

end Kairos.Parser
