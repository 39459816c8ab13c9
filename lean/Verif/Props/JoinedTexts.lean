import Verif.Lemmas.Joined
import Verif.Props.ParserDates
import Verif.Props.ParserAmounts

/-!
# C155: putting texts together
-/

namespace Props
open Kairos Kairos.Parser Spec

/-- **C155, what two texts with an operator between them stand for (partial).** The text before the operator is read as it is by itself, and
so is the one behind it; the operator works as written if an even number of minus signs stands before it, and as the opposite one if the
number is odd. Missing: the latter should not make a difference, see `C155_as_written_iff_partial`. -/
theorem C155_joined_partial (c : Cfg) (iso : Iso) (now now' : Moment) (e f : AmountExpr) (t s b : List Char) (op : Operator)
    (he : ExprText e t) (hf : ExprText f s) (hb : Blanks b) (hm : exprMag e + exprMag f ≤ 9223372036854775807)
    (hi : ∀ x ∈ [t, s, t ++ opChar op :: (b ++ s)], NoIso iso x ∧ NoIso iso (pastBlanks x)) :
    ∃ x y, StandsFor c iso now now' t x ∧ StandsFor c iso now now' s y ∧
      StandsFor c iso now now' (t ++ opChar op :: (b ++ s))
        (opValue (if t.count '-' % 2 = 0 then op else opposite op) x y) := by
  have pos : ∀ {e : AmountExpr} {t : List Char}, ExprText e t → 0 ≤ exprMag e := by
    intro e t h
    have hu : ∀ (n : Int) (u : TimeUnit), 0 ≤ n → 0 ≤ n * unitSecs u := fun n u hn =>
      Int.mul_nonneg hn (by cases u <;> decide)
    have ha : ∀ {a : Amount} {t : List Char}, AmountText a t → 0 ≤ a.number := by
      intro a t h; cases h with
      | number => exact Int.natCast_nonneg _
      | alias => exact Int.one_nonneg
    induction h with
    | single h _ => exact hu _ _ (ha h)
    | cons h _ _ _ ih =>
      rename_i a _ _ _ _ _ _ _ _ _
      have := hu _ a.unit (ha h)
      simp only [exprMag]; omega
  have p1 := pos he; have p2 := pos hf
  have key : ∀ {e : AmountExpr} {t : List Char}, ExprText e t → exprMag e ≤ 9223372036854775807 → NoIso iso t ∧ NoIso iso (pastBlanks t) →
      StandsFor c iso now now' t (exprSecs e) := fun h hm hi => C50_value c iso now now' _ _ h hi.1 hi.2 hm
  refine ⟨exprSecs e, exprSecs f, key he (by omega) (hi _ (by simp)), key hf (by omega) (hi _ (by simp)), ?_⟩
  rw [← secs_joined he]
  exact key (exprText_joined he hf hb op) (by rw [mag_joined]; exact hm) (hi _ (by simp))

theorem standsFor_unique {c : Cfg} {iso : Iso} {now now' : Moment} {t : List Char} {x y : Int}
    (h : StandsFor c iso now now' t x) (h' : StandsFor c iso now now' t y) : x = y := by
  obtain ⟨v, r, h1, h2, -, h3⟩ := h
  obtain ⟨v', r', g1, g2, -, g3⟩ := h'
  rw [h1] at g1; cases g1
  rw [h2] at g2; cases g2
  rw [h3] at g3; cases g3
  rfl

/-- **C155, exactly when texts are put together as written (partial).** The sum or difference of what the two texts stand for comes out
exactly if an even number of minus signs stands before the operator, or the text behind it stands for nothing (0 seconds). -/
theorem C155_as_written_iff_partial (c : Cfg) (iso : Iso) (now now' : Moment) (e f : AmountExpr) (t s b : List Char) (op : Operator)
    (he : ExprText e t) (hf : ExprText f s) (hb : Blanks b) (hm : exprMag e + exprMag f ≤ 9223372036854775807)
    (hi : ∀ x ∈ [t, s, t ++ opChar op :: (b ++ s)], NoIso iso x ∧ NoIso iso (pastBlanks x)) (x y : Int)
    (hx : StandsFor c iso now now' t x) (hy : StandsFor c iso now now' s y) :
    StandsFor c iso now now' (t ++ opChar op :: (b ++ s)) (opValue op x y) ↔ t.count '-' % 2 = 0 ∨ y = 0 := by
  obtain ⟨x', y', hx', hy', hj⟩ := C155_joined_partial c iso now now' e f t s b op he hf hb hm hi
  obtain rfl := standsFor_unique hx hx'
  obtain rfl := standsFor_unique hy hy'
  constructor
  · intro h
    have := standsFor_unique h hj
    by_cases hp : t.count '-' % 2 = 0
    · exact .inl hp
    · rw [if_neg hp] at this
      right
      cases op <;> simp only [opValue, opposite] at this <;> omega
  · rintro (h | h)
    · rwa [if_pos h] at hj
    · subst h
      split at hj
      · exact hj
      · cases op <;> simpa [opValue, opposite] using hj

/-- **C155, dates (partial).** Writing an operator and amounts behind a date with an offset does the same to the offset: the date is moved
once, by one amount of that many seconds. -/
theorem C155_dates_partial (c : Cfg) (iso : Iso) (now now' : Moment) (d : ExactDate) (m : Moment) (op op' : Operator) (e f : AmountExpr)
    (dt b b' t s b'' : List Char) (hd : ExactText iso d dt (b ++ opChar op :: (b' ++ (t ++ opChar op' :: (b'' ++ s)))))
    (hb : Blanks b) (hb' : Blanks b') (he : ExprText e t) (hf : ExprText f s) (hb'' : Blanks b'')
    (hm : exprMag e + exprMag f ≤ 9223372036854775807) (hv : exactMeans c now d = .value (.moment m)) :
    ∃ v u k, parse c iso now now' (dt ++ (b ++ opChar op :: (b' ++ (t ++ opChar op' :: (b'' ++ s))))) = .ok (.timeType v) ∧
      k * u.secs = opValue (if t.count '-' % 2 = 0 then op' else opposite op') (exprSecs e) (exprSecs f) ∧
      calculate c v = calculate c (if op = .plus then .moment m + amt u k else .moment m - amt u k) := by
  have ht : DateText iso ⟨d, some (op, joined e op' f)⟩ (dt ++ (b ++ opChar op :: (b' ++ (t ++ opChar op' :: (b'' ++ s))))) [] :=
    .mk (by simpa using hd) (.some hb hb' (exprText_joined he hf hb'' op'))
  have := C64_value c iso now now' d m _ [] op _ ht (by intro ch h; cases h) hv (by rw [mag_joined]; exact hm)
  rwa [List.append_nil, secs_joined he] at this

/-! ### a case -/

theorem text_2d : ExprText (.single ⟨2, .day⟩) "2d ".toList :=
  .single (t := "2d".toList) (b := " ".toList) (.number (b := []) (ds := "2".toList) (b' := []) (unit := .day) (name := "d")
    (by decide) (by decide) (by decide) (by decide) (by decide)) (by decide)
theorem text_1d : ExprText (.single ⟨1, .day⟩) "1d ".toList :=
  .single (t := "1d".toList) (b := " ".toList) (.number (b := []) (ds := "1".toList) (b' := []) (unit := .day) (name := "d")
    (by decide) (by decide) (by decide) (by decide) (by decide)) (by decide)
theorem text_2d_1d : ExprText (.cons ⟨2, .day⟩ .minus (.single ⟨1, .day⟩)) "2d - 1d ".toList :=
  exprText_joined (b := " ".toList) text_2d text_1d (by decide) .minus

/-- **C155 refuted.** `2d - 1d` is one day, and `1d` is one day, but `2d - 1d + 1d` is not two days: it is none. -/
theorem C155_refuted (now now' : Moment) :
    StandsFor (std .debug) noIso now now' "2d - 1d ".toList 86400 ∧ StandsFor (std .debug) noIso now now' "1d ".toList 86400 ∧
    StandsFor (std .debug) noIso now now' "2d - 1d + 1d ".toList 0 ∧
    ¬ StandsFor (std .debug) noIso now now' "2d - 1d + 1d ".toList (86400 + 86400) := by
  have hi : ∀ x ∈ ["2d - 1d ".toList, "1d ".toList, "2d - 1d ".toList ++ opChar .plus :: (" ".toList ++ "1d ".toList)],
      NoIso noIso x ∧ NoIso noIso (pastBlanks x) := fun x _ => ⟨noIso_spec _, noIso_spec _⟩
  have h1 : StandsFor (std .debug) noIso now now' "2d - 1d ".toList 86400 :=
    C50_value _ _ _ _ _ _ text_2d_1d (noIso_spec _) (noIso_spec _) (by decide)
  have h2 : StandsFor (std .debug) noIso now now' "1d ".toList 86400 :=
    C50_value _ _ _ _ _ _ text_1d (noIso_spec _) (noIso_spec _) (by decide)
  have h3 : StandsFor (std .debug) noIso now now' "2d - 1d + 1d ".toList 0 :=
    C50_value _ _ _ _ _ _ (exprText_joined (b := " ".toList) text_2d_1d text_1d (by decide) .plus) (noIso_spec _) (noIso_spec _) (by decide)
  refine ⟨h1, h2, h3, fun h => ?_⟩
  exact absurd (standsFor_unique h h3) (by decide)

/-- The hypotheses are met by these texts, joined by a minus: `2d - 1d - 1d` is two days. -/
example (now now' : Moment) : ∃ x y, StandsFor (std .debug) noIso now now' "2d - 1d ".toList x ∧
    StandsFor (std .debug) noIso now now' "1d ".toList y ∧ StandsFor (std .debug) noIso now now' "2d - 1d - 1d ".toList (x + y) :=
  C155_joined_partial (std .debug) noIso now now' _ _ "2d - 1d ".toList "1d ".toList " ".toList .minus text_2d_1d text_1d (by decide)
    (by decide) (fun x _ => ⟨noIso_spec _, noIso_spec _⟩)

/-- After `2d` a minus means what it says, after `2d - 1d` it does not. -/
example (now now' : Moment) :
    StandsFor (std .debug) noIso now now' "2d - 1d ".toList (172800 - 86400) ∧
    ¬ StandsFor (std .debug) noIso now now' "2d - 1d - 1d ".toList (86400 - 86400) :=
  ⟨(C155_as_written_iff_partial (std .debug) noIso now now' _ _ "2d ".toList "1d ".toList " ".toList .minus text_2d text_1d (by decide)
      (by decide) (fun x _ => ⟨noIso_spec _, noIso_spec _⟩) 172800 86400
      (C50_value _ _ _ _ _ _ text_2d (noIso_spec _) (noIso_spec _) (by decide))
      (C50_value _ _ _ _ _ _ text_1d (noIso_spec _) (noIso_spec _) (by decide))).2 (by decide),
    fun h => absurd ((C155_as_written_iff_partial (std .debug) noIso now now' _ _ "2d - 1d ".toList "1d ".toList " ".toList .minus
      text_2d_1d text_1d (by decide) (by decide) (fun x _ => ⟨noIso_spec _, noIso_spec _⟩) 86400 86400
      (C50_value _ _ _ _ _ _ text_2d_1d (noIso_spec _) (noIso_spec _) (by decide))
      (C50_value _ _ _ _ _ _ text_1d (noIso_spec _) (noIso_spec _) (by decide))).1 h) (by decide)⟩

example (now now' : Moment) := C155_dates_partial (std .debug) noIso now now' .today now .plus .minus _ _ "today".toList " ".toList
  " ".toList "2d ".toList "1d ".toList " ".toList (.today _) (by decide) (by decide) text_2d text_1d (by decide) (by decide) rfl

end Props
