import Verif.Props.Parts

/-!
# C127: an error inside an expression is the error of the whole
-/

namespace Props
open Kairos Spec

theorem err_or_panic {c : Cfg} {a b : TT} {e : ErrorKind} (ha : calculate c a = .err e) (f : TT → TT → Out TT) (r : Out TT)
    (hb : (∃ w, calculate c b = .ok w) ∨ calculate c b = .panic)
    (h : r = (do let v ← calculate c a; let w ← calculate c b; f v w) ∨ r = (do let w ← calculate c b; let v ← calculate c a; f v w)) :
    r = .err e ∨ r = .panic := by
  rcases h with h | h
  · rw [h, ha]; exact .inl rfl
  · rcases hb with ⟨w, hw⟩ | hb
    · rw [h, hw, ha]; exact .inl rfl
    · rw [h, hb]; exact .inr rfl

theorem ok_or_panic {c : Cfg} {t : TT} (h : kind t = some .amount) : (∃ w, calculate c t = .ok w) ∨ calculate c t = .panic := by
  rcases C76_amounts c t h with ⟨u, n, e⟩ | ⟨e, -⟩
  · exact .inl ⟨_, e⟩
  · exact .inr e

theorem right_is_amount {a b : TT} : (kind (a + b) ≠ none → kind b = some .amount) ∧ (kind (a - b) ≠ none → kind b = some .amount) := by
  constructor
  · intro h
    exact (kind_add_operands h).2.2.1
  · intro h
    rw [TT.hsub_def] at h
    unfold kind at h
    split at h
    · exact absurd rfl h
    · rename_i hb; simpa using hb

theorem add_err (c : Cfg) {a b : TT} {e : ErrorKind} (h : kind (a + b) ≠ none) (ha : calculate c a = .err e) :
    calculate c (a + b) = .err e ∨ calculate c (a + b) = .panic := by
  obtain ⟨h1, h2, h3, h4⟩ := kind_add_operands h
  have hb := fits_all c b
  rw [h3] at hb
  rw [calculate_add]
  exact err_or_panic ha (fun v w => exec c (.add v w)) _ (ok_or_panic h3)
    (add_sem c h1 h2 hb.amount_value (fun hs => by have ha := fits_all c a; rw [h4 hs] at ha; exact ha.amount_value))

theorem sub_err (c : Cfg) {a b : TT} {e : ErrorKind} (h : kind (a - b) ≠ none) (ha : calculate c a = .err e) :
    calculate c (a - b) = .err e ∨ calculate c (a - b) = .panic := by
  obtain ⟨h1, h2⟩ := kind_sub_operands h
  rw [calculate_sub]
  exact err_or_panic ha (fun v w => exec c (.sub v w)) _ (ok_or_panic (right_is_amount.2 h)) (sub_sem c h1 h2)

/-- Parts of an expression of amounts are amounts. -/
theorem amount_part {a : TT} (k : Context) (h : kind (k.fill a) = some .amount) : kind a = some .amount := by
  induction k with
  | hole => exact h
  | addLeft k b ih =>
    refine ih ?_
    simp only [Context.fill, TT.hadd_def, kind] at h
    split at h
    · cases h
    · split at h
      · assumption
      · split at h <;> cases h
  | addRight b k ih => exact ih ((right_is_amount (a := b)).1 (by rw [Context.fill] at h; rw [h]; simp))
  | subLeft k b ih =>
    refine ih ?_
    simp only [Context.fill, TT.hsub_def, kind] at h
    split at h
    · cases h
    · split at h
      · cases h
      · exact h
  | subRight b k ih => exact ih ((right_is_amount (a := b)).2 (by rw [Context.fill] at h; rw [h]; simp))
  | endOf e k ih => cases e <;> simp only [Context.fill, EndKind.app, kind] at h <;> split at h <;> cases h

theorem amount_no_err {c : Cfg} {a : TT} {e : ErrorKind} (h : kind a = some .amount) (ha : calculate c a = .err e) : False := by
  rcases ok_or_panic (c := c) h with ⟨w, hw⟩ | hp
  · rw [ha] at hw; cases hw
  · rw [ha] at hp; cases hp

theorem add_panic (c : Cfg) {a b : TT} (h : kind (a + b) ≠ none) (ha : calculate c a = .panic) : calculate c (a + b) = .panic := by
  obtain ⟨h1, h2, h3, h4⟩ := kind_add_operands h
  have hb := fits_all c b
  rw [h3] at hb
  rw [calculate_add]
  rcases add_sem c h1 h2 hb.amount_value (fun hs => by have ha := fits_all c a; rw [h4 hs] at ha; exact ha.amount_value) with e | e <;> rw [e]
  · rw [ha]; rfl
  · rcases ok_or_panic (c := c) h3 with ⟨w, hw⟩ | hp
    · rw [hw, ha]; rfl
    · rw [hp]; rfl

theorem sub_panic (c : Cfg) {a b : TT} (h : kind (a - b) ≠ none) (ha : calculate c a = .panic) : calculate c (a - b) = .panic := by
  obtain ⟨h1, h2⟩ := kind_sub_operands h
  rw [calculate_sub]
  rcases sub_sem c h1 h2 with e | e <;> rw [e]
  · rw [ha]; rfl
  · rcases ok_or_panic (c := c) (right_is_amount.2 h) with ⟨w, hw⟩ | hp
    · rw [hw, ha]; rfl
    · rw [hp]; rfl

theorem part_err (c : Cfg) (k : Context) (a : TT) (e : ErrorKind) (ha : calculate c a = .err e) (h : kind (k.fill a) ≠ none) :
    calculate c (k.fill a) = .err e ∨ calculate c (k.fill a) = .panic := by
  induction k with
  | hole => exact .inl ha
  | addLeft k b ih =>
    rcases ih (kind_part (.addLeft .hole b) h) with h' | h'
    · exact add_err c h h'
    · exact .inr (add_panic c h h')
  | addRight b k ih => exact (amount_no_err (amount_part k (right_is_amount.1 h)) ha).elim
  | subLeft k b ih =>
    rcases ih (kind_part (.subLeft .hole b) h) with h' | h'
    · exact sub_err c h h'
    · exact .inr (sub_panic c h h')
  | subRight b k ih => exact (amount_no_err (amount_part k (right_is_amount.2 h)) ha).elim
  | endOf e' k ih =>
    rcases ih (kind_part (.endOf e' .hole) h) with h' | h' <;> simp only [Context.fill, calculate_endOf, h']
    · exact .inl rfl
    · exact .inr rfl

/-- **C127.** In an expression of a kind that can be calculated (C76), the error of a part, however deep inside, is the error of the whole, unless
64-bit arithmetic overflows in the overflow-checked build. -/
theorem C127_passed_on (c : Cfg) (k : Context) (a : TT) (e : ErrorKind) (ha : calculate c a = .err e) (h : kind (k.fill a) ≠ none) :
    calculate c (k.fill a) = .err e ∨ (calculate c (k.fill a) = .panic ∧ c.profile = .debug) := by
  rcases part_err c k a e ha h with h' | h'
  · exact .inl h'
  · refine .inr ⟨h', ?_⟩
    cases hc : c.profile with
    | debug => rfl
    | release =>
      have : c.release = c := by cases c; simp_all [Cfg.release]
      exact absurd h' (this ▸ calculate_np c _)

/-- `end_of_month((2017-03-31 - 1 month) - 3 days)`: there is no 31 February. -/
example : calculate (std .release) (.endOfMonth (.moment (at_ 2017 3 31 0 0 0) - .months 1 - .days 3)) = .err (.outOfBounds 2017 2 0 0 0 0) := by
  rcases C127_passed_on (std .release) (.endOf .month (.subLeft .hole (.days 3))) (.moment (at_ 2017 3 31 0 0 0) - .months 1)
    (.outOfBounds 2017 2 0 0 0 0) (by decide +kernel) (by decide) with h | ⟨_, h⟩
  · exact h
  · cases h

/-- A chain of steps with a hole for its start. -/
def chainHole : Context → List (Op × TT) → Context
  | k, [] => k
  | k, (.plus, x) :: l => chainHole (.addLeft k x) l
  | k, (.minus, x) :: l => chainHole (.subLeft k x) l

theorem chainHole_fill (a : TT) (l : List (Op × TT)) (k : Context) : (chainHole k l).fill a = chain (k.fill a) l := by
  induction l generalizing k with
  | nil => rfl
  | cons p l ih =>
    obtain ⟨op, x⟩ := p
    cases op <;> simp only [chainHole, ih] <;> rfl

/-- **C127 (steps).** In a chain of steps `x ± a ± b ± …` of a kind that can be calculated, the error is that of the first step that fails, whatever
comes after it. -/
theorem C127_first_step (c : Cfg) (x : TT) (l l' : List (Op × TT)) (e : ErrorKind) (hl : calculate c (chain x l) = .err e)
    (h : kind (chain x (l ++ l')) ≠ none) :
    calculate c (chain x (l ++ l')) = .err e ∨ (calculate c (chain x (l ++ l')) = .panic ∧ c.profile = .debug) := by
  have hf : (chainHole .hole l').fill (chain x l) = chain (chain x l) l' := chainHole_fill _ l' .hole
  rw [chain_append, ← hf] at h ⊢
  exact C127_passed_on c _ _ e hl h

/-- `2017-03-31 - 1 month - 3 days - 40 years`. -/
example := C127_first_step (std .debug) (.moment (at_ 2017 3 31 0 0 0)) [(.minus, .months 1)] [(.minus, .days 3), (.minus, .years 40)]
  (.outOfBounds 2017 2 0 0 0 0) (by decide +kernel) (by decide)

/-- One operation on parts that have values, and the same operation on these values. -/
inductive OnValues (c : Cfg) : TT → TT → Prop
  | add {x y v w : TT} (hx : calculate c x = .ok v) (hy : calculate c y = .ok w) : OnValues c (x + y) (v + w)
  | sub {x y v w : TT} (hx : calculate c x = .ok v) (hy : calculate c y = .ok w) : OnValues c (x - y) (v - w)
  | endOf {x v : TT} (q : EndKind) (hx : calculate c x = .ok v) : OnValues c (q.app x) (q.app v)

theorem right_not_panic {c : Cfg} {a b v : TT} {e : ErrorKind} (ha : calculate c a = .ok v) :
    (kind (a + b) ≠ none → calculate c (a + b) = .err e → calculate c b ≠ .panic) ∧
    (kind (a - b) ≠ none → calculate c (a - b) = .err e → calculate c b ≠ .panic) := by
  constructor
  · intro h ht hp
    obtain ⟨h1, h2, h3, h4⟩ := kind_add_operands h
    have hb := fits_all c b
    rw [h3] at hb
    rw [calculate_add] at ht
    rcases add_sem c h1 h2 hb.amount_value (fun hs => by have ha := fits_all c a; rw [h4 hs] at ha; exact ha.amount_value) with e | e <;>
      rw [e, hp] at ht
    · rw [ha] at ht; cases ht
    · cases ht
  · intro h ht hp
    obtain ⟨h1, h2⟩ := kind_sub_operands h
    rw [calculate_sub] at ht
    rcases sub_sem c h1 h2 with e | e <;> rw [e, hp] at ht
    · rw [ha] at ht; cases ht
    · cases ht

/-- **C127 (where it comes from).** The error of an expression of a kind that can be calculated is the error of one operation in it, a sum, a
difference or an end-of marker, whose operands have values; and the same operation on these values has the same error. -/
theorem C127_one_operation (c : Cfg) (t : TT) (e : ErrorKind) (ht : calculate c t = .err e) (h : kind t ≠ none) :
    ∃ (k : Context) (a a' : TT), t = k.fill a ∧ OnValues c a a' ∧ calculate c a = .err e ∧ calculate c a' = .err e := by
  have hend : ∀ (q : EndKind) (x : TT), calculate c (q.app x) = .err e → kind (q.app x) ≠ none →
      (calculate c x = .err e → kind x ≠ none →
        ∃ (k : Context) (a a' : TT), x = k.fill a ∧ OnValues c a a' ∧ calculate c a = .err e ∧ calculate c a' = .err e) →
      ∃ (k : Context) (a a' : TT), q.app x = k.fill a ∧ OnValues c a a' ∧ calculate c a = .err e ∧ calculate c a' = .err e := by
    intro q x ht h ih
    cases hx : calculate c x with
    | ok v =>
      refine ⟨.hole, _, _, rfl, .endOf q hx, ht, ?_⟩
      rw [calculate_endOf] at ht ⊢
      rw [calculate_leaf c (calculate_isLeaf hx)]
      rw [hx] at ht
      exact ht
    | err e' =>
      have : e' = e := by rw [calculate_endOf, hx] at ht; exact OutE.err.inj ht
      subst this
      obtain ⟨k, a, a', e1, r⟩ := ih hx (kind_part (.endOf q .hole) h)
      exact ⟨.endOf q k, a, a', by rw [e1]; rfl, r⟩
    | panic => rw [calculate_endOf, hx] at ht; cases ht
    | oof => exact absurd hx (C01_calculate_returns c _).1
  induction t with
  | addition a b iha _ =>
    rw [← TT.hadd_def] at ht h ⊢
    cases ha : calculate c a with
    | ok v =>
      rcases ok_or_panic (c := c) (right_is_amount.1 h) with ⟨w, hw⟩ | hp
      · refine ⟨.hole, _, _, rfl, .add ha hw, ht, ?_⟩
        rw [← (C77_values_combine c a b v w ha hw).1 h]; exact ht
      · exact absurd hp ((right_not_panic ha).1 h ht)
    | err e' =>
      have : e' = e := by
        rcases add_err c h ha with h' | h' <;> rw [ht] at h' <;> cases h'; rfl
      subst this
      obtain ⟨k, a, a', e1, r⟩ := iha ha (kind_part (.addLeft .hole b) h)
      exact ⟨.addLeft k b, a, a', by rw [e1]; rfl, r⟩
    | panic => rw [add_panic c h ha] at ht; cases ht
    | oof => exact absurd ha (C01_calculate_returns c _).1
  | subtraction a b iha _ =>
    rw [← TT.hsub_def] at ht h ⊢
    cases ha : calculate c a with
    | ok v =>
      rcases ok_or_panic (c := c) (right_is_amount.2 h) with ⟨w, hw⟩ | hp
      · refine ⟨.hole, _, _, rfl, .sub ha hw, ht, ?_⟩
        rw [← (C77_values_combine c a b v w ha hw).2 h]; exact ht
      · exact absurd hp ((right_not_panic ha).2 h ht)
    | err e' =>
      have : e' = e := by
        rcases sub_err c h ha with h' | h' <;> rw [ht] at h' <;> cases h'; rfl
      subst this
      obtain ⟨k, a, a', e1, r⟩ := iha ha (kind_part (.subLeft .hole b) h)
      exact ⟨.subLeft k b, a, a', by rw [e1]; rfl, r⟩
    | panic => rw [sub_panic c h ha] at ht; cases ht
    | oof => exact absurd ha (C01_calculate_returns c _).1
  | endOfYear x ih => exact hend .year x ht h ih
  | endOfMonth x ih => exact hend .month x ht h ih
  | endOfDay x ih => exact hend .day x ht h ih
  | endOfHour x ih => exact hend .hour x ht h ih
  | endOfMinute x ih => exact hend .minute x ht h ih
  | _ => rw [calculate_leaf c (by simp [TT.isLeaf, TT.isAAmount, TT.isMoment])] at ht; cases ht

example := C127_one_operation (std .debug) (.endOfMonth (.moment (at_ 2017 3 31 0 0 0) - .months 1 - .days 3)) (.outOfBounds 2017 2 0 0 0 0)
  (by decide +kernel) (by decide)

end Props
