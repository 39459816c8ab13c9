import Verif.Lemmas.Kinds
import Verif.Lemmas.NoPanic
import Verif.Props.Evaluation

/-!
# C76, C77: which expressions can be calculated, and how values combine
-/

namespace Props
open Kairos Spec

/-! ## C76 -/

/-- **C76 (amounts).** An expression with the kind of an amount evaluates to an amount, unless 64-bit arithmetic overflows
in the checked build. -/
theorem C76_amounts (c : Cfg) (t : TT) (h : kind t = some .amount) :
    (∃ u n, calculate c t = .ok (amt u n)) ∨ (calculate c t = .panic ∧ c.profile = .debug) := by
  have hf := fits_all c t
  rw [h] at hf
  rcases hf with hp | hok
  · refine .inr ⟨hp, ?_⟩
    cases hc : c.profile with
    | debug => rfl
    | release =>
      have : c.release = c := by cases c; simp_all [Cfg.release]
      exact absurd hp (this ▸ calculate_np c t)
  · exact .inl hok

example : kind (.hours 2 - .minutes 30 + .days 1) = some .amount ∧
    calculate (std .debug) (.hours 2 - .minutes 30 + .days 1) = .ok (.minutes 1530) := by decide +kernel

/-- **C76 (moments).** An expression with the kind of a moment evaluates to a moment or to an OutOfBounds error, unless
64-bit arithmetic overflows in the checked build. -/
theorem C76_moments (c : Cfg) (t : TT) (h : kind t = some .moment) :
    (∃ m, calculate c t = .ok (.moment m)) ∨ (∃ y mo d hh mi s, calculate c t = .err (.outOfBounds y mo d hh mi s)) ∨
    (calculate c t = .panic ∧ c.profile = .debug) := by
  have hf := fits_all c t
  rw [h] at hf
  rcases hf with hp | hok | herr
  · refine .inr (.inr ⟨hp, ?_⟩)
    cases hc : c.profile with
    | debug => rfl
    | release =>
      have : c.release = c := by cases c; simp_all [Cfg.release]
      exact absurd hp (this ▸ calculate_np c t)
  · exact .inl hok
  · exact .inr (.inl herr)

example := C76_moments (std .debug) (.endOfMonth (.endOfYear (.moment (at_ 2017 6 15 0 0 0) - .days 3))) (by decide)

/-- **C76 (the others).** An expression without a kind never evaluates to a value. -/
theorem C76_no_kind (c : Cfg) (t v : TT) (h : kind t = none) : calculate c t ≠ .ok v := by
  have hf := fits_all c t
  rw [h] at hf
  exact hf v

example (v : TT) : calculate (std .debug) (.moment (at_ 2017 6 15 0 0 0) - .days 3 + .days 1) ≠ .ok v := C76_no_kind _ _ v (by decide)

/-- **C76.** So a value that comes out has the kind that the shape of the expression tells. -/
theorem C76_values (c : Cfg) (t v : TT) (h : calculate c t = .ok v) : kind t = kind v ∧ kind v ≠ none := by
  rcases hk : kind t with _ | (_ | _)
  · exact absurd h (C76_no_kind c t v hk)
  · rcases C76_amounts c t hk with ⟨u, n, h'⟩ | ⟨h', -⟩ <;> rw [h'] at h <;> cases h
    cases u <;> exact ⟨rfl, by simp [amt, kind]⟩
  · rcases C76_moments c t hk with ⟨m, h'⟩ | ⟨y, mo, d, hh, mi, s, h'⟩ | ⟨h', -⟩ <;> rw [h'] at h <;> cases h
    exact ⟨rfl, by simp [kind]⟩

example := C76_values (std .debug) (.days 7 - .hours 2 + .months 1) (.hours 886) (by decide +kernel)

/-- **C76 (errors).** `calculate` returns no other errors than CannotAdd, CannotSub, CannotCalculateEndOfYearOn,
CannotCalculateEndOfMonthOn and OutOfBounds. -/
theorem C76_errors (c : Cfg) (t : TT) (e : ErrorKind) (h : calculate c t = .err e) :
    (∃ a b, e = .cannotAdd a b) ∨ (∃ a b, e = .cannotSub a b) ∨ (∃ a, e = .cannotCalculateEndOfYearOn a) ∨
    (∃ a, e = .cannotCalculateEndOfMonthOn a) ∨ ∃ y mo d hh mi s, e = .outOfBounds y mo d hh mi s := by
  have := calculate_err c t e h
  cases e <;> simp_all [CalcError]

/-- `(2017-06-15 + (1 week - 2 hours) + 1 month) - 3 days`, its end of month, and what C07 and C09 are about. -/
example : kind (.moment (at_ 2017 6 15 0 0 0) + (.days 7 - .hours 2) + .months 1 - .days 3) = some .moment ∧
    kind (.endOfMonth (.endOfYear (.moment (at_ 2017 6 15 0 0 0) - .days 3))) = some .moment ∧
    kind (.days 7 - .hours 2 + .months 1) = some .amount ∧
    kind (.moment (at_ 2017 6 15 0 0 0) - .days 3 + .days 1) = none ∧
    kind (.endOfMonth (.moment (at_ 2017 6 15 0 0 0)) + .days 1) = none ∧
    kind (.days 1 + .moment (at_ 2017 6 15 0 0 0)) = none ∧ kind (.endOfYear (.days 3)) = none := by decide

/-! ## C07, for chains of any length and operands -/

theorem kind_chain (x : TT) (hx : kind x ≠ some .amount) (l : List (Op × TT)) : kind (chain x l) ≠ some .amount := by
  induction l generalizing x with
  | nil => exact hx
  | cons p l ih =>
    obtain ⟨op, e⟩ := p
    refine ih _ ?_
    cases op <;> simp only [Op.app, TT.hadd_def, TT.hsub_def, kind]
    · split
      · simp
      · split <;> simp
    · split
      · simp
      · split
        · simp
        · exact hx

theorem kind_chain_none (x : TT) (hx : kind x = none) (l : List (Op × TT)) : kind (chain x l) = none := by
  induction l generalizing x with
  | nil => exact hx
  | cons p l ih =>
    obtain ⟨op, e⟩ := p
    refine ih _ ?_
    cases op <;> simp [Op.app, kind, hx]

theorem chain_append (x : TT) (l l' : List (Op × TT)) : chain x (l ++ l') = chain (chain x l) l' := by
  induction l generalizing x with
  | nil => rfl
  | cons p l ih => obtain ⟨op, e⟩ := p; exact ih _

/-- **C07 refuted, in full.** Any chain of steps from a moment, of any length, with a `+` directly after a `-` never
succeeds. (All other chains are additions followed by subtractions, `C07_long_chain_partial`.) -/
theorem C07_refuted_chains (c : Cfg) (m : Moment) (l l' : List (Op × TT)) (a b v : TT) :
    calculate c (chain (.moment m) (l ++ (.minus, a) :: (.plus, b) :: l')) ≠ .ok v := by
  refine C76_no_kind c _ v ?_
  rw [chain_append]
  have h := kind_chain (.moment m) (by simp [kind]) l
  generalize chain (.moment m) l = x at h
  refine kind_chain_none _ ?_ l'
  have h1 : kind (x - a) ≠ some .amount := by
    have := kind_chain x h [(.minus, a)]
    exact this
  simp only [Op.app, TT.hadd_def, TT.hsub_def]
  rw [TT.hsub_def] at h1
  unfold kind
  split
  · rfl
  · rw [if_neg (by simp [TT.isSubtraction])]

/-! ## C77 -/

theorem kind_add_operands {a b : TT} (h : kind (a + b) ≠ none) :
    a.isEnd = false ∧ b.isEnd = false ∧ kind b = some .amount ∧ (a.isSubtraction = true → kind a = some .amount) := by
  rw [TT.hadd_def] at h
  unfold kind at h
  split at h
  · exact absurd rfl h
  · rename_i hb
    have hb : kind b = some .amount := by simpa using hb
    have hbe : b.isEnd = false := by
      cases b <;> first | rfl | (simp only [kind] at hb; split at hb <;> cases hb)
    split at h
    · rename_i ha
      refine ⟨?_, hbe, hb, fun _ => ha⟩
      cases a <;> first | rfl | (simp only [kind] at ha; split at ha <;> cases ha)
    · split at h
      · rename_i hm
        exact ⟨endMarked_eq a ▸ hm.2.2, hbe, hb, fun hs => by rw [hm.2.1] at hs; cases hs⟩
      · exact absurd rfl h

theorem kind_sub_operands {a b : TT} (h : kind (a - b) ≠ none) : a.isEnd = false ∧ b.isEnd = false := by
  rw [TT.hsub_def] at h
  unfold kind at h
  split at h
  · exact absurd rfl h
  · rename_i hb
    have hb : kind b = some .amount := by simpa using hb
    split at h
    · exact absurd rfl h
    · rename_i ha
      refine ⟨by simpa [endMarked_eq] using ha, ?_⟩
      cases b <;> first | rfl | (simp only [kind] at hb; split at hb <;> cases hb)

/-- **C77.** The value of a sum or difference is the sum or difference of the values of its operands, for every
expression that has a kind. -/
theorem C77_values_combine (c : Cfg) (a b v w : TT) (hv : calculate c a = .ok v) (hw : calculate c b = .ok w) :
    (kind (a + b) ≠ none → calculate c (a + b) = calculate c (v + w)) ∧
    (kind (a - b) ≠ none → calculate c (a - b) = calculate c (v - w)) := by
  constructor
  · intro h
    obtain ⟨h1, h2, h3, h4⟩ := kind_add_operands h
    rw [calculate_add, calculate_add]
    have hb := fits_all c b
    rw [h3] at hb
    rcases add_sem c h1 h2 hb.amount_value
      (fun hs => by have ha := fits_all c a; rw [h4 hs] at ha; exact ha.amount_value) with e | e <;>
      rw [e, hv, hw] <;> rfl
  · intro h
    obtain ⟨h1, h2⟩ := kind_sub_operands h
    rw [calculate_sub, calculate_sub]
    rcases sub_sem c h1 h2 with e | e <;> rw [e, hv, hw] <;> rfl

example : calculate (std .debug) (.moment (at_ 2017 6 15 0 0 0) + .months 1 + (.days 7 - .hours 2)) =
    calculate (std .debug) (.moment (at_ 2017 7 15 0 0 0) + .hours 166) :=
  (C77_values_combine (std .debug) _ _ _ _ (by decide +kernel) (by decide +kernel)).1 (by decide)

/-- **C77.** A sum or difference one of whose operands has no value has none. -/
theorem C77_failing_operand (c : Cfg) (a b r : TT) (h : (∀ v, calculate c a ≠ .ok v) ∨ ∀ w, calculate c b ≠ .ok w) :
    calculate c (a + b) ≠ .ok r ∧ calculate c (a - b) ≠ .ok r := by
  rw [calculate_add, calculate_sub]
  exact ⟨add_fails c h r, sub_fails c h r⟩

example (r : TT) := C77_failing_operand (std .debug) (.moment (at_ 2017 6 15 0 0 0)) (.endOfYear (.days 3)) r
  (.inr fun w => C76_no_kind _ _ w (by decide))

/-- **C77.** Amounts can be added in either order. -/
theorem C77_commutative (c : Cfg) (u u' : TUnit) (n n' : Int) :
    calculate c (amt u n + amt u' n') = calculate c (amt u' n' + amt u n) := by
  rw [calculate_add, calculate_add, add_amt_comm]

/-- **C77.** Also expressions of amounts. -/
theorem C77_commutative_expressions (c : Cfg) (a b r : TT) (ha : kind a = some .amount) (hb : kind b = some .amount)
    (h : calculate c (a + b) = .ok r) : calculate c (b + a) = .ok r := by
  by_cases hva : ∃ v, calculate c a = .ok v
  · by_cases hwb : ∃ w, calculate c b = .ok w
    · obtain ⟨v, hv⟩ := hva
      obtain ⟨w, hw⟩ := hwb
      have h1 := (C77_values_combine c a b v w hv hw).1 (by simp [kind, ha, hb])
      have h2 := (C77_values_combine c b a w v hw hv).1 (by simp [kind, ha, hb])
      rcases C76_amounts c a ha with ⟨u, n, e⟩ | ⟨e, -⟩ <;> rw [e] at hv <;> cases hv
      rcases C76_amounts c b hb with ⟨u', n', e'⟩ | ⟨e', -⟩ <;> rw [e'] at hw <;> cases hw
      rw [h2, C77_commutative, ← h1, h]
    · exact absurd h (C77_failing_operand c a b r (.inr fun w hw => hwb ⟨w, hw⟩)).1
  · exact absurd h (C77_failing_operand c a b r (.inl fun v hv => hva ⟨v, hv⟩)).1

example := C77_commutative_expressions (std .debug) (.days 2) (.hours 5 - .minutes 7) (.minutes 3173) (by decide) (by decide) (by decide +kernel)

/-- **C77.** Regrouping and reordering the amounts of an expression in any way does not change the value: two
expressions of amounts of the same size in seconds, with the same finest unit, have the same value whenever both have one
(in the checked build). -/
theorem C77_rearranged (c : Cfg) (hc : c.profile = .debug) (s t : AmtTree) (hs : s.secs = t.secs) (hu : s.finest = t.finest)
    (v w : TT) (hv : calculate c s.toTT = .ok v) (hw : calculate c t.toTT = .ok w) : v = w := by
  obtain ⟨⟨k, rfl, hk⟩, -⟩ := C04_amount_arithmetic c hc s v hv
  obtain ⟨⟨k', rfl, hk'⟩, -⟩ := C04_amount_arithmetic c hc t w hw
  have : k = k' := by
    rw [← hu] at hk'
    rw [hs, ← hk'] at hk
    exact Int.eq_of_mul_eq_mul_right (by cases s.finest <;> decide) hk
  rw [this, hu]

example : calculate (std .debug) (.days 2 + (.hours 5 - .minutes 7)) = .ok (.minutes 3173) ∧
    calculate (std .debug) ((.hours 5 - .minutes 7) + .days 2) = .ok (.minutes 3173) := by decide +kernel

/-- The kind is needed: `(m - 3 days) + 1 day` is not the sum of the values. -/
example : ∃ v, calculate (std .debug) (.moment (at_ 2017 6 15 0 0 0) - .days 3) = .ok v ∧
    calculate (std .debug) (.moment (at_ 2017 6 15 0 0 0) - .days 3 + .days 1) ≠ calculate (std .debug) (v + .days 1) := by
  refine ⟨.moment (at_ 2017 6 12 0 0 0), ?_⟩; decide +kernel

end Props
