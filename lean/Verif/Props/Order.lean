import Verif.Props.Reference

/-!
# C136: what is calculated first, and how a whole expression ends
-/

namespace Props
open Kairos Spec

private theorem amount_ends {c : Cfg} {t : TT} (h : kind t = some .amount) :
    (∃ v, calculate c t = .ok v ∧ v.isAAmount = true) ∨ calculate c t = .panic := by
  rcases C76_amounts c t h with ⟨u, n, e⟩ | ⟨e, -⟩
  · exact .inl ⟨_, e, by cases u <;> rfl⟩
  · exact .inr e

/-- **C136 (sums).** A sum of a kind that can be calculated ends exactly as calculating its left operand, then its right operand,
then the sum of the two values: what fails first decides whether the whole ends with that error or that overflow. -/
theorem C136_sum (c : Cfg) (a b : TT) (h : kind (a + b) ≠ none) :
    calculate c (a + b) = (do let v ← calculate c a; let w ← calculate c b; calculate c (v + w)) := by
  obtain ⟨h1, h2, h3, h4⟩ := kind_add_operands h
  have hb := fits_all c b
  rw [h3] at hb
  simp only [calculate_add]
  by_cases hs : a.isSubtraction = true
  · have hka := h4 hs
    have ha := fits_all c a
    rw [hka] at ha
    rcases add_sem c h1 h2 hb.amount_value (fun _ => ha.amount_value) with e | e
    · exact e
    · rw [e]
      rcases amount_ends (c := c) hka with ⟨v, hv, -⟩ | hv <;> rcases amount_ends (c := c) h3 with ⟨w, hw, -⟩ | hw <;>
        rw [hv, hw] <;> rfl
  · have hs : a.isSubtraction = false := by simpa using hs
    have hbm : b.isMoment = false := by
      cases b <;> first | rfl | (simp [kind] at h3; done)
    rcases shape a with hl | he | ⟨x, y, rfl⟩ | ⟨x, y, rfl⟩
    · rw [calculate_leaf c hl, OutE.ok_bind]
      exact exec_add_leaf c hl b h2
    · rw [h1] at he; cases he
    · rw [exec_add_addition c x y b hbm]
      exact bind_congr_ok fun v hv => exec_add_leaf c (calculate_isLeaf hv) b h2
    · cases hs

/-- An error on the left, an overflow on the right: the error. -/
example : calculate (std .debug) (.moment (at_ 2017 6 15 0 0 0) + .years 300000 + (.days 9223372036854775807 + .days 1)) =
    calculate (std .debug) (.moment (at_ 2017 6 15 0 0 0) + .years 300000) := by
  rw [C136_sum _ _ _ (by decide)]
  decide +kernel

/-- **C136 (differences).** The same for differences, with one exception: of a sum minus a difference, `(x + y) - (z - w)`, the right
operand is calculated first. -/
theorem C136_difference (c : Cfg) (a b : TT) (h : kind (a - b) ≠ none) :
    calculate c (a - b) = if a.isAddition ∧ b.isSubtraction then
        (do let w ← calculate c b; let v ← calculate c a; calculate c (v - w))
      else (do let v ← calculate c a; let w ← calculate c b; calculate c (v - w)) := by
  obtain ⟨h1, h2⟩ := kind_sub_operands h
  simp only [calculate_sub]
  rcases shape a with hl | he | ⟨x, y, rfl⟩ | ⟨x, y, rfl⟩
  · rw [calculate_leaf c hl, OutE.ok_bind, exec_sub_leaf c hl b h2, if_neg (fun h => by have := (leaf_not hl).2.1; simp_all)]
  · rw [h1] at he; cases he
  · by_cases hbs : b.isSubtraction = true
    · rw [if_pos ⟨rfl, hbs⟩]
      obtain ⟨p, q, rfl⟩ : ∃ p q, b = .subtraction p q := by
        cases b <;> first | exact ⟨_, _, rfl⟩ | (simp [TT.isSubtraction] at hbs; done)
      rw [exec_sub_add_sub]
      refine bind_congr_ok fun w hw => ?_
      exact exec_sub_add_other c x y w (leaf_not (calculate_isLeaf hw)).2.2
    · rw [if_neg (fun h => hbs h.2), exec_sub_add_other c x y b (by simpa using hbs)]
      exact bind_congr_ok fun v hv => exec_sub_leaf c (calculate_isLeaf hv) b h2
  · rw [if_neg (fun h => by cases h.1), exec_sub_subtraction]
    exact bind_congr_ok fun v hv => exec_sub_leaf c (calculate_isLeaf hv) b h2

/-- The exception: the left operand has an error, but the overflow of the right one is what happens. -/
example : (∃ e, calculate (std .debug) (.moment (at_ 2017 6 15 0 0 0) + .years 300000) = .err e) ∧
    calculate (std .debug) (.moment (at_ 2017 6 15 0 0 0) + .years 300000 - (.days (-9223372036854775807) - .days 2)) = .panic ∧
    calculate (std .debug) (.moment (at_ 2017 6 15 0 0 0) + .years 300000 - (.days 9223372036854775807 + .days 2)) =
      calculate (std .debug) (.moment (at_ 2017 6 15 0 0 0) + .years 300000) := by
  refine ⟨⟨.outOfBounds 302017 6 0 0 0 0, ?_⟩, ?_, ?_⟩
  · decide +kernel
  · rw [C136_difference _ _ _ (by decide)]; decide +kernel
  · rw [C136_difference _ _ _ (by decide)]; decide +kernel

/-- **C136 (end-of markers).** An end-of marker ends as calculating what it is applied to and then the end of that value. -/
theorem C136_end_of (c : Cfg) (k : EndKind) (t : TT) :
    calculate c (k.app t) = (do let v ← calculate c t; calculate c (k.app v)) := by
  rw [calculate_endOf]
  refine bind_congr_ok fun v hv => ?_
  rw [calculate_endOf, calculate_leaf c (calculate_isLeaf hv), OutE.ok_bind]

example : calculate (std .debug) (.endOfMonth (.moment (at_ 2017 6 15 0 0 0) + .years 300000)) =
    calculate (std .debug) (.moment (at_ 2017 6 15 0 0 0) + .years 300000) := by
  rw [show TT.endOfMonth _ = EndKind.month.app _ from rfl, C136_end_of]
  decide +kernel

/-- **C136 (without overflow checks).** Where arithmetic wraps around, operands are always calculated from left to right, as far as can
be observed. -/
theorem C136_without_checks (c : Cfg) (hp : c.profile = .release) (a b : TT) (h : kind (a - b) ≠ none) :
    calculate c (a - b) = (do let v ← calculate c a; let w ← calculate c b; calculate c (v - w)) := by
  rw [C136_difference c a b h]
  split
  · have hkb : kind b = some .amount := by
      rw [TT.hsub_def] at h
      unfold kind at h
      split at h
      · exact absurd rfl h
      · rename_i hb; simpa using hb
    rcases C76_amounts c b hkb with ⟨u, n, e⟩ | ⟨-, e⟩
    · rw [e]; simp only [OutE.ok_bind]
    · rw [hp] at e; cases e
  · rfl

example : calculate (std .release) (.moment (at_ 2017 6 15 0 0 0) + .years 300000 - (.days (-9223372036854775807) - .days 2)) =
    calculate (std .release) (.moment (at_ 2017 6 15 0 0 0) + .years 300000) := by
  rw [C136_without_checks _ rfl _ _ (by decide)]; decide +kernel

theorem says_bind {a : Answer} {o : Out TT} {f : TT → Answer} {g : TT → Out TT} (h : Says a o)
    (hf : ∀ v, a = .value v → o = .ok v → Says (f v) (g v)) : Says (a.andThen f) (o >>= g) := by
  cases a with
  | value v => rw [show o = .ok v from h]; exact hf v rfl h
  | refused e => rw [show o = .err e from h]; rfl
  | overflow => rw [show o = .panic from h]; rfl

theorem values_valid {c : Cfg} {t v : TT} (hm : AllMoments (Moment.Valid c) t) (h : calculate c t = .ok v) :
    AllMoments (Moment.Valid c) v := by
  rcases value_cases (calculate_isLeaf h) with ⟨u, n, rfl⟩ | ⟨m, rfl⟩
  · cases u <;> trivial
  · exact C15_results_are_dates c t m hm h

theorem then_fit {a : Answer} {f : TT → Answer} {v : TT} (hf : ∀ x v, f x = .value v → AmountsFit v)
    (h : a.andThen f = .value v) : AmountsFit v := by
  cases a with
  | value x => exact hf x v h
  | refused e => cases h
  | overflow => cases h

private theorem outcome_fit {c : Cfg} {t v : TT} (hn : AmountsFit t) (h : outcome c t = .value v) : AmountsFit v := by
  unfold outcome at h
  split at h
  · exact then_fit (fun x v h => then_fit (fun y v h => step_fit h rfl) h) h
  · split at h
    · exact then_fit (fun x v h => then_fit (fun y v h => step_fit h rfl) h) h
    · exact then_fit (fun x v h => then_fit (fun y v h => step_fit h rfl) h) h
  · exact then_fit (fun x v h => step_fit h rfl) h
  · exact then_fit (fun x v h => step_fit h rfl) h
  · exact then_fit (fun x v h => step_fit h rfl) h
  · exact then_fit (fun x v h => step_fit h rfl) h
  · exact then_fit (fun x v h => step_fit h rfl) h
  · cases h; exact hn

private theorem kind_parts {a b : TT} (h : kind (a + b) ≠ none ∨ kind (a - b) ≠ none) : kind a ≠ none ∧ kind b ≠ none := by
  rw [TT.hadd_def, TT.hsub_def] at h
  unfold kind at h
  rcases h with h | h
  · split at h
    · exact absurd rfl h
    · rename_i hb
      refine ⟨fun ha => ?_, by simp_all⟩
      simp [ha] at h
  · split at h
    · exact absurd rfl h
    · rename_i hb
      split at h
      · exact absurd rfl h
      · exact ⟨h, by simp_all⟩

/-- **C136 (whole expressions).** Every expression of a kind that can be calculated ends exactly as the reference says: with that value,
with that error, or, with overflow checks, with an overflow. -/
theorem C136_whole (c : Cfg) (hc : Sane c) (t : TT) (hk : kind t ≠ none) (hm : AllMoments (Moment.Valid c) t)
    (hn : AmountsFit t) : Says (outcome c t) (calculate c t) := by
  have hend : ∀ (k : EndKind) (x : TT), AllMoments (Moment.Valid c) x → Says (outcome c x) (calculate c x) →
      Says ((outcome c x).andThen fun v => oneStep c (k.app v)) (calculate c (k.app x)) := by
    intro k x hx h
    rw [C136_end_of]
    exact says_bind h fun v _ hv => C135_end_of c hc v (calculate_isLeaf hv) (values_valid hx hv) k
  have kend : ∀ {e : TT} {o : Option Kind}, (if kind e = some .moment then o else none) ≠ none → kind e ≠ none := by
    intro e o h h'
    rw [h'] at h
    exact h rfl
  induction t with
  | addition a b iha ihb =>
    obtain ⟨ka, kb⟩ := kind_parts (.inl hk)
    rw [← TT.hadd_def, C136_sum c a b hk]
    refine says_bind (iha ka hm.1 hn.1) fun v ev hv => says_bind (ihb kb hm.2 hn.2) fun w ew hw => ?_
    exact (C135_sum_and_difference c hc v w (calculate_isLeaf hv) (calculate_isLeaf hw)
      ⟨values_valid hm.1 hv, values_valid hm.2 hw⟩ ⟨outcome_fit hn.1 ev, outcome_fit hn.2 ew⟩).1
  | subtraction a b iha ihb =>
    obtain ⟨ka, kb⟩ := kind_parts (.inr hk)
    rw [← TT.hsub_def, C136_difference c a b hk]
    show Says (if a.isAddition ∧ b.isSubtraction then _ else _) _
    have step : ∀ {v w : TT}, outcome c a = .value v → calculate c a = .ok v → outcome c b = .value w → calculate c b = .ok w →
        Says (oneStep c (.subtraction v w)) (calculate c (v - w)) := fun ev hv ew hw =>
      (C135_sum_and_difference c hc _ _ (calculate_isLeaf hv) (calculate_isLeaf hw)
        ⟨values_valid hm.1 hv, values_valid hm.2 hw⟩ ⟨outcome_fit hn.1 ev, outcome_fit hn.2 ew⟩).2
    by_cases hs : a.isAddition ∧ b.isSubtraction
    · rw [if_pos hs, if_pos hs]
      exact says_bind (ihb kb hm.2 hn.2) fun w ew hw => says_bind (iha ka hm.1 hn.1) fun v ev hv => step ev hv ew hw
    · rw [if_neg hs, if_neg hs]
      exact says_bind (iha ka hm.1 hn.1) fun v ev hv => says_bind (ihb kb hm.2 hn.2) fun w ew hw => step ev hv ew hw
  | endOfYear x ih => exact hend .year x hm (ih (kend hk) hm hn)
  | endOfMonth x ih => exact hend .month x hm (ih (kend hk) hm hn)
  | endOfDay x ih => exact hend .day x hm (ih (kend hk) hm hn)
  | endOfHour x ih => exact hend .hour x hm (ih (kend hk) hm hn)
  | endOfMinute x ih => exact hend .minute x hm (ih (kend hk) hm hn)
  | _ => exact calculate_leaf c rfl

/-- Refused on the left before the overflow on the right is reached; and the other way round. -/
example : (outcome (std .debug) (.moment (at_ 2017 6 15 0 0 0) + .years 300000 - (.days 9223372036854775807 + .days 2)) =
        .refused (.outOfBounds 302017 6 0 0 0 0) ∧
      calculate (std .debug) (.moment (at_ 2017 6 15 0 0 0) + .years 300000 - (.days 9223372036854775807 + .days 2)) =
        .err (.outOfBounds 302017 6 0 0 0 0)) ∧
    outcome (std .debug) (.moment (at_ 2017 6 15 0 0 0) + .years 300000 - (.days (-9223372036854775807) - .days 2)) = .overflow ∧
      calculate (std .debug) (.moment (at_ 2017 6 15 0 0 0) + .years 300000 - (.days (-9223372036854775807) - .days 2)) = .panic := by
  have h1 := C136_whole (std .debug) (by decide)
    (.moment (at_ 2017 6 15 0 0 0) + .years 300000 - (.days 9223372036854775807 + .days 2)) (by decide)
    (by simp [AllMoments, TT.hadd_def, TT.hsub_def]; decide) (by simp [AmountsFit, TT.hadd_def, TT.hsub_def]; decide)
  have h2 := C136_whole (std .debug) (by decide)
    (.moment (at_ 2017 6 15 0 0 0) + .years 300000 - (.days (-9223372036854775807) - .days 2)) (by decide)
    (by simp [AllMoments, TT.hadd_def, TT.hsub_def]; decide) (by simp [AmountsFit, TT.hadd_def, TT.hsub_def]; decide)
  have e1 : outcome (std .debug) (.moment (at_ 2017 6 15 0 0 0) + .years 300000 - (.days 9223372036854775807 + .days 2)) =
      .refused (.outOfBounds 302017 6 0 0 0 0) := by decide +kernel
  have e2 : outcome (std .debug) (.moment (at_ 2017 6 15 0 0 0) + .years 300000 - (.days (-9223372036854775807) - .days 2)) =
      .overflow := by decide +kernel
  rw [e1] at h1
  rw [e2] at h2
  exact ⟨⟨e1, h1⟩, e2, h2⟩

end Props
