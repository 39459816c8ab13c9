import Verif.Props.Kinds
import Verif.Props.EndOf
import Verif.Spec.Context

/-!
# C125: an expression can be calculated part by part
-/

namespace Props
open Kairos Spec

/-- Two expressions have the same value or both have none. -/
def SameValue (c : Cfg) (a b : TT) : Prop := ∀ v, calculate c a = .ok v ↔ calculate c b = .ok v

theorem same_add (c : Cfg) {a b a' b' : TT} (ha : SameValue c a a') (hb : SameValue c b b')
    (h : kind (a + b) ≠ none) (h' : kind (a' + b') ≠ none) : SameValue c (a + b) (a' + b') := by
  have one : ∀ {a b a' b' : TT}, SameValue c a a' → SameValue c b b' → kind (a + b) ≠ none → kind (a' + b') ≠ none →
      ∀ v, calculate c (a + b) = .ok v → calculate c (a' + b') = .ok v := by
    intro a b a' b' ha hb h h' v e
    by_cases hva : ∃ x, calculate c a = .ok x
    · by_cases hwb : ∃ y, calculate c b = .ok y
      · obtain ⟨x, hx⟩ := hva
        obtain ⟨y, hy⟩ := hwb
        rw [(C77_values_combine c a' b' x y ((ha x).1 hx) ((hb y).1 hy)).1 h',
          ← (C77_values_combine c a b x y hx hy).1 h, e]
      · exact absurd e (C77_failing_operand c a b v (.inr fun w hw => hwb ⟨w, hw⟩)).1
    · exact absurd e (C77_failing_operand c a b v (.inl fun w hw => hva ⟨w, hw⟩)).1
  exact fun v => ⟨one ha hb h h' v, one (fun v => (ha v).symm) (fun v => (hb v).symm) h' h v⟩

theorem same_sub (c : Cfg) {a b a' b' : TT} (ha : SameValue c a a') (hb : SameValue c b b')
    (h : kind (a - b) ≠ none) (h' : kind (a' - b') ≠ none) : SameValue c (a - b) (a' - b') := by
  have one : ∀ {a b a' b' : TT}, SameValue c a a' → SameValue c b b' → kind (a - b) ≠ none → kind (a' - b') ≠ none →
      ∀ v, calculate c (a - b) = .ok v → calculate c (a' - b') = .ok v := by
    intro a b a' b' ha hb h h' v e
    by_cases hva : ∃ x, calculate c a = .ok x
    · by_cases hwb : ∃ y, calculate c b = .ok y
      · obtain ⟨x, hx⟩ := hva
        obtain ⟨y, hy⟩ := hwb
        rw [(C77_values_combine c a' b' x y ((ha x).1 hx) ((hb y).1 hy)).2 h',
          ← (C77_values_combine c a b x y hx hy).2 h, e]
      · exact absurd e (C77_failing_operand c a b v (.inr fun w hw => hwb ⟨w, hw⟩)).2
    · exact absurd e (C77_failing_operand c a b v (.inl fun w hw => hva ⟨w, hw⟩)).2
  exact fun v => ⟨one ha hb h h' v, one (fun v => (ha v).symm) (fun v => (hb v).symm) h' h v⟩

theorem same_end (c : Cfg) (k : EndKind) {a a' : TT} (ha : SameValue c a a') : SameValue c (k.app a) (k.app a') := by
  have one : ∀ {a a' : TT}, SameValue c a a' → ∀ v, calculate c (k.app a) = .ok v → calculate c (k.app a') = .ok v := by
    intro a a' ha v e
    rw [calculate_endOf] at e ⊢
    obtain ⟨x, hx, e⟩ := OutE.bind_eq_ok.1 e
    rw [(ha x).1 hx]
    exact e
  exact fun v => ⟨one ha v, one (fun v => (ha v).symm) v⟩

theorem kind_leaf_shape {w : TT} (h : w.isLeaf) : w.isSubtraction = false ∧ endMarked w = false := by
  cases w <;> simp_all [TT.isLeaf, TT.isAAmount, TT.isMoment, TT.isSubtraction, endMarked]

/-- Filling in the value keeps the kind, and the shape that the rules about kinds look at. -/
theorem kind_fill {a w : TT} (hk : kind a = kind w) (hw : w.isLeaf) (k : Context) (h : kind (k.fill a) ≠ none) :
    kind (k.fill w) = kind (k.fill a) ∧ ((k.fill a).isSubtraction = false → (k.fill w).isSubtraction = false) ∧
    (endMarked (k.fill a) = false → endMarked (k.fill w) = false) := by
  obtain ⟨s1, s2⟩ := kind_leaf_shape hw
  induction k with
  | hole => exact ⟨hk.symm, fun _ => s1, fun _ => s2⟩
  | addLeft k b ih =>
    simp only [Context.fill, TT.hadd_def, kind] at h ⊢
    refine ⟨?_, fun _ => rfl, fun _ => rfl⟩
    by_cases hb : kind b = some .amount
    · have h0 : kind (k.fill a) ≠ none := by intro e; simp [hb, e] at h
      obtain ⟨i1, i2, i3⟩ := ih h0
      rw [i1]
      by_cases ha : kind (k.fill a) = some .amount
      · simp [ha]
      · by_cases hm : kind (k.fill a) = some .moment ∧ (k.fill a).isSubtraction = false ∧ endMarked (k.fill a) = false
        · rw [if_neg (by simp [hb]), if_neg ha, if_pos ⟨hm.1, i2 hm.2.1, i3 hm.2.2⟩,
            if_neg (by simp [hb]), if_neg ha, if_pos hm]
        · rw [if_neg (by simp [hb]), if_neg ha, if_neg hm] at h
          exact absurd rfl h
    · simp [hb] at h
  | addRight b k ih =>
    simp only [Context.fill, TT.hadd_def, kind] at h ⊢
    refine ⟨?_, fun _ => rfl, fun _ => rfl⟩
    by_cases hb : kind (k.fill a) = some .amount
    · rw [(ih (by rw [hb]; simp)).1]
    · simp [hb] at h
  | subLeft k b ih =>
    simp only [Context.fill, TT.hsub_def, kind] at h ⊢
    refine ⟨?_, fun h => by simp [TT.isSubtraction] at h, fun _ => rfl⟩
    by_cases hb : kind b = some .amount
    · by_cases he : endMarked (k.fill a) = true
      · simp [he] at h
      · rw [if_neg (by simp [hb]), if_neg he] at h
        obtain ⟨i1, i2, i3⟩ := ih h
        rw [if_neg (by simp [hb]), if_neg (by rw [i3 (by simpa using he)]; simp), if_neg (by simp [hb]), if_neg he, i1]
    · simp [hb] at h
  | subRight b k ih =>
    simp only [Context.fill, TT.hsub_def, kind] at h ⊢
    refine ⟨?_, fun h => by simp [TT.isSubtraction] at h, fun _ => rfl⟩
    by_cases hb : kind (k.fill a) = some .amount
    · rw [(ih (by rw [hb]; simp)).1]
    · simp [hb] at h
  | endOf e k ih =>
    have hm : kind (k.fill a) = some .moment := by
      cases e <;> simp only [Context.fill, EndKind.app, kind] at h <;>
        (by_cases hm : kind (k.fill a) = some .moment) <;> first | exact hm | simp [hm] at h
    have := (ih (by rw [hm]; simp)).1
    cases e <;> simp only [Context.fill, EndKind.app, kind, this, endMarked, TT.isSubtraction] <;> simp

theorem kind_part {a : TT} (k : Context) (h : kind (k.fill a) ≠ none) : kind a ≠ none := by
  induction k with
  | hole => exact h
  | addLeft k b ih =>
    refine ih fun e => h ?_
    simp [Context.fill, TT.hadd_def, kind, e]
  | addRight b k ih =>
    refine ih fun e => h ?_
    simp [Context.fill, TT.hadd_def, kind, e]
  | subLeft k b ih =>
    refine ih fun e => h ?_
    simp [Context.fill, TT.hsub_def, kind, e]
  | subRight b k ih =>
    refine ih fun e => h ?_
    simp [Context.fill, TT.hsub_def, kind, e]
  | endOf e k ih =>
    refine ih fun e' => h ?_
    cases e <;> simp [Context.fill, EndKind.app, kind, e']

/-- **C125 (both ways).** In an expression that has a kind (that is not one of those that never have a value, C76), replacing
a part by its value changes nothing: the whole then has the same value, or still none. -/
theorem C125_same_value (c : Cfg) (k : Context) (a w : TT) (ha : calculate c a = .ok w)
    (h : kind (k.fill a) ≠ none) (v : TT) : calculate c (k.fill a) = .ok v ↔ calculate c (k.fill w) = .ok v := by
  have hl := calculate_isLeaf ha
  have hk := (C76_values c a w ha).1
  have hw : SameValue c a w := fun v => by rw [ha, calculate_leaf c hl]
  revert v
  show SameValue c _ _
  induction k with
  | hole => exact hw
  | addLeft k b ih =>
    have h' := (kind_fill hk hl (.addLeft k b) h).1
    exact same_add c (ih (kind_part (.addLeft .hole b) h)) (fun _ => Iff.rfl) h (h' ▸ h)
  | addRight b k ih =>
    have h' := (kind_fill hk hl (.addRight b k) h).1
    exact same_add c (fun _ => Iff.rfl) (ih (kind_part (.addRight b .hole) h)) h (h' ▸ h)
  | subLeft k b ih =>
    have h' := (kind_fill hk hl (.subLeft k b) h).1
    exact same_sub c (ih (kind_part (.subLeft .hole b) h)) (fun _ => Iff.rfl) h (h' ▸ h)
  | subRight b k ih =>
    have h' := (kind_fill hk hl (.subRight b k) h).1
    exact same_sub c (fun _ => Iff.rfl) (ih (kind_part (.subRight b .hole) h)) h (h' ▸ h)
  | endOf e k ih => exact same_end c e (ih (kind_part (.endOf e .hole) h))

/-- `2017-06-15 + (1 week - 2 hours) - 3 days`, with the hole for `1 week - 2 hours`. -/
example : let k : Context := .subLeft (.addRight (.moment (at_ 2017 6 15 0 0 0)) .hole) (.days 3)
    kind (k.fill (.days 7 - .hours 2)) ≠ none ∧
    calculate (std .debug) (.days 7 - .hours 2) = .ok (.hours 166) ∧
    calculate (std .debug) (k.fill (.days 7 - .hours 2)) = .ok (.moment (at_ 2017 6 18 22 0 0)) ∧
    calculate (std .debug) (k.fill (.hours 166)) = .ok (.moment (at_ 2017 6 18 22 0 0)) := by decide +kernel

/-- **C125.** Two parts with the same value can be exchanged for each other. -/
theorem C125_equal_parts (c : Cfg) (k : Context) (a b w : TT) (ha : calculate c a = .ok w) (hb : calculate c b = .ok w)
    (hka : kind (k.fill a) ≠ none) (hkb : kind (k.fill b) ≠ none) (v : TT) :
    calculate c (k.fill a) = .ok v ↔ calculate c (k.fill b) = .ok v :=
  (C125_same_value c k a w ha hka v).trans (C125_same_value c k b w hb hkb v).symm

example (v : TT) := C125_equal_parts (std .debug) (.addRight (.moment (at_ 2017 6 15 0 0 0)) .hole) (.days 7 - .hours 2) (.hours 100 + .hours 66) (.hours 166)
  (by decide +kernel) (by decide +kernel) (by decide) (by decide) v

/-- **C125.** A part without a value leaves the whole without one. -/
theorem C125_part_without_value (c : Cfg) (k : Context) (a : TT) (ha : ∀ w, calculate c a ≠ .ok w) (v : TT) :
    calculate c (k.fill a) ≠ .ok v := by
  induction k generalizing v with
  | hole => exact ha v
  | addLeft k b ih => exact (C77_failing_operand c _ b v (.inl ih)).1
  | addRight b k ih => exact (C77_failing_operand c b _ v (.inr ih)).1
  | subLeft k b ih => exact (C77_failing_operand c _ b v (.inl ih)).2
  | subRight b k ih => exact (C77_failing_operand c b _ v (.inr ih)).2
  | endOf e k ih =>
    intro e'
    rw [Context.fill, calculate_endOf] at e'
    obtain ⟨x, hx, -⟩ := OutE.bind_eq_ok.1 e'
    exact ih x hx

example : (∀ w, calculate (std .debug) (.endOfYear (.days 3)) ≠ .ok w) := by
  intro w h
  have : calculate (std .debug) (.endOfYear (.days 3)) = .err (.cannotCalculateEndOfYearOn (.days 3)) := by decide +kernel
  rw [this] at h
  cases h

/-- **C125.** If an expression has a value, then every part of it, however deep inside, has a value, and can be replaced by
its value: the whole keeps its value. -/
theorem C125_part_by_value (c : Cfg) (k : Context) (a v : TT) (h : calculate c (k.fill a) = .ok v) :
    ∃ w, calculate c a = .ok w ∧ calculate c (k.fill w) = .ok v := by
  by_cases ha : ∃ w, calculate c a = .ok w
  · obtain ⟨w, hw⟩ := ha
    exact ⟨w, hw, (C125_same_value c k a w hw (fun e => C76_no_kind c _ v e h) v).1 h⟩
  · exact absurd h (C125_part_without_value c k a (fun w hw => ha ⟨w, hw⟩) v)

example := C125_part_by_value (std .debug) (.endOf .month (.addRight (.moment (at_ 2017 6 15 0 0 0)) .hole)) (.days 7 + .months 2) (.moment (at_ 2017 8 31 0 0 0))
  (by decide +kernel)

/-- Without a kind the other way fails: `(m - 3 days) + 1 day` has no value (C07), with the value of `m - 3 days` in its
place it has one; likewise `end_of_month(m) + 1 day` (C09). -/
theorem C125_kind_needed (p : Profile) :
    (∃ w v, calculate (std p) (.moment (at_ 2017 6 15 0 0 0) - .days 3) = .ok w ∧ calculate (std p) (w + .days 1) = .ok v ∧
      ∀ v', calculate (std p) ((.moment (at_ 2017 6 15 0 0 0) - .days 3) + .days 1) ≠ .ok v') ∧
    (∃ w v, calculate (std p) (.endOfMonth (.moment (at_ 2017 6 15 0 0 0))) = .ok w ∧ calculate (std p) (w + .days 1) = .ok v ∧
      ∀ v', calculate (std p) (.endOfMonth (.moment (at_ 2017 6 15 0 0 0)) + .days 1) ≠ .ok v') :=
  ⟨⟨.moment (at_ 2017 6 12 0 0 0), .moment (at_ 2017 6 13 0 0 0), by cases p <;> decide +kernel,
      by cases p <;> decide +kernel, fun v' => C76_no_kind _ _ v' (by decide)⟩,
    ⟨.moment (at_ 2017 6 30 0 0 0), .moment (at_ 2017 7 1 0 0 0), by cases p <;> decide +kernel,
      by cases p <;> decide +kernel, fun v' => C76_no_kind _ _ v' (by decide)⟩⟩

/-- What `calculate` gives, if it gives a value. -/
def valueOf (c : Cfg) (t : TT) : Option TT :=
  match calculate c t with
  | .ok v => some v
  | _ => none

theorem valueOf_eq {c : Cfg} {t v : TT} : valueOf c t = some v ↔ calculate c t = .ok v := by
  unfold valueOf
  split <;> simp_all

/-- **C125.** `calculate` gives the value that calculating from the inside out gives, one operation on values at a time. -/
theorem C125_inside_out (c : Cfg) (t v : TT) : calculate c t = .ok v ↔ inside (valueOf c) t = some v := by
  have hend : ∀ (k : EndKind) (x : TT), (∀ v, calculate c x = .ok v ↔ inside (valueOf c) x = some v) →
      ∀ v, calculate c (k.app x) = .ok v ↔ ((inside (valueOf c) x).bind fun v => valueOf c (k.app v)) = some v := by
    intro k x ih v
    rw [Option.bind_eq_some_iff]
    constructor
    · intro h
      have h' := h
      rw [calculate_endOf] at h'
      obtain ⟨w, hw, -⟩ := OutE.bind_eq_ok.1 h'
      refine ⟨w, (ih w).1 hw, valueOf_eq.2 ?_⟩
      exact (same_end c k (a := x) (a' := w)
        (fun v => by rw [hw, calculate_leaf c (calculate_isLeaf hw)]) v).1 h
    · rintro ⟨w, hw, h⟩
      have hw := (ih w).2 hw
      exact (same_end c k (a := x) (a' := w)
        (fun v => by rw [hw, calculate_leaf c (calculate_isLeaf hw)]) v).2 (valueOf_eq.1 h)
  induction t generalizing v with
  | addition a b iha ihb =>
    rw [← TT.hadd_def]
    show _ ↔ (if kind (a + b) = none then none else
      match inside (valueOf c) a, inside (valueOf c) b with
      | some v, some w => valueOf c (v + w)
      | _, _ => none) = some v
    split
    · rename_i hk
      exact ⟨fun h => absurd h (C76_no_kind c _ v hk), fun h => by cases h⟩
    · rename_i hk
      constructor
      · intro h
        by_cases hva : ∃ x, calculate c a = .ok x
        · by_cases hwb : ∃ y, calculate c b = .ok y
          · obtain ⟨x, hx⟩ := hva
            obtain ⟨y, hy⟩ := hwb
            rw [(iha x).1 hx, (ihb y).1 hy]
            exact valueOf_eq.2 (by rw [← (C77_values_combine c a b x y hx hy).1 hk, h])
          · exact absurd h (C77_failing_operand c a b v (.inr fun w hw => hwb ⟨w, hw⟩)).1
        · exact absurd h (C77_failing_operand c a b v (.inl fun w hw => hva ⟨w, hw⟩)).1
      · intro h
        split at h
        · rename_i x y hx hy
          rw [(C77_values_combine c a b x y ((iha x).2 hx) ((ihb y).2 hy)).1 hk]
          exact valueOf_eq.1 h
        · cases h
  | subtraction a b iha ihb =>
    rw [← TT.hsub_def]
    show _ ↔ (if kind (a - b) = none then none else
      match inside (valueOf c) a, inside (valueOf c) b with
      | some v, some w => valueOf c (v - w)
      | _, _ => none) = some v
    split
    · rename_i hk
      exact ⟨fun h => absurd h (C76_no_kind c _ v hk), fun h => by cases h⟩
    · rename_i hk
      constructor
      · intro h
        by_cases hva : ∃ x, calculate c a = .ok x
        · by_cases hwb : ∃ y, calculate c b = .ok y
          · obtain ⟨x, hx⟩ := hva
            obtain ⟨y, hy⟩ := hwb
            rw [(iha x).1 hx, (ihb y).1 hy]
            exact valueOf_eq.2 (by rw [← (C77_values_combine c a b x y hx hy).2 hk, h])
          · exact absurd h (C77_failing_operand c a b v (.inr fun w hw => hwb ⟨w, hw⟩)).2
        · exact absurd h (C77_failing_operand c a b v (.inl fun w hw => hva ⟨w, hw⟩)).2
      · intro h
        split at h
        · rename_i x y hx hy
          rw [(C77_values_combine c a b x y ((iha x).2 hx) ((ihb y).2 hy)).2 hk]
          exact valueOf_eq.1 h
        · cases h
  | endOfYear x ih => exact hend .year x ih v
  | endOfMonth x ih => exact hend .month x ih v
  | endOfDay x ih => exact hend .day x ih v
  | endOfHour x ih => exact hend .hour x ih v
  | endOfMinute x ih => exact hend .minute x ih v
  | _ => rw [calculate_leaf c (by simp [TT.isLeaf, TT.isAAmount, TT.isMoment])]; simp [inside]

example : inside (valueOf (std .debug)) (.endOfMonth (.moment (at_ 2017 6 15 0 0 0) + (.days 7 - .hours 2) - .days 3)) =
    some (.moment (at_ 2017 6 30 0 0 0)) := by decide +kernel

end Props
