import Verif.Lemmas.Reference

/-!
# C135: a complete reference
-/

namespace Props
open Kairos Spec

/-- **C135.** One operation on two values ends exactly as the reference says: the same value, the same error, or
a panic where it says "overflow". -/
theorem C135_sum_and_difference (c : Cfg) (hc : Sane c) (a b : TT) (ha : a.isLeaf) (hb : b.isLeaf)
    (hm : AllMoments (Moment.Valid c) a ∧ AllMoments (Moment.Valid c) b) (hn : AmountsFit a ∧ AmountsFit b) :
    Says (oneStep c (a + b)) (calculate c (a + b)) ∧ Says (oneStep c (a - b)) (calculate c (a - b)) := by
  rw [TT.hadd_def, TT.hsub_def]
  rcases value_cases ha with ⟨u, n, rfl⟩ | ⟨m, rfl⟩
  · rcases value_cases hb with ⟨v, k, rfl⟩ | ⟨m', rfl⟩
    · have h := combine_says c u v n k (fit_amt hn.1) (fit_amt hn.2)
      have g : oneStep c ((amt u n).addition (amt v k)) = combine c 1 u n v k ∧
          oneStep c ((amt u n).subtraction (amt v k)) = combine c (-1) u n v k := by
        cases u <;> cases v <;> exact ⟨rfl, rfl⟩
      rw [g.1, g.2]
      exact h
    · have g : oneStep c ((amt u n).addition (.moment m')) = .refused (.cannotAdd (amt u n) (.moment m')) ∧
          oneStep c ((amt u n).subtraction (.moment m')) = .refused (.cannotSub (amt u n) (.moment m')) := by
        cases u <;> exact ⟨rfl, rfl⟩
      rw [g.1, g.2]
      constructor <;> cases u <;> rfl
  · rcases value_cases hb with ⟨v, k, rfl⟩ | ⟨m', rfl⟩
    · have g : oneStep c (TT.addition (.moment m) (amt v k)) = plusAmount c m v k ∧
          oneStep c (TT.subtraction (.moment m) (amt v k)) = minusAmount c m v k := by
        cases v <;> exact ⟨rfl, rfl⟩
      rw [g.1, g.2]
      exact ⟨plus_says c hc m hm.1 v k (fit_amt hn.2), minus_says c hc m hm.1 v k (fit_amt hn.2)⟩
    · exact ⟨rfl, rfl⟩

/-- 29 February 2016, 23:59:59, minus 60 days is refused; plus 40 days it is 9 April; five hours and three days are 77 hours. -/
example : Says (.refused (.outOfBounds 2016 1 23 23 59 59)) (calculate (std .debug) (.moment (at_ 2016 2 29 23 59 59) - .days 60)) ∧
    Says (.value (.moment (at_ 2016 4 9 23 59 59))) (calculate (std .debug) (.moment (at_ 2016 2 29 23 59 59) + .days 40)) ∧
    Says (.value (.hours 77)) (calculate (std .debug) (.hours 5 + .days 3)) ∧
    Says .overflow (calculate (std .debug) (.moment (at_ 2016 2 29 23 59 59) + .seconds 9223372036854775800)) :=
  ⟨(C135_sum_and_difference (std .debug) (by decide) (.moment (at_ 2016 2 29 23 59 59)) (.days 60) rfl rfl
      ⟨by show Moment.Valid _ _; decide, trivial⟩ ⟨trivial, by show InI64 _; decide⟩).2,
    (C135_sum_and_difference (std .debug) (by decide) (.moment (at_ 2016 2 29 23 59 59)) (.days 40) rfl rfl
      ⟨by show Moment.Valid _ _; decide, trivial⟩ ⟨trivial, by show InI64 _; decide⟩).1,
    (C135_sum_and_difference (std .debug) (by decide) (.hours 5) (.days 3) rfl rfl ⟨trivial, trivial⟩
      ⟨by show InI64 _; decide, by show InI64 _; decide⟩).1,
    (C135_sum_and_difference (std .debug) (by decide) (.moment (at_ 2016 2 29 23 59 59)) (.seconds 9223372036854775800) rfl rfl
      ⟨by show Moment.Valid _ _; decide, trivial⟩ ⟨trivial, by show InI64 _; decide⟩).1⟩

/-- **C135.** The same for the end of a year, month, day, hour or minute. -/
theorem C135_end_of (c : Cfg) (hc : Sane c) (a : TT) (ha : a.isLeaf) (hm : AllMoments (Moment.Valid c) a) (k : EndKind) :
    Says (oneStep c (k.app a)) (calculate c (k.app a)) := by
  rcases value_cases ha with ⟨u, n, rfl⟩ | ⟨m, rfl⟩
  · cases k <;> cases u <;> rfl
  · have he : EvalsTo c (.moment m) m := ⟨hc, calculate_leaf c rfl, hm⟩
    cases k with
    | year => exact C10_end_of_year c _ m he
    | month =>
      obtain ⟨l, h1, ⟨-, -, h2, h3⟩, h4⟩ := C11_end_of_month c _ m he
      have ml := Cal.monthLen_bounds (y := m.year) hm.2.2.1.1 hm.2.2.1.2.1
      have : l = Cal.monthLen m.year m.month :=
        Int.le_antisymm h3 (h4 _ ⟨hm.2.2.1.1, hm.2.2.1.2.1, by omega, by omega⟩)
      rw [this] at h1
      exact h1
    | day => exact (C12_end_of_day_hour_minute c _ m he).1
    | hour => exact (C12_end_of_day_hour_minute c _ m he).2.1
    | minute => exact (C12_end_of_day_hour_minute c _ m he).2.2

example : Says (.value (.moment (at_ 2016 2 29 0 0 0))) (calculate (std .debug) (.endOfMonth (.moment (at_ 2016 2 3 4 5 6)))) :=
  C135_end_of (std .debug) (by decide) (.moment (at_ 2016 2 3 4 5 6)) rfl (by show Moment.Valid _ _; decide) .month

private theorem momentAt_fit {c : Cfg} {y mo d h mi s : Int} {v : TT} (e : momentAt c y mo d h mi s = .value v) : AmountsFit v := by
  unfold momentAt at e
  split at e <;> cases e
  trivial

private theorem combine_fit {c : Cfg} {g : Int} {u v : TUnit} {n k : Int} {r : TT} (e : combine c g u n v k = .value r) :
    AmountsFit r := by
  unfold combine at e
  generalize (if u.secs ≤ v.secs then u else v) = w at e
  simp only at e
  have fit : ∀ x, InI64 x → AmountsFit (amt w x) := fun x h => by cases w <;> exact h
  split at e
  · rename_i h; cases e; exact fit _ h.2.2
  · split at e <;> cases e
    exact fit _ (by unfold signed64 InI64; omega)

/-- The amounts that come out are 64-bit numbers. -/
theorem step_fit {c : Cfg} {x v : TT} (e : oneStep c x = .value v) (hx : x.isLeaf = false) : AmountsFit v := by
  have hp : ∀ m u n, plusAmount c m u n = .value v → AmountsFit v := by
    intro m u n h
    unfold plusAmount plusYears plusMonths plusSeconds plusNegative at h
    simp only at h
    repeat' split at h
    all_goals first | exact momentAt_fit h | cases h
  have hm : ∀ m u n, minusAmount c m u n = .value v → AmountsFit v := by
    intro m u n h
    unfold minusAmount at h
    simp only at h
    split at h
    · cases h
    · exact momentAt_fit h
  unfold oneStep at e
  split at e
  · split at e
    · exact hp _ _ _ e
    · cases e
  · split at e
    · exact combine_fit e
    · cases e
  · split at e
    · exact hm _ _ _ e
    · cases e
  · split at e
    · exact combine_fit e
    · cases e
  all_goals first
    | (cases e; trivial)
    | (cases e; done)
    | (exfalso; cases x <;> first | (cases hx; done) | simp_all)

private theorem says_option {a : Answer} {c : Cfg} {t : TT} (h : Says a (calculate c t)) : valueOf c t = a.toOption := by
  unfold valueOf
  cases a with
  | value v => rw [show calculate c t = .ok v from h]; rfl
  | refused e => rw [show calculate c t = .err e from h]; rfl
  | overflow => rw [show calculate c t = .panic from h]; rfl

private theorem option_value {a : Answer} {v : TT} (h : a.toOption = some v) : a = .value v := by
  cases a <;> cases h; rfl

/-- Calculating step by step with the library and with the reference are the same. -/
private theorem same_inside (c : Cfg) (hc : Sane c) (t : TT) (hm : AllMoments (Moment.Valid c) t)
    (hn : AmountsFit t) : inside (valueOf c) t = reference c t ∧ ∀ v, reference c t = some v → AmountsFit v := by
  have good : ∀ {x v : TT}, AllMoments (Moment.Valid c) x → inside (valueOf c) x = some v →
      v.isLeaf ∧ AllMoments (Moment.Valid c) v := by
    intro x v hx h
    have h := (C125_inside_out c x v).2 h
    refine ⟨calculate_isLeaf h, ?_⟩
    rcases value_cases (calculate_isLeaf h) with ⟨u, n, rfl⟩ | ⟨m, rfl⟩
    · cases u <;> trivial
    · exact C15_results_are_dates c x m hx h
  have hend : ∀ (k : EndKind) (x : TT), AllMoments (Moment.Valid c) x →
      (inside (valueOf c) x = reference c x ∧ ∀ v, reference c x = some v → AmountsFit v) →
      ((inside (valueOf c) x).bind fun v => valueOf c (k.app v)) =
        ((reference c x).bind fun v => (oneStep c (k.app v)).toOption) ∧
      ∀ v, ((reference c x).bind fun v => (oneStep c (k.app v)).toOption) = some v → AmountsFit v := by
    intro k x hx ⟨h1, h2⟩
    constructor
    · rw [← h1]
      cases hv : inside (valueOf c) x with
      | none => rfl
      | some v =>
        obtain ⟨g1, g2⟩ := good hx hv
        exact says_option (C135_end_of c hc v g1 g2 k)
    · intro v hv
      obtain ⟨w, -, hw⟩ := Option.bind_eq_some_iff.1 hv
      exact step_fit (option_value hw) (by cases k <;> rfl)
  induction t with
  | addition a b iha ihb =>
    obtain ⟨ia, fa⟩ := iha hm.1 hn.1
    obtain ⟨ib, fb⟩ := ihb hm.2 hn.2
    unfold reference at ia ib fa fb ⊢
    unfold inside
    rw [ia, ib]
    split
    · exact ⟨rfl, fun v h => by cases h⟩
    · cases ea : inside (fun x => (oneStep c x).toOption) a with
      | none => exact ⟨rfl, fun v h => by cases h⟩
      | some x =>
        cases eb : inside (fun x => (oneStep c x).toOption) b with
        | none => exact ⟨rfl, fun v h => by cases h⟩
        | some y =>
          obtain ⟨g1, g2⟩ := good hm.1 (ia.trans ea)
          obtain ⟨g3, g4⟩ := good hm.2 (ib.trans eb)
          exact ⟨says_option (C135_sum_and_difference c hc x y g1 g3 ⟨g2, g4⟩ ⟨fa x ea, fb y eb⟩).1,
            fun v h => step_fit (option_value h) rfl⟩
  | subtraction a b iha ihb =>
    obtain ⟨ia, fa⟩ := iha hm.1 hn.1
    obtain ⟨ib, fb⟩ := ihb hm.2 hn.2
    unfold reference at ia ib fa fb ⊢
    unfold inside
    rw [ia, ib]
    split
    · exact ⟨rfl, fun v h => by cases h⟩
    · cases ea : inside (fun x => (oneStep c x).toOption) a with
      | none => exact ⟨rfl, fun v h => by cases h⟩
      | some x =>
        cases eb : inside (fun x => (oneStep c x).toOption) b with
        | none => exact ⟨rfl, fun v h => by cases h⟩
        | some y =>
          obtain ⟨g1, g2⟩ := good hm.1 (ia.trans ea)
          obtain ⟨g3, g4⟩ := good hm.2 (ib.trans eb)
          exact ⟨says_option (C135_sum_and_difference c hc x y g1 g3 ⟨g2, g4⟩ ⟨fa x ea, fb y eb⟩).2,
            fun v h => step_fit (option_value h) rfl⟩
  | endOfYear x ih => exact hend .year x hm (ih hm hn)
  | endOfMonth x ih => exact hend .month x hm (ih hm hn)
  | endOfDay x ih => exact hend .day x hm (ih hm hn)
  | endOfHour x ih => exact hend .hour x hm (ih hm hn)
  | endOfMinute x ih => exact hend .minute x hm (ih hm hn)
  | _ => exact ⟨rfl, fun v h => by cases h; exact hn⟩

/-- **C135.** The value of every expression is the one the reference gives; where the reference gives none, neither does the
library. -/
theorem C135_every_expression (c : Cfg) (hc : Sane c) (t : TT) (hm : AllMoments (Moment.Valid c) t)
    (hn : AmountsFit t) (v : TT) : calculate c t = .ok v ↔ reference c t = some v := by
  rw [C125_inside_out, (same_inside c hc t hm hn).1]

/-- `(2016-02-29 + (1 month - 2 days)) end of month`, and a step 6 million days long, calculated with the reference. -/
example : calculate (std .debug) (.endOfMonth (.moment (at_ 2016 2 29 5 6 7) + (.months 1 - .days 2))) = .ok (.moment (at_ 2016 3 31 0 0 0)) ∧
    calculate (std .debug) (.moment (at_ 2016 2 29 5 6 7) + .days 6000000) = .ok (.moment (at_ 18682 10 24 5 6 7)) :=
  ⟨(C135_every_expression (std .debug) (by decide) _ (by simp [AllMoments, TT.hadd_def, TT.hsub_def]; decide)
      (by simp [AmountsFit, TT.hadd_def, TT.hsub_def]; decide) _).2 (by decide +kernel),
    (C135_every_expression (std .debug) (by decide) _ (by simp [AllMoments, TT.hadd_def]; decide)
      (by simp [AmountsFit, TT.hadd_def]; decide) _).2 (by decide +kernel)⟩

/-- Without overflow checks: `(9223372036854775807 days + 3 days)` is a negative number of days, and 2^63 - 5 days after the 29th is
the 24th. -/
example : calculate (std .release) (.moment (at_ 2016 2 29 5 6 7) + .days 9223372036854775803) = .ok (.moment (at_ 2016 2 24 5 6 7)) ∧
    calculate (std .release) (.days 9223372036854775807 + .days 3 - .days 4) = .ok (.days 9223372036854775806) :=
  ⟨(C135_every_expression (std .release) (by decide) _ (by simp [AllMoments, TT.hadd_def]; decide)
      (by simp [AmountsFit, TT.hadd_def]; decide) _).2 (by decide +kernel),
    (C135_every_expression (std .release) (by decide) _ (by simp [AllMoments, TT.hadd_def, TT.hsub_def])
      (by simp [AmountsFit, TT.hadd_def, TT.hsub_def]; decide) _).2 (by decide +kernel)⟩

end Props
