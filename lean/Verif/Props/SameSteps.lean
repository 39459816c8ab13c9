import Verif.Props.Equivalent
import Verif.Props.Edge
import Verif.Props.Iterators
import Verif.Props.Kinds
import Verif.Props.Values

/-!
# C109, C110: iterators with steps of the same length; adaptors see nothing but the items
-/

namespace Props
open Kairos Spec

variable {c : Cfg}

/-! ## C110 -/

section Same
variable {σ τ : Type} {nx : σ → σ × Item} {ny : τ → τ × Item}

private theorem same_step {s : σ} {t : τ} (h : ∀ k, nth nx k s = nth ny k t) :
    (nx s).2 = (ny t).2 ∧ ∀ k, nth nx k (nx s).1 = nth ny k (ny t).1 :=
  ⟨h 0, fun k => h (k + 1)⟩

/-- If one step keeps two states the same, all items are. -/
private theorem same_of_step {σ' τ' : Type} {fx : σ' → σ' × Item} {fy : τ' → τ' × Item} (R : σ' → τ' → Prop)
    (step : ∀ s t, R s t → (fx s).2 = (fy t).2 ∧ R (fx s).1 (fy t).1) (k : Nat) :
    ∀ s t, R s t → nth fx k s = nth fy k t := by
  induction k with
  | zero => exact fun s t h => (step s t h).1
  | succ k ih => exact fun s t h => ih _ _ (step s t h).2

private theorem filter_step (M : TT → Out Bool) (fuel : Nat) : ∀ (s : σ) (t : τ), (∀ k, nth nx k s = nth ny k t) →
    (filterNext nx M fuel s).2 = (filterNext ny M fuel t).2 ∧
    ∀ k, nth nx k (filterNext nx M fuel s).1 = nth ny k (filterNext ny M fuel t).1 := by
  induction fuel with
  | zero => exact fun s t h => ⟨rfl, h⟩
  | succ fuel ih =>
    intro s t h
    obtain ⟨h1, h2⟩ := same_step h
    unfold filterNext
    rcases e : nx s with ⟨s', r⟩
    rcases e' : ny t with ⟨t', r'⟩
    rw [e, e'] at h1 h2
    simp only at h1 h2
    subst h1
    rcases r with _ | (tt | e | _ | _)
    · exact ⟨rfl, h2⟩
    · simp only
      cases M tt with
      | ok b => cases b <;> first | exact ih _ _ h2 | exact ⟨rfl, h2⟩
      | err e => exact ⟨rfl, h2⟩
      | panic => exact ⟨rfl, h2⟩
      | oof => exact ⟨rfl, h2⟩
    · exact ⟨rfl, h2⟩
    · exact ⟨rfl, h2⟩
    · exact ⟨rfl, h2⟩

private theorem without_step (M : TT → Out Bool) (fuel : Nat) : ∀ (s : σ) (t : τ), (∀ k, nth nx k s = nth ny k t) →
    (withoutNext nx M fuel s).2 = (withoutNext ny M fuel t).2 ∧
    ∀ k, nth nx k (withoutNext nx M fuel s).1 = nth ny k (withoutNext ny M fuel t).1 := by
  induction fuel with
  | zero => exact fun s t h => ⟨rfl, h⟩
  | succ fuel ih =>
    intro s t h
    obtain ⟨h1, h2⟩ := same_step h
    unfold withoutNext
    rcases e : nx s with ⟨s', r⟩
    rcases e' : ny t with ⟨t', r'⟩
    rw [e, e'] at h1 h2
    simp only at h1 h2
    subst h1
    rcases r with _ | (tt | e | _ | _)
    · exact ⟨rfl, h2⟩
    · simp only
      cases M tt with
      | ok b => cases b <;> first | exact ih _ _ h2 | exact ⟨rfl, h2⟩
      | err e => exact ⟨rfl, h2⟩
      | panic => exact ⟨rfl, h2⟩
      | oof => exact ⟨rfl, h2⟩
    · exact ⟨rfl, h2⟩
    · exact ⟨rfl, h2⟩
    · exact ⟨rfl, h2⟩

private theorem until_step (c : Cfg) (ending : Moment) (s : σ) (t : τ) (h : ∀ k, nth nx k s = nth ny k t) :
    (untilNext c nx ending s).2 = (untilNext c ny ending t).2 ∧
    ∀ k, nth nx k (untilNext c nx ending s).1 = nth ny k (untilNext c ny ending t).1 := by
  obtain ⟨h1, h2⟩ := same_step h
  unfold untilNext
  rcases e : nx s with ⟨s', r⟩
  rcases e' : ny t with ⟨t', r'⟩
  rw [e, e'] at h1 h2
  simp only at h1 h2
  subst h1
  rcases r with _ | (tt | e | _ | _)
  · exact ⟨rfl, h2⟩
  · simp only
    cases calculate c tt with
    | ok v =>
      simp only
      cases v.getMoment with
      | some m => by_cases hl : m.lt ending <;> simp only [hl] <;> exact ⟨rfl, h2⟩
      | none => exact ⟨rfl, h2⟩
    | err e => exact ⟨rfl, h2⟩
    | panic => exact ⟨rfl, h2⟩
    | oof => exact ⟨rfl, h2⟩
  · exact ⟨rfl, h2⟩
  · exact ⟨rfl, h2⟩
  · exact ⟨rfl, h2⟩

/-- **C110.** Adaptors see nothing but the items: if two iterators, of whatever kind, return the same at every call, so
do they with `times`, `until`, `every` and `without`. -/
theorem C110_adaptors_see_items (c : Cfg) (nx : σ → σ × Item) (ny : τ → τ × Item) (s : σ) (t : τ)
    (h : ∀ k, nth nx k s = nth ny k t) (k : Nat) :
    (∀ n, nth (timesNext c nx) k (timesNew s n) = nth (timesNext c ny) k (timesNew t n)) ∧
    (∀ ending, nth (untilNext c nx ending) k s = nth (untilNext c ny ending) k t) ∧
    (∀ matcher fuel, nth (filterNext nx matcher fuel) k s = nth (filterNext ny matcher fuel) k t) ∧
    (∀ matcher fuel, nth (withoutNext nx matcher fuel) k s = nth (withoutNext ny matcher fuel) k t) := by
  refine ⟨fun n => ?_, fun ending => ?_, fun M fuel => ?_, fun M fuel => ?_⟩
  · refine same_of_step (fun (a : TimesState σ) (b : TimesState τ) => a.times = b.times ∧ a.count = b.count ∧
      ∀ k, nth nx k a.inner = nth ny k b.inner) ?_ k _ _ ⟨rfl, rfl, h⟩
    rintro ⟨a1, a2, a3⟩ ⟨b1, b2, b3⟩ ⟨h1, h2, h3⟩
    simp only at h1 h2 h3
    subst h1 h2
    unfold timesNext
    simp only
    by_cases he : a2 = a3
    · rw [if_pos he, if_pos he]; exact ⟨rfl, rfl, rfl, h3⟩
    · rw [if_neg he, if_neg he]
      cases (c.add a3 1 : Out Int) with
      | ok n => exact ⟨h3 0, rfl, rfl, fun k => h3 (k + 1)⟩
      | err e => exact ⟨rfl, rfl, rfl, h3⟩
      | panic => exact ⟨rfl, rfl, rfl, h3⟩
      | oof => exact ⟨rfl, rfl, rfl, h3⟩
  · exact same_of_step (fun a b => ∀ k, nth nx k a = nth ny k b) (until_step c ending) k _ _ h
  · exact same_of_step (fun a b => ∀ k, nth nx k a = nth ny k b) (filter_step M fuel) k _ _ h
  · exact same_of_step (fun a b => ∀ k, nth nx k a = nth ny k b) (without_step M fuel) k _ _ h

example := C110_adaptors_see_items (std .debug) (Iter.next (std .debug)) (untilNext (std .debug) (Iter.next (std .debug)) (at_ 2018 1 1 0 0 0))
  ⟨.moment (at_ 2017 1 1 0 0 0), .days 0, true⟩ ⟨.moment (at_ 2017 1 1 0 0 0), .days 0, true⟩

end Same

/-! ## C109 -/

private theorem same_live {inc inc' : TT} (hi : inc.isAAmount = true) (hi' : inc'.isAAmount = true) (P : Moment → Prop)
    (step : ∀ m, P m → (∃ r, calculate c (.moment m + inc) = .ok (.moment r) ∧ calculate c (.moment m + inc') = .ok (.moment r) ∧ P r) ∨
      ∃ e, calculate c (.moment m + inc) = .err e ∧ calculate c (.moment m + inc') = .err e) (k : Nat) :
    ∀ m, P m → nth (Iter.next c) k (live m inc) = nth (Iter.next c) k (live m inc') := by
  induction k with
  | zero =>
    intro m hm
    rcases step m hm with ⟨r, h1, h2, -⟩ | ⟨e, h1, h2⟩
    · simp only [nth, next_live_ok h1, next_live_ok h2]
    · simp only [nth, next_live_err h1, next_live_err h2]
  | succ k ih =>
    intro m hm
    rcases step m hm with ⟨r, h1, h2, hr⟩ | ⟨e, h1, h2⟩
    · simp only [nth, next_live_ok h1, next_live_ok h2]; exact ih r hr
    · rw [nth, nth, (latched_of_err hi h1).nth, (latched_of_err hi' h2).nth]

private theorem same_items {inc inc' : TT} (hi : inc.isAAmount = true) (hi' : inc'.isAAmount = true) (P : Moment → Prop)
    (step : ∀ m, P m → (∃ r, calculate c (.moment m + inc) = .ok (.moment r) ∧ calculate c (.moment m + inc') = .ok (.moment r) ∧ P r) ∨
      ∃ e, calculate c (.moment m + inc) = .err e ∧ calculate c (.moment m + inc') = .err e) (m : Moment) (hm : P m)
    (it it' : Iter) (h : Iter.build m inc = .ok it) (h' : Iter.build m inc' = .ok it') (k : Nat) :
    nth (Iter.next c) k it = nth (Iter.next c) k it' := by
  obtain ⟨u, n, rfl⟩ := amount_cases hi
  obtain ⟨u', n', rfl⟩ := amount_cases hi'
  rw [(C33_build m (amt u n)).1 ⟨u, n, rfl⟩] at h
  rw [(C33_build m (amt u' n')).1 ⟨u', n', rfl⟩] at h'
  cases h; cases h'
  cases k with
  | zero => rfl
  | succ k => exact same_live hi hi' P step k m hm

/-- The outcome of an addition that does not overflow is a proper moment or an error. -/
private theorem add_outcome (c : Cfg) (hc : Sane c) (m : Moment) (hm : m.Valid c) (u : TUnit) (hu : u ≠ .month) (n : Int)
    (hn : InI64 (part m u + n)) :
    (∃ r, calculate c (.moment m + amt u n) = .ok (.moment r) ∧ r.Valid c) ∨ ∃ e, calculate c (.moment m + amt u n) = .err e := by
  rcases C76_moments c (.moment m + amt u n) (by cases u <;> rfl) with ⟨r, h⟩ | ⟨_, _, _, _, _, _, h⟩ | ⟨h, -⟩
  · exact .inl ⟨r, h, (C15_computed c _ r (fun p hp => by cases hp) h).1⟩
  · exact .inr ⟨_, h⟩
  · exact absurd hn ((C92_adding c hc m hm u hu n).1 h).2

/-- **C109, seconds to days.** Two iterators from the same base with increments of the same length, say 48 hours and 2
days, return the same at every call, errors included. The lengths may be anything from zero to the end of the integer type
(up to 100 below it). -/
theorem C109_same_length_partial (c : Cfg) (hc : Sane c) (m : Moment) (hm : m.Valid c) (u v : TUnit)
    (hu : u.secs ≤ 86400) (hv : v.secs ≤ 86400) (n k : Int) (hn : 0 ≤ n) (hn' : n ≤ 9223372036854775700)
    (hk' : k ≤ 9223372036854775700) (h : n * u.secs = k * v.secs) (it it' : Iter)
    (hit : Iter.build m (amt u n) = .ok it) (hit' : Iter.build m (amt v k) = .ok it') (j : Nat) :
    nth (Iter.next c) j it = nth (Iter.next c) j it' := by
  refine same_items (amt_isAAmount u n) (amt_isAAmount v k) (Moment.Valid c) ?_ m hm it it' hit hit' j
  intro m hm
  have e := C83_adding_same_length_partial c hc m hm u v hu hv n k hn hn' hk' h
  have hfit : InI64 (part m u + n) := by
    obtain ⟨a1, a2, ⟨a3, a4, a5, a6⟩, ⟨t1, t2, t3, t4, t5, t6⟩, -⟩ := hm
    have ml := Cal.monthLen_bounds (y := m.year) a3 a4
    unfold InI64
    cases u <;> simp [TUnit.secs] at hu <;> simp only [part] <;> omega
  rcases add_outcome c hc m hm u (by rintro rfl; simp [TUnit.secs] at hu) n hfit with ⟨r, h1, hr⟩ | ⟨e', h1⟩
  · exact .inl ⟨r, h1, by rw [← e]; exact h1, hr⟩
  · exact .inr ⟨e', h1, by rw [← e]; exact h1⟩

example (j : Nat) := C109_same_length_partial (std .debug) (sane_std _) (at_ 2017 1 31 0 0 0) (by decide) .day .hour (by decide) (by decide) 1 24
  (by decide) (by decide) (by decide) (by decide) _ _ rfl rfl j

/-- **C109, months and years (partial).** `monthly(12 k)` and `yearly(k)` return the same at every call, from bases up to
the 30th but 29 February. Missing: the other bases, see `C109_refuted`. -/
theorem C109_months_partial (c : Cfg) (hc : Sane c) (m : Moment) (hm : m.Valid c) (k : Int) (hk : 0 ≤ k)
    (hk' : k ≤ 2000000000) (hd : m.day ≤ 30) (hf : ¬ (m.month = 2 ∧ m.day = 29)) (it it' : Iter)
    (hit : Ext.monthly (.moment m) (12 * k) = .ok it) (hit' : Ext.yearly (.moment m) k = .ok it') (j : Nat) :
    nth (Iter.next c) j it = nth (Iter.next c) j it' := by
  have hc' := hc
  unfold Sane at hc'
  refine same_items (inc := .months (12 * k)) (inc' := .years k) rfl rfl
    (fun m => m.Valid c ∧ m.day ≤ 30 ∧ ¬ (m.month = 2 ∧ m.day = 29)) ?_ m ⟨hm, hd, hf⟩ it it' hit hit' j
  rintro m ⟨hm, hd, hf⟩
  have e := C83_adding_months_partial c hc m hm k hk hk' hd hf
  have y1 := hm.1
  have y2 := hm.2.1
  rcases add_outcome c hc m hm .year (by simp) k (by unfold InI64; simp only [part]; omega) with ⟨r, h1, hr⟩ | ⟨e', h1⟩
  · refine .inl ⟨r, by rw [e]; exact h1, h1, hr, ?_⟩
    simp only [amt] at h1
    rw [C18_adding_years_partial c m hm k (by omega) (by omega)] at h1
    split at h1
    · cases h1
    · rw [if_neg (fun h => hf ⟨h.1, h.2.1⟩)] at h1
      cases h1
      exact ⟨hd, hf⟩
  · exact .inr ⟨e', by rw [e]; exact h1, h1⟩

example (j : Nat) := C109_months_partial (std .debug) (sane_std _) (at_ 2017 1 30 0 0 0) (by decide) 1 (by decide) (by decide) (by decide) (by decide) _ _ rfl rfl j

/-- **C109 is false of the code** for months and years from a 31st and from 29 February. -/
theorem C109_refuted (p : Profile) :
    items (Iter.next (std p)) 2 ⟨.moment (at_ 2017 1 31 0 0 0), .months 12, false⟩ =
      [some (.ok (.moment (at_ 2017 1 31 0 0 0))), some (.ok (.moment (at_ 2018 2 1 0 0 0)))] ∧
    items (Iter.next (std p)) 2 ⟨.moment (at_ 2017 1 31 0 0 0), .years 1, false⟩ =
      [some (.ok (.moment (at_ 2017 1 31 0 0 0))), some (.ok (.moment (at_ 2018 1 31 0 0 0)))] ∧
    items (Iter.next (std p)) 2 ⟨.moment (at_ 2016 2 29 0 0 0), .months 12, false⟩ =
      [some (.ok (.moment (at_ 2016 2 29 0 0 0))), some (.err (.outOfBounds 2017 2 0 0 0 0))] ∧
    items (Iter.next (std p)) 2 ⟨.moment (at_ 2016 2 29 0 0 0), .years 1, false⟩ =
      [some (.ok (.moment (at_ 2016 2 29 0 0 0))), some (.ok (.moment (at_ 2017 3 1 0 0 0)))] := by cases p <;> decide +kernel

/-- Every 36 hours and every 2160 minutes are the same: the hypotheses, and items across a New Year. -/
example : (36 : Int) * TUnit.secs .hour = 2160 * TUnit.secs .minute ∧
    Iter.build (at_ 2017 12 30 6 0 0) (amt .hour 36) = .ok ⟨.moment (at_ 2017 12 30 6 0 0), .hours 36, false⟩ ∧
    items (Iter.next (std .debug)) 3 ⟨.moment (at_ 2017 12 30 6 0 0), .hours 36, false⟩ =
      [some (.ok (.moment (at_ 2017 12 30 6 0 0))), some (.ok (.moment (at_ 2017 12 31 18 0 0))),
        some (.ok (.moment (at_ 2018 1 2 6 0 0)))] ∧
    items (Iter.next (std .debug)) 3 ⟨.moment (at_ 2017 12 30 6 0 0), .minutes 2160, false⟩ =
      items (Iter.next (std .debug)) 3 ⟨.moment (at_ 2017 12 30 6 0 0), .hours 36, false⟩ := by decide +kernel

/-- `monthly(24)` and `yearly(2)` from the 30th. -/
example : Ext.monthly (.moment (at_ 2017 11 30 0 0 0)) (12 * 2) = .ok ⟨.moment (at_ 2017 11 30 0 0 0), .months 24, false⟩ ∧
    Ext.yearly (.moment (at_ 2017 11 30 0 0 0)) 2 = .ok ⟨.moment (at_ 2017 11 30 0 0 0), .years 2, false⟩ := ⟨rfl, rfl⟩

/-- The hypothesis of C110: two iterators of different kinds with the same items, by C109. -/
example (c : Cfg) (hc : Sane c) (m : Moment) (hm : m.Valid c) (e : Moment) (k : Nat) :
    nth (untilNext c (Iter.next c) e) k ⟨.moment m, .hours 24, false⟩ =
      nth (untilNext c (Iter.next c) e) k ⟨.moment m, .days 1, false⟩ :=
  (C110_adaptors_see_items c _ _ _ _ (fun j => C109_same_length_partial c hc m hm .hour .day (by decide) (by decide) 24 1
    (by decide) (by decide) (by decide) (by decide) _ _ rfl rfl j) k).2.1 e

end Props
