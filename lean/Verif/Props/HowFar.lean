import Verif.Lemmas.HowFar
import Verif.Props.Filtered

/-!
# C168: how far a filter looks
-/

namespace Props
open Kairos Spec

private theorem day_of_instant {c : Cfg} {r : Moment} (v : r.Valid c) : r.instant / 86400 = Cal.dayNumber r.year r.month r.day := by
  obtain ⟨-, -, -, ⟨h1, h2, h3, h4, h5, h6⟩, -⟩ := v
  unfold Moment.instant Cal.instant
  omega

/-- A filter that keeps the items on the days `R`, if such a day comes within `N` steps. -/
private theorem how_far (c : Cfg) (hc : Sane c) (m : Moment) (hm : m.Valid c) (u : TUnit) (hu : u = .second ∨ u = .minute ∨ u = .hour ∨ u = .day)
    (n : Int) (hn : 1 ≤ n) (hmax : n * u.secs ≤ 28 * 86400) (it : Iter) (hit : Iter.build m (amt u n) = .ok it) (M : TT → Out Bool) (R : Int → Prop) (N : Nat)
    (hR : ∀ T : Int, ∃ k : Nat, k ≤ N ∧ R ((T + k * (n * u.secs)) / 86400))
    (hM : ∀ r : Moment, r.Valid c → ∃ b, M (.moment r) = .ok b ∧ (b = true ↔ R (Cal.dayNumber r.year r.month r.day))) :
    ∃ pos : Nat → Nat, pos 0 ≤ N ∧ (∀ q, pos q < pos (q + 1) ∧ pos (q + 1) ≤ pos q + (N + 1)) ∧
      (∀ (k : Nat) (r : Moment), nth (Iter.next c) k it = some (.ok (.moment r)) → ((∃ q, pos q = k) ↔ M (.moment r) = .ok true)) ∧
      ∀ fuel, N < fuel → ∀ q, nth (filterNext (Iter.next c) M fuel) q it = nth (Iter.next c) (pos q) it := by
  have hs : 1 ≤ n * u.secs := by
    have : 1 * 1 ≤ n * u.secs := Int.mul_le_mul hn (by cases u <;> decide) (by decide) (by omega)
    omega
  have hkth := C34_kth_item c hc m hm u hu n (by omega) (by omega) it hit
  have hb' : it = ⟨.moment m, amt u n, false⟩ := by
    rw [(C33_build m (amt u n)).1 ⟨_, _, rfl⟩] at hit; cases hit; rfl
  let P : Nat → Bool := fun k => @decide (R ((m.instant + k * (n * u.secs)) / 86400)) (Classical.propDecidable _)
  obtain ⟨pos, h0, hinc, hstep, hpos, hgap0, hgap⟩ := positions_exist P (N + 1) (fun a => by
    obtain ⟨k, h1, h2⟩ := hR (m.instant + a * (n * u.secs))
    refine ⟨k, by omega, ?_⟩
    simp only [P, decide_eq_true_iff]
    rw [Int.natCast_add, Int.add_mul, ← Int.add_assoc]
    exact h2)
  have item : ∀ k r, nth (Iter.next c) k it = some (.ok (.moment r)) → M (.moment r) = .ok (P k) := by
    intro k r h
    rcases hkth k with ⟨r', h1, v, i, -⟩ | ⟨-, _, _, _, _, _, _, h1⟩ <;> rw [h] at h1 <;> cases h1
    obtain ⟨b, e, hb⟩ := hM r v
    rw [e]
    congr 1
    rw [Bool.eq_iff_iff, hb]
    simp only [P, decide_eq_true_iff, ← i, day_of_instant v]
  refine ⟨pos, by omega, fun q => ⟨hinc q, hstep q⟩, fun k r h => ?_, fun fuel hf q => ?_⟩
  · rw [item k r h, OutE.ok.injEq]
    exact ⟨fun ⟨q, hq⟩ => hq ▸ hpos q, fun h => positions_all hinc hgap0 hgap k h⟩
  · refine filter_positions (nx := Iter.next c) (M := M) (s := it) (by omega : N + 1 ≤ fuel) h0 hinc hstep hpos hgap0 hgap (fun k => ?_) q
    rcases hkth k with ⟨r, h, -⟩ | ⟨-, Y, M, D, H, MI, S, h⟩
    · exact .inl ⟨_, h, item k r h⟩
    · subst hb'
      exact .inr ⟨_, fun j hj => built_err_forever (amt_isAAmount u n) h j hj⟩

private theorem step_pos {u : TUnit} {n : Int} (hn : 1 ≤ n) : 1 ≤ n * u.secs := by
  have : 1 * 1 ≤ n * u.secs := Int.mul_le_mul hn (by cases u <;> decide) (by decide) (by omega)
  omega

/-- **C168, weekdays.** An iterator with steps of `n` seconds, minutes, hours or days, up to one day. `N` steps are six days or longer. Then `every(day)` gives exactly its items
(at the positions `pos`) with that weekday, one of them is among the first `N + 1`, and none is more than `N + 1` positions after the one before it: no call looks at more than
`N + 1` items. -/
theorem C168_weekday (c : Cfg) (hc : Sane c) (m : Moment) (hm : m.Valid c) (u : TUnit) (hu : u = .second ∨ u = .minute ∨ u = .hour ∨ u = .day)
    (n : Int) (hn : 1 ≤ n) (hmax : n * u.secs ≤ 86400) (it : Iter) (hit : Iter.build m (amt u n) = .ok it) (d : Day)
    (N : Nat) (hN : 6 * 86400 ≤ (N : Int) * (n * u.secs)) :
    ∃ pos : Nat → Nat, pos 0 ≤ N ∧ (∀ q, pos q < pos (q + 1) ∧ pos (q + 1) ≤ pos q + (N + 1)) ∧
      (∀ (k : Nat) (r : Moment), nth (Iter.next c) k it = some (.ok (.moment r)) → ((∃ q, pos q = k) ↔ (TT.moment r).isA d = .ok true)) ∧
      ∀ fuel, N < fuel → ∀ q, nth (filterNext (Iter.next c) d.matches fuel) q it = nth (Iter.next c) (pos q) it := by
  obtain ⟨pos, h1, h2, h3, h4⟩ := how_far c hc m hm u hu n hn (by omega) it hit d.matches (fun x => (x - 1) % 7 = d.into) N
    (fun T => Cal.next_weekday T d.into (n * u.secs) N (by cases d <;> decide) ⟨step_pos hn, hmax⟩ hN)
    (fun r v => ⟨d.into == r.weekday, rfl, by
      rw [beq_iff_eq, eq_comm]
      exact Iff.rfl⟩)
  refine ⟨pos, h1, h2, fun k r h => (h3 k r h).trans ?_, h4⟩
  simp only [Day.matches, TT.isA, TT.getMoment, Option.map_some, OutE.ofOption, OutE.ok.injEq, beq_iff_eq]
  exact eq_comm

/-- **C168, months.** The same for `every(month)`, with steps up to 28 days, if `N` steps are 337 days or longer. -/
theorem C168_month (c : Cfg) (hc : Sane c) (m : Moment) (hm : m.Valid c) (u : TUnit) (hu : u = .second ∨ u = .minute ∨ u = .hour ∨ u = .day)
    (n : Int) (hn : 1 ≤ n) (hmax : n * u.secs ≤ 28 * 86400) (it : Iter) (hit : Iter.build m (amt u n) = .ok it) (mo : Month)
    (N : Nat) (hN : 337 * 86400 ≤ (N : Int) * (n * u.secs)) :
    ∃ pos : Nat → Nat, pos 0 ≤ N ∧ (∀ q, pos q < pos (q + 1) ∧ pos (q + 1) ≤ pos q + (N + 1)) ∧
      (∀ (k : Nat) (r : Moment), nth (Iter.next c) k it = some (.ok (.moment r)) → ((∃ q, pos q = k) ↔ (TT.moment r).isIn mo = .ok true)) ∧
      ∀ fuel, N < fuel → ∀ q, nth (filterNext (Iter.next c) mo.matches fuel) q it = nth (Iter.next c) (pos q) it := by
  obtain ⟨pos, h1, h2, h3, h4⟩ := how_far c hc m hm u hu n hn (by omega) it hit mo.matches (Cal.InMonth mo.into) N
    (fun T => Cal.next_month T mo.into (n * u.secs) N (by cases mo <;> decide) ⟨step_pos hn, hmax⟩ hN)
    (fun r v => ⟨mo.into == r.month, rfl, by
      rw [beq_iff_eq, eq_comm]
      exact (Cal.inMonth_iff v.2.2.1).symm⟩)
  refine ⟨pos, h1, h2, fun k r h => (h3 k r h).trans ?_, h4⟩
  simp only [Month.matches, TT.isIn, TT.getMoment, Option.map_some, OutE.ofOption, OutE.ok.injEq, beq_iff_eq]
  exact eq_comm

/-- **C168, weekdays left out.** The same for `without(day)`, with steps up to six days, if `N` steps are a day or longer: exactly the items with another weekday. -/
theorem C168_without_weekday (c : Cfg) (hc : Sane c) (m : Moment) (hm : m.Valid c) (u : TUnit) (hu : u = .second ∨ u = .minute ∨ u = .hour ∨ u = .day)
    (n : Int) (hn : 1 ≤ n) (hmax : n * u.secs ≤ 6 * 86400) (it : Iter) (hit : Iter.build m (amt u n) = .ok it) (d : Day)
    (N : Nat) (hN : 86400 ≤ (N : Int) * (n * u.secs)) :
    ∃ pos : Nat → Nat, pos 0 ≤ N ∧ (∀ q, pos q < pos (q + 1) ∧ pos (q + 1) ≤ pos q + (N + 1)) ∧
      (∀ (k : Nat) (r : Moment), nth (Iter.next c) k it = some (.ok (.moment r)) → ((∃ q, pos q = k) ↔ (TT.moment r).isA d = .ok false)) ∧
      ∀ fuel, N < fuel → ∀ q, nth (withoutNext (Iter.next c) d.matches fuel) q it = nth (Iter.next c) (pos q) it := by
  have e : withoutNext (Iter.next c) d.matches = filterNext (Iter.next c) (negated d.matches) := by
    funext fuel s
    exact without_eq_filter _ _ _ _
  rw [e]
  obtain ⟨pos, h1, h2, h3, h4⟩ := how_far c hc m hm u hu n hn (by omega) it hit (negated d.matches) (fun x => (x - 1) % 7 ≠ d.into) N
    (fun T => Cal.next_not_weekday T d.into (n * u.secs) N ⟨step_pos hn, hmax⟩ hN)
    (fun r v => ⟨!(d.into == r.weekday), rfl, by
      rw [Bool.not_eq_true', beq_eq_false_iff_ne, ne_comm]
      exact not_congr (Iff.rfl)⟩)
  refine ⟨pos, h1, h2, fun k r h => (h3 k r h).trans ?_, h4⟩
  simp only [negated, Day.matches, TT.isA, TT.getMoment, Option.map_some, OutE.ofOption, OutE.ok.injEq, Bool.not_eq_true', beq_eq_false_iff_ne]
  exact ne_comm

/-- **C168, months left out.** The same for `without(month)`, with steps up to 28 days, if `N` steps are 31 days or longer. -/
theorem C168_without_month (c : Cfg) (hc : Sane c) (m : Moment) (hm : m.Valid c) (u : TUnit) (hu : u = .second ∨ u = .minute ∨ u = .hour ∨ u = .day)
    (n : Int) (hn : 1 ≤ n) (hmax : n * u.secs ≤ 28 * 86400) (it : Iter) (hit : Iter.build m (amt u n) = .ok it) (mo : Month)
    (N : Nat) (hN : 31 * 86400 ≤ (N : Int) * (n * u.secs)) :
    ∃ pos : Nat → Nat, pos 0 ≤ N ∧ (∀ q, pos q < pos (q + 1) ∧ pos (q + 1) ≤ pos q + (N + 1)) ∧
      (∀ (k : Nat) (r : Moment), nth (Iter.next c) k it = some (.ok (.moment r)) → ((∃ q, pos q = k) ↔ (TT.moment r).isIn mo = .ok false)) ∧
      ∀ fuel, N < fuel → ∀ q, nth (withoutNext (Iter.next c) mo.matches fuel) q it = nth (Iter.next c) (pos q) it := by
  have e : withoutNext (Iter.next c) mo.matches = filterNext (Iter.next c) (negated mo.matches) := by
    funext fuel s
    exact without_eq_filter _ _ _ _
  rw [e]
  obtain ⟨pos, h1, h2, h3, h4⟩ := how_far c hc m hm u hu n hn (by omega) it hit (negated mo.matches) (fun x => ¬ Cal.InMonth mo.into x) N
    (fun T => Cal.next_not_month T mo.into (n * u.secs) N ⟨step_pos hn, hmax⟩ hN)
    (fun r v => ⟨!(mo.into == r.month), rfl, by
      rw [Bool.not_eq_true', beq_eq_false_iff_ne, ne_comm]
      exact not_congr ((Cal.inMonth_iff v.2.2.1).symm)⟩)
  refine ⟨pos, h1, h2, fun k r h => (h3 k r h).trans ?_, h4⟩
  simp only [negated, Month.matches, TT.isIn, TT.getMoment, Option.map_some, OutE.ofOption, OutE.ok.injEq, Bool.not_eq_true', beq_eq_false_iff_ne]
  exact ne_comm

/-- Hours of Mondays: after the last hour of a Monday a call looks at 145 items, and 144 are not enough. Days of February: 338. -/
example := C168_weekday (std .debug) (sane_std _) (at_ 2017 6 13 0 0 0) (by decide) .hour (by decide) 1 (by decide) (by decide) _ rfl .monday 144 (by decide)
example : nth (filterNext (Iter.next (std .debug)) (Day.matches .monday) 145) 0 ⟨.moment (at_ 2017 6 13 0 0 0), .hours 1, false⟩ = some (.ok (.moment (at_ 2017 6 19 0 0 0))) ∧
    nth (filterNext (Iter.next (std .debug)) (Day.matches .monday) 144) 0 ⟨.moment (at_ 2017 6 13 0 0 0), .hours 1, false⟩ = some .oof := by decide +kernel
example := C168_month (std .debug) (sane_std _) (at_ 2017 3 1 0 0 0) (by decide) .day (by decide) 1 (by decide) (by decide) _ rfl .february 337 (by decide)
example : nth (filterNext (Iter.next (std .debug)) (Month.matches .february) 338) 0 ⟨.moment (at_ 2017 3 1 0 0 0), .days 1, false⟩ = some (.ok (.moment (at_ 2018 2 1 0 0 0))) ∧
    nth (filterNext (Iter.next (std .debug)) (Month.matches .february) 337) 0 ⟨.moment (at_ 2017 3 1 0 0 0), .days 1, false⟩ = some .oof := by decide +kernel

/-- Hours but not of Mondays: on a Monday a call looks at 25 items, and 24 are not enough. Days but not of July: 32. With steps of a week the weekday never changes: the bound on
the step is needed. -/
example := C168_without_weekday (std .debug) (sane_std _) (at_ 2017 6 19 0 0 0) (by decide) .hour (by decide) 1 (by decide) (by decide) _ rfl .monday 24 (by decide)
example : nth (withoutNext (Iter.next (std .debug)) (Day.matches .monday) 25) 0 ⟨.moment (at_ 2017 6 19 0 0 0), .hours 1, false⟩ = some (.ok (.moment (at_ 2017 6 20 0 0 0))) ∧
    nth (withoutNext (Iter.next (std .debug)) (Day.matches .monday) 24) 0 ⟨.moment (at_ 2017 6 19 0 0 0), .hours 1, false⟩ = some .oof := by decide +kernel
example := C168_without_month (std .debug) (sane_std _) (at_ 2017 7 1 0 0 0) (by decide) .day (by decide) 1 (by decide) (by decide) _ rfl .july 31 (by decide)
example : nth (withoutNext (Iter.next (std .debug)) (Month.matches .july) 32) 0 ⟨.moment (at_ 2017 7 1 0 0 0), .days 1, false⟩ = some (.ok (.moment (at_ 2017 8 1 0 0 0))) ∧
    nth (withoutNext (Iter.next (std .debug)) (Month.matches .july) 31) 0 ⟨.moment (at_ 2017 7 1 0 0 0), .days 1, false⟩ = some .oof := by decide +kernel
example : nth (withoutNext (Iter.next (std .debug)) (Day.matches .monday) 100) 0 ⟨.moment (at_ 2017 6 19 0 0 0), .days 7, false⟩ = some .oof := by decide +kernel

end Props
