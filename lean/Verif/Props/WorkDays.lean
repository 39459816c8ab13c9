import Verif.Props.Filtered
import Verif.Lemmas.WorkDays

/-!
# C118: working days
-/

namespace Props
open Kairos Spec

private theorem without_filter {σ : Type} (nx : σ → σ × Item) (M : TT → Out Bool) (fuel : Nat) :
    withoutNext nx M fuel = filterNext nx (negated M) fuel := by
  funext s; exact without_eq_filter _ _ _ _

/-- Two weekdays left out of `daily(1)`, by the positions `k1` of the first among the days and `k2` of the second among those that are left. -/
private theorem two_left_out (c : Cfg) (hc : Sane c) (m : Moment) (hm : m.Valid c) (it : Iter) (hit : Ext.daily (.moment m) 1 = .ok it)
    (d1 d2 : Day) (k1 k2 : Nat) (hk1 : k1 < 7) (hk2 : k2 < 6) (h1 : ∀ k : Nat, (m.weekday + k) % 7 = d1.into ↔ k % 7 = k1)
    (h2 : ∀ i : Nat, (m.weekday + ((i + (i + 6 - k1) / 6 : Nat) : Int)) % 7 = d2.into ↔ i % 6 = k2)
    (fuel1 fuel2 : Nat) (hf1 : 2 ≤ fuel1) (hf2 : 2 ≤ fuel2) (q : Nat) :
    DailyItem c m 1 ((q + (q + 5 - k2) / 5) + ((q + (q + 5 - k2) / 5) + 6 - k1) / 6)
      (nth (withoutNext (withoutNext (Iter.next c) d1.matches fuel1) d2.matches fuel2) q it) := by
  have first : ∀ q, nth (withoutNext (Iter.next c) d1.matches fuel1) q it = nth (Iter.next c) (q + (q + 6 - k1) / 6) it := by
    intro q
    rw [without_filter]
    exact filter_but_periodic (nx := Iter.next c) (M := negated d1.matches) (s := it) (p := 7) (by decide) hk1 hf1
      (fun k => by
        rcases daily_items c hc m hm 1 (by decide) d1 it hit k with ⟨r, e1, -, -, e2⟩ | ⟨-, Y, M, D, H, MI, S, e⟩
        · refine .inl ⟨_, e1, ?_⟩
          unfold negated
          rw [e2]
          simp only [Int.mul_one]
          congr 2
          rw [Bool.eq_iff_iff, beq_iff_eq, beq_iff_eq]
          exact h1 k
        · exact .inr ⟨_, e⟩) q
  rw [without_filter (withoutNext (Iter.next c) d1.matches fuel1)]
  rw [filter_but_periodic (nx := withoutNext (Iter.next c) d1.matches fuel1) (M := negated d2.matches) (s := it) (p := 6) (by decide) hk2 hf2
    (fun i => by
      rcases daily_items c hc m hm 1 (by decide) d2 it hit (i + (i + 6 - k1) / 6) with ⟨r, e1, -, -, e2⟩ | ⟨-, Y, M, D, H, MI, S, e⟩
      · refine .inl ⟨_, (first i).trans e1, ?_⟩
        unfold negated
        rw [e2]
        simp only [Int.mul_one]
        congr 2
        rw [Bool.eq_iff_iff, beq_iff_eq, beq_iff_eq]
        exact h2 i
      · exact .inr ⟨_, fun j hj => (first j).trans (e _ (by omega))⟩) q]
  rw [first]
  rcases daily_items c hc m hm 1 (by decide) d2 it hit ((q + (q + (6 - 1) - k2) / (6 - 1)) + ((q + (q + (6 - 1) - k2) / (6 - 1)) + 6 - k1) / 6)
    with ⟨r, e1, e2, e3, -⟩ | ⟨h0, Y, M, D, H, MI, S, e⟩
  · exact .inl ⟨r, e1, e2, e3⟩
  · exact .inr ⟨h0, Y, M, D, H, MI, S, e _ (Nat.le_refl _)⟩

/-- **C118.** `daily(1).without(Saturday).without(Sunday)`, and likewise with the two in the other order: the item at position `q` is the working day
number `q` from the base on (the base included), at the time of day of the base, and it is neither a Saturday nor a Sunday; or it is an
OutOfBounds error, if that is past chrono's last year. No call of either filter looks at more than two items. -/
theorem C118_work_days (c : Cfg) (hc : Sane c) (m : Moment) (hm : m.Valid c) (it : Iter) (hit : Ext.daily (.moment m) 1 = .ok it)
    (a b : Day) (hab : (a = .saturday ∧ b = .sunday) ∨ (a = .sunday ∧ b = .saturday))
    (fuel1 fuel2 : Nat) (hf1 : 2 ≤ fuel1) (hf2 : 2 ≤ fuel2) (q : Nat) (item : Item)
    (hitem : item = nth (withoutNext (withoutNext (Iter.next c) a.matches fuel1) b.matches fuel2) q it) :
    (∃ r, item = some (.ok (.moment r)) ∧ r.Valid c ∧ DaysLater m r (workDay m.weekday q) ∧
      (TT.moment r).isA .saturday = .ok false ∧ (TT.moment r).isA .sunday = .ok false) ∨
    (Cal.instant (c.maxYear + 1) 1 1 0 0 0 ≤ m.instant + workDay m.weekday q * 86400 ∧
      ∃ Y M D H MI S, item = some (.err (.outOfBounds Y M D H MI S))) := by
  have hw : 0 ≤ m.weekday ∧ m.weekday < 7 := by unfold Moment.weekday Cal.weekday; omega
  have main : ∃ K : Nat, (K : Int) = workDay m.weekday q ∧ DailyItem c m 1 K item := by
    subst hitem
    have go := two_left_out c hc m hm it hit
    rcases hab with ⟨rfl, rfl⟩ | ⟨rfl, rfl⟩
    · obtain ⟨k1, k2, e1, e2, e3, e4, e5⟩ := work_positions m.weekday hw q 5 6 (by decide)
      exact ⟨_, e5, go .saturday .sunday k1 k2 e1 e2 e3 e4 fuel1 fuel2 hf1 hf2 q⟩
    · obtain ⟨k1, k2, e1, e2, e3, e4, e5⟩ := work_positions m.weekday hw q 6 5 (by decide)
      exact ⟨_, e5, go .sunday .saturday k1 k2 e1 e2 e3 e4 fuel1 fuel2 hf1 hf2 q⟩
  obtain ⟨K, hK, h⟩ := main
  have hc4 := ((workDay_counts m.weekday hw).1 q (by omega)).2.1
  rcases h with ⟨r, e1, e2, e3⟩ | ⟨e1, e2⟩
  · left
    rw [Int.mul_one, hK] at e3
    have hd := weekday_of_daysLater e3
    refine ⟨r, e1, e2, e3, ?_, ?_⟩ <;>
    · simp only [TT.isA, Day.into]
      congr 1
      rw [beq_eq_false_iff_ne]
      omega
  · right
    rw [Int.mul_one, hK] at e1
    exact ⟨e1, e2⟩

/-- **C118, none left out.** Every date on or after the start, at the same time of day, that is neither a Saturday nor a Sunday is the date of an item. -/
theorem C118_complete (c : Cfg) (hc : Sane c) (m : Moment) (hm : m.Valid c) (it : Iter) (hit : Ext.daily (.moment m) 1 = .ok it)
    (a b : Day) (hab : (a = .saturday ∧ b = .sunday) ∨ (a = .sunday ∧ b = .saturday))
    (fuel1 fuel2 : Nat) (hf1 : 2 ≤ fuel1) (hf2 : 2 ≤ fuel2) (r' : Moment) (hr : r'.Valid c) (K : Int) (hK : 0 ≤ K) (hd : DaysLater m r' K)
    (hsat : (TT.moment r').isA .saturday = .ok false) (hsun : (TT.moment r').isA .sunday = .ok false) :
    ∃ q r, nth (withoutNext (withoutNext (Iter.next c) a.matches fuel1) b.matches fuel2) q it = some (.ok (.moment r)) ∧ r.instant = r'.instant := by
  have hw : 0 ≤ m.weekday ∧ m.weekday < 7 := by unfold Moment.weekday Cal.weekday; omega
  have hi : ∀ r : Moment, DaysLater m r K → r.instant = m.instant + K * 86400 := by
    intro r h
    unfold Moment.instant Cal.instant
    rw [h.1, h.2.1, h.2.2.1, h.2.2.2]
    omega
  have hwd := weekday_of_daysLater hd
  simp only [TT.isA, Day.into, OutE.ok.injEq, beq_eq_false_iff_ne] at hsat hsun
  have hw' : r'.weekday < 7 := by unfold Moment.weekday Cal.weekday; omega
  obtain ⟨Q, hQ, e⟩ := (workDay_counts m.weekday hw).2 K hK (by omega)
  obtain ⟨q, rfl⟩ : ∃ q : Nat, Q = q := ⟨Q.toNat, by omega⟩
  rcases C118_work_days c hc m hm it hit a b hab fuel1 fuel2 hf1 hf2 q _ rfl with ⟨r, h1, -, h2, -⟩ | ⟨h1, -⟩
  · rw [e] at h2
    exact ⟨q, r, h1, by rw [hi r h2, hi r' hd]⟩
  · exfalso
    obtain ⟨-, h, v, ⟨t1, t2, t3, t4, t5, t6⟩, -⟩ := hr
    have v1 : Cal.ValidDate (c.maxYear + 1) 1 1 := ⟨by decide, by decide, by decide, by have := Cal.monthLen_bounds (y := c.maxYear + 1) (m := 1) (by decide) (by decide); omega⟩
    have := (Cal.dayNumber_lt_iff v v1).2 (.inl (by omega))
    rw [e, ← hi r' hd] at h1
    unfold Moment.instant Cal.instant at h1
    omega

example := C118_complete (std .debug) (sane_std _) (at_ 2016 12 29 10 30 0) (by decide) _ rfl .sunday .saturday (by decide) 2 2 (by decide) (by decide)
  (at_ 2017 1 9 10 30 0) (by decide) 11 (by decide) ⟨by decide +kernel, rfl, rfl, rfl⟩ (by decide +kernel) (by decide +kernel)

/-- From Thursday 29 December 2016: two working days, then the five of the next week. -/
example : (std .debug).profile = .debug ∧ (at_ 2016 12 29 10 30 0).Valid (std .debug) ∧
    Ext.daily (.moment (at_ 2016 12 29 10 30 0)) 1 = .ok ⟨.moment (at_ 2016 12 29 10 30 0), .days 1, false⟩ ∧
    items (withoutNext (withoutNext (Iter.next (std .debug)) Day.saturday.matches 2) Day.sunday.matches 2) 8
      ⟨.moment (at_ 2016 12 29 10 30 0), .days 1, false⟩ =
      [(2016, 12, 29), (2016, 12, 30), (2017, 1, 2), (2017, 1, 3), (2017, 1, 4), (2017, 1, 5), (2017, 1, 6), (2017, 1, 9)].map
        fun d => some (.ok (.moment (at_ d.1 d.2.1 d.2.2 10 30 0))) := by decide +kernel

end Props
