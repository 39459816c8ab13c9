import Verif.Props.AllAmounts
import Verif.Props.Resume
import Verif.Props.Values
import Verif.Spec.AddRight

/-!
# C134: iterators with steps longer than 30 days

C34 is about steps of at most 30 days. Here: exactly when an iterator with longer steps is right, and that 30 days is the best possible bound.
-/

namespace Props
open Kairos Spec

/-- The item after `r` is the value of `r` plus the step. -/
private theorem item_after (c : Cfg) (m r : Moment) (u : TUnit) (n : Int) (it : Iter) (hit : Iter.build m (amt u n) = .ok it) (k : Nat)
    (hk : nth (Iter.next c) k it = some (.ok (.moment r))) (r' : Moment) :
    nth (Iter.next c) (k + 1) it = some (.ok (.moment r')) ↔ calculate c (.moment r + amt u n) = .ok (.moment r') := by
  have hb := (C33_build r (amt u n)).1 ⟨u, n, rfl⟩
  rw [← C102_resume c m r (amt u n) it _ hit k hk hb 1, nth_eq]
  show ((Iter.next c) ⟨.moment r, amt u n, true⟩).2 = _ ↔ _
  simp only [Iter.next, Iter.skip, Iter.recalculate]
  cases h : calculate c (.moment r + amt u n) <;> simp [OutE.ok_bind] <;> rfl

/-- A moment is not before the 1 January of its year. -/
private theorem newYear_le {c : Cfg} {m : Moment} (hm : m.Valid c) : Cal.instant m.year 1 1 0 0 0 ≤ m.instant := by
  obtain ⟨-, -, v, t, -⟩ := hm
  have b := Cal.dayOfYear_bounds v
  have d1 := Cal.dayNumber_eq m.year m.month m.day
  have d2 := Cal.dayNumber_newYear m.year
  unfold Cal.ValidTime at t
  unfold Moment.instant Cal.instant
  omega

private theorem same_moment {c : Cfg} {a b : Moment} (ha : a.Valid c) (hb : b.Valid c) (hz : a.nano = 0) (hz' : b.nano = 0)
    (h : a.instant = b.instant) : a = b := by
  obtain ⟨e1, e2, e3, e4, e5, e6⟩ := Cal.instant_inj ha.2.2.1 hb.2.2.1 ha.2.2.2.1 hb.2.2.2.1 h
  cases a; cases b
  simp_all

/-- **C134, exactly when it holds.** A step of any number of seconds, minutes, hours or days. Let `e j` be the date exactly `j` steps after the base (for
`j ≤ K`, all in chrono's range). The iterator yields exactly these dates in its first `K + 1` calls if and only if each of them lies in the year of the one
before it, or else in the year after that on 1–30 January, or 1–30 March (leap year), or 1 April – 30 May (common year).
(Partial: the full statement is that it always does, see `C134_refuted`.) -/
theorem C134_exact_iff_partial (c : Cfg) (hc : Sane c) (m : Moment) (u : TUnit) (hu : u = .second ∨ u = .minute ∨ u = .hour ∨ u = .day)
    (n : Int) (hn : 0 ≤ n) (it : Iter) (hit : Iter.build m (amt u n) = .ok it) (K : Nat) (e : Nat → Moment) (h0 : e 0 = m)
    (he : ∀ j, j ≤ K → (e j).Valid c ∧ (j ≠ 0 → (e j).nano = 0) ∧ (e j).instant = m.instant + j * (n * u.secs)) :
    (∀ j, j ≤ K → nth (Iter.next c) j it = some (.ok (.moment (e j)))) ↔ ∀ j, j < K → AddRight (e j) (e (j + 1)) := by
  have hstep : ∀ j : Nat, ((j + 1 : Nat) : Int) * (n * u.secs) = j * (n * u.secs) + n * u.secs := by
    intro k; rw [Int.natCast_add, Int.add_mul]; simp
  have one : ∀ j, j < K → (calculate c (.moment (e j) + amt u n) = .ok (.moment (e (j + 1))) ↔ AddRight (e j) (e (j + 1))) := by
    intro j hj
    obtain ⟨v1, -, i1⟩ := he j (by omega)
    obtain ⟨v2, z2, i2⟩ := he (j + 1) (by omega)
    exact C16_exact_iff_partial c hc _ _ v1 v2 (z2 (by omega)) u hu n hn (by have := hstep j; omega)
  constructor
  · intro h j hj
    exact (one j hj).mp ((item_after c m _ u n it hit j (h j (by omega)) _).mp (h (j + 1) (by omega)))
  · intro h j
    induction j with
    | zero => intro _; rw [h0]; exact C33_first_item c m _ it hit
    | succ j ih => intro hj; exact (item_after c m _ u n it hit j (ih (by omega)) _).mpr ((one j (by omega)).mpr (h j (by omega)))

/-- Every 50 days from 10 January 2017, over the turn of the year: 10 January, 1 March, 20 April, 9 June, 29 July, 17 September, 6 November, 26 December; the
next exact date, 14 February 2018, is not reached. -/
example : items (Iter.next (std .debug)) 9 ⟨.moment (at_ 2017 1 10 0 0 0), .days 50, false⟩ =
    [(2017, 1, 10), (2017, 3, 1), (2017, 4, 20), (2017, 6, 9), (2017, 7, 29), (2017, 9, 17), (2017, 11, 6), (2017, 12, 26), (2018, 2, 15)].map
      (fun d => some (.ok (.moment (at_ d.1 d.2.1 d.2.2 0 0 0)))) := by decide +kernel

/-- The hypotheses are met: two steps of 100 days. -/
example : ∀ j, j ≤ 2 → nth (Iter.next (std .debug)) j ⟨.moment (at_ 2017 1 10 0 0 0), .days 100, false⟩ =
    some (.ok (.moment ((fun j => [at_ 2017 1 10 0 0 0, at_ 2017 4 20 0 0 0, at_ 2017 7 29 0 0 0].getD j (at_ 2017 1 10 0 0 0)) j))) :=
  (C134_exact_iff_partial (std .debug) (sane_std _) (at_ 2017 1 10 0 0 0) .day (by decide) 100 (by decide) _ rfl 2
    (fun j => [at_ 2017 1 10 0 0 0, at_ 2017 4 20 0 0 0, at_ 2017 7 29 0 0 0].getD j (at_ 2017 1 10 0 0 0)) rfl (by decide +kernel)).mpr (by decide +kernel)

/-- **C134, within a year.** As long as the exact dates stay in the year of the base, they are what the iterator yields, whatever the step. -/
theorem C134_within_the_year_partial (c : Cfg) (hc : Sane c) (m r : Moment) (u : TUnit) (hu : u = .second ∨ u = .minute ∨ u = .hour ∨ u = .day)
    (hm : m.Valid c) (hr : r.Valid c) (hz : r.nano = 0) (n : Int) (hn : 0 ≤ n) (it : Iter) (hit : Iter.build m (amt u n) = .ok it) (k : Nat) (hk : k ≠ 0)
    (hi : r.instant = m.instant + k * (n * u.secs)) (hy : r.year = m.year) :
    nth (Iter.next c) k it = some (.ok (.moment r)) := by
  have hstep : ∀ j : Nat, ((j + 1 : Nat) : Int) * (n * u.secs) = j * (n * u.secs) + n * u.secs := by
    intro k; rw [Int.natCast_add, Int.add_mul]; simp
  have h0 : 0 ≤ n * u.secs := Int.mul_nonneg hn (by cases u <;> decide)
  have hlt := moment_lt_end hr
  have hle : ∀ j : Nat, j ≤ k → (j : Int) * (n * u.secs) ≤ k * (n * u.secs) := by
    intro j hj
    exact Int.mul_le_mul_of_nonneg_right (by omega) h0
  have hge : ∀ j : Nat, 0 ≤ (j : Int) * (n * u.secs) := fun j => Int.mul_nonneg (by omega) h0
  -- the exact dates exist
  have hex : ∀ j : Nat, ∃ q : Moment, j ≤ k → q.Valid c ∧ (j ≠ 0 → q.nano = 0) ∧ q.instant = m.instant + j * (n * u.secs) ∧ q.year = m.year ∧ (j = 0 → q = m) := by
    intro j
    by_cases hj : j ≤ k
    · by_cases hj0 : j = 0
      · subst hj0
        exact ⟨m, fun _ => ⟨hm, fun h => absurd rfl h, by simp, rfl, fun _ => rfl⟩⟩
      · have b1 := hle j hj
        have b2 := hge j
        obtain ⟨q, v, z, i⟩ := moment_exists hm (m.instant + j * (n * u.secs)) (by omega) (by omega)
        refine ⟨q, fun _ => ⟨v, fun _ => z, i, ?_, fun h => absurd h hj0⟩⟩
        have y1 : ¬ q.year < m.year := fun h => by
          have := instant_lt_of_year v.2.2.1 v.2.2.2.1 (Y := m.year - 1) (by omega)
          have := newYear_le hm
          rw [Int.sub_add_cancel] at *
          unfold Moment.instant at *; omega
        have y2 : ¬ r.year < q.year := fun h => by
          have := instant_lt_of_year hr.2.2.1 hr.2.2.2.1 (Y := q.year - 1) (by omega)
          have := newYear_le v
          rw [Int.sub_add_cancel] at *
          unfold Moment.instant at *; omega
        omega
    · exact ⟨m, fun h => absurd h hj⟩
  have hsel := Classical.axiomOfChoice hex
  obtain ⟨e, hE⟩ := hsel
  have key := (C134_exact_iff_partial c hc m u hu n hn it hit k e ((hE 0 (by omega)).2.2.2.2 rfl)
    (fun j hj => ⟨(hE j hj).1, (hE j hj).2.1, (hE j hj).2.2.1⟩)).mpr
    (fun j hj => .inl (by rw [(hE (j + 1) (by omega)).2.2.2.1, (hE j (by omega)).2.2.2.1]))
  have := key k (Nat.le_refl _)
  rw [this]
  obtain ⟨v, z, i, -, -⟩ := hE k (Nat.le_refl _)
  rw [same_moment v hr (z hk) hz (i.trans hi.symm)]

/-- Every 1000 hours, whole seconds or not. -/
example : nth (Iter.next (std .debug)) 8 ⟨.moment { at_ 2017 1 10 7 30 0 with nano := 5 }, .hours 1000, false⟩ = some (.ok (.moment (at_ 2017 12 9 15 30 0))) :=
  C134_within_the_year_partial (std .debug) (sane_std _) { at_ 2017 1 10 7 30 0 with nano := 5 } _ .hour (by decide) (by decide) (by decide) rfl 1000 (by decide) _ rfl
    8 (by decide) (by decide +kernel) rfl

/-- **C134, 30 days is the best bound.** Every step longer than 30 days (and not longer than the calendar) is wrong from some start, already in the second
item: from the date which is one step before 31 January 00:00:00 of the last year. -/
theorem C134_thirty_days_is_best (c : Cfg) (hc : Sane c) (u : TUnit) (hu : u = .second ∨ u = .minute ∨ u = .hour ∨ u = .day) (n : Int)
    (hn : 30 * 86400 < n * u.secs) (hmax : n * u.secs ≤ Cal.instant c.maxYear 1 31 0 0 0 - Cal.instant c.minYear 1 1 0 0 0) :
    ∃ m exact : Moment, m.Valid c ∧ exact.Valid c ∧ exact.nano = 0 ∧ exact.instant = m.instant + n * u.secs ∧
      ∀ it, Iter.build m (amt u n) = .ok it → nth (Iter.next c) 1 it ≠ some (.ok (.moment exact)) := by
  have hc' := hc
  unfold Sane at hc'
  have hlast := Cal.dayNumber_newYear (c.maxYear + 1)
  have v0 : Cal.ValidDate c.minYear 1 1 := by simp [Cal.ValidDate, Cal.monthLen]
  have v1 : Cal.ValidDate c.maxYear 1 31 := by simp [Cal.ValidDate, Cal.monthLen]
  have w0 : (at_ c.minYear 1 1 0 0 0).Valid c := ⟨by show c.minYear ≤ c.minYear; omega, by show c.minYear ≤ c.maxYear; omega, v0, (by decide : Cal.ValidTime 0 0 0), (by decide : (0 : Int) ≤ 0), (by decide : (0 : Int) < 2000000000)⟩
  have w1 : (at_ c.maxYear 1 31 0 0 0).Valid c := ⟨by show c.minYear ≤ c.maxYear; omega, by show c.maxYear ≤ c.maxYear; omega, v1, (by decide : Cal.ValidTime 0 0 0), (by decide : (0 : Int) ≤ 0), (by decide : (0 : Int) < 2000000000)⟩
  have e0 : (at_ c.minYear 1 1 0 0 0).instant = Cal.instant c.minYear 1 1 0 0 0 := rfl
  have e1 : (at_ c.maxYear 1 31 0 0 0).instant = Cal.instant c.maxYear 1 31 0 0 0 := rfl
  have hend := moment_lt_end w1
  obtain ⟨m, hm, -, i⟩ := moment_exists w0 (Cal.instant c.maxYear 1 31 0 0 0 - n * u.secs) (by omega) (by omega)
  refine ⟨m, at_ c.maxYear 1 31 0 0 0, hm, w1, rfl, by omega, fun it hit h => ?_⟩
  have hpos : 0 < u.secs := by cases u <;> decide
  have hn0 : 0 ≤ n := by
    by_cases h : 0 ≤ n
    · exact h
    have := Int.mul_nonneg (a := -n) (b := u.secs) (by omega) (by omega)
    rw [Int.neg_mul] at this
    omega
  have hk := (item_after c m m u n it hit 0 (C33_first_item c m _ it hit) _).mp h
  have r := (C16_exact_iff_partial c hc m _ hm w1 rfl u hu n hn0 (by omega)).mp hk
  have hy : c.maxYear ≠ m.year := fun hy => by
    have := newYear_le hm
    rw [← hy] at this
    have : Cal.instant c.maxYear 1 31 0 0 0 = Cal.instant c.maxYear 1 1 0 0 0 + 30 * 86400 := by
      unfold Cal.instant Cal.dayNumber; omega
    omega
  rcases r with r | ⟨-, ⟨-, r⟩ | ⟨r, -⟩ | ⟨r, -⟩ | ⟨r, -⟩⟩
  · exact hy r
  · exact absurd (show (31 : Int) ≤ 30 from r) (by decide)
  · exact absurd (show (1 : Int) = 3 from r) (by decide)
  · exact absurd (show (1 : Int) = 4 from r) (by decide)
  · exact absurd (show (1 : Int) = 5 from r) (by decide)

/-- Every 31 days: from 31 December, the item that should be 31 January is an error or another date. -/
example : nth (Iter.next (std .debug)) 1 ⟨.moment (at_ 2016 12 31 0 0 0), .days 31, false⟩ = some (.ok (.moment (at_ 2017 2 1 0 0 0))) := by decide +kernel

/-- The hypotheses are met by every step of 31 to 190 million days. -/
example (n : Int) (h1 : 31 ≤ n) (h2 : n ≤ 190000000) : 30 * 86400 < n * TUnit.day.secs ∧
    n * TUnit.day.secs ≤ Cal.instant (std .debug).maxYear 1 31 0 0 0 - Cal.instant (std .debug).minYear 1 1 0 0 0 := by
  have : 190000000 * 86400 ≤ Cal.instant (std .debug).maxYear 1 31 0 0 0 - Cal.instant (std .debug).minYear 1 1 0 0 0 := by decide +kernel
  show _ < n * 86400 ∧ n * 86400 ≤ _
  omega

/-- **C134 refuted.** With a step of 516 days or more the second item is never right, from any start. -/
theorem C134_refuted (c : Cfg) (hc : Sane c) (m exact : Moment) (hm : m.Valid c) (he : exact.Valid c) (u : TUnit)
    (hu : u = .second ∨ u = .minute ∨ u = .hour ∨ u = .day) (n : Int) (hn : 516 * 86400 ≤ n * u.secs) (hi : exact.instant = m.instant + n * u.secs)
    (it : Iter) (hit : Iter.build m (amt u n) = .ok it) : nth (Iter.next c) 1 it ≠ some (.ok (.moment exact)) := by
  intro h
  have hpos : 0 < u.secs := by cases u <;> decide
  have hn0 : 0 ≤ n := by
    by_cases h : 0 ≤ n
    · exact h
    have := Int.mul_nonneg (a := -n) (b := u.secs) (by omega) (by omega)
    rw [Int.neg_mul] at this
    omega
  have hk := (item_after c m m u n it hit 0 (C33_first_item c m _ it hit) _).mp h
  have hz : exact.nano = 0 := (C15_computed c _ exact (fun p => TT.noConfusion) hk).2
  have r := (C16_exact_iff_partial c hc m _ hm he hz u hu n hn0 hi).mp hk
  have h1 := newYear_le hm
  have hs := Cal.daysBeforeYear_succ m.year
  have n1 := Cal.dayNumber_newYear m.year
  have t := he.2.2.2.1
  have dd := he.2.2.1.2.2.2
  have yl := Cal.yearLen_bounds m.year
  unfold Cal.ValidTime at t
  have e1 : exact.instant = (Cal.daysBeforeYear exact.year + Cal.daysBeforeMonth exact.year exact.month + exact.day) * 86400 + exact.hour * 3600 +
      exact.minute * 60 + exact.second := rfl
  have e2 : Cal.instant m.year 1 1 0 0 0 = Cal.dayNumber m.year 1 1 * 86400 + 0 * 3600 + 0 * 60 + 0 := rfl
  rcases r with r | ⟨ry, ⟨r, r'⟩ | ⟨r, r', rl⟩ | ⟨r, rl⟩ | ⟨r, r', rl⟩⟩
  · have := instant_lt_of_year he.2.2.1 t (Y := m.year) (by omega)
    have e3 : Cal.instant (m.year + 1) 1 1 0 0 0 = Cal.dayNumber (m.year + 1) 1 1 * 86400 + 0 * 3600 + 0 * 60 + 0 := rfl
    have n2 := Cal.dayNumber_newYear (m.year + 1)
    have e4 : exact.instant = Cal.instant exact.year exact.month exact.day exact.hour exact.minute exact.second := rfl
    omega
  all_goals rw [r] at e1 dd
  · have : Cal.daysBeforeMonth exact.year 1 = 0 := rfl
    have hyy : Cal.daysBeforeYear exact.year = Cal.daysBeforeYear (m.year + 1) := by rw [ry]
    omega
  · have : Cal.daysBeforeMonth exact.year 3 = 60 := by simp [Cal.daysBeforeMonth, rl]
    have hyy : Cal.daysBeforeYear exact.year = Cal.daysBeforeYear (m.year + 1) := by rw [ry]
    omega
  · have : Cal.daysBeforeMonth exact.year 4 = 90 := by simp [Cal.daysBeforeMonth, rl]
    have : Cal.monthLen exact.year 4 = 30 := rfl
    have hyy : Cal.daysBeforeYear exact.year = Cal.daysBeforeYear (m.year + 1) := by rw [ry]
    omega
  · have : Cal.daysBeforeMonth exact.year 5 = 120 := by simp [Cal.daysBeforeMonth, rl]
    have hyy : Cal.daysBeforeYear exact.year = Cal.daysBeforeYear (m.year + 1) := by rw [ry]
    omega

/-- Every 516 days: 31 May 2017 should come after 1 January 2016. One second less is the longest step that can be right. -/
example : nth (Iter.next (std .debug)) 1 ⟨.moment (at_ 2016 1 1 0 0 0), .days 516, false⟩ ≠ some (.ok (.moment (at_ 2017 5 31 0 0 0))) ∧
    nth (Iter.next (std .debug)) 1 ⟨.moment (at_ 2016 1 1 0 0 0), .days 516, false⟩ = some (.ok (.moment (at_ 2017 6 1 0 0 0))) ∧
    nth (Iter.next (std .debug)) 1 ⟨.moment (at_ 2016 1 1 0 0 0), .seconds (516 * 86400 - 1), false⟩ =
      some (.ok (.moment (at_ 2017 5 30 23 59 59))) :=
  ⟨C134_refuted (std .debug) (sane_std _) (at_ 2016 1 1 0 0 0) _ (by decide) (by decide) .day (by decide) 516 (by decide) (by decide +kernel) _ rfl,
    by decide +kernel, by decide +kernel⟩

end Props
