import Verif.Props.Weekdays

/-!
# C67, C68: filters on iterators with any number of days or months per step
-/

namespace Props
open Kairos Spec

/-- Steps that are not whole weeks meet each weekday once in seven. -/
theorem residue7 (w d n : Int) (hd : 0 ≤ d ∧ d < 7) (h : n % 7 ≠ 0) :
    ∃ k0 : Nat, k0 < 7 ∧ ∀ k : Nat, (w + k * n) % 7 = d ↔ k % 7 = k0 := by
  have e : ∀ k : Nat, (w + k * n) % 7 = (w + k * (n % 7)) % 7 := by
    intro k
    have h1 : (k : Int) * n = 7 * (k * (n / 7)) + k * (n % 7) := by
      rw [Int.mul_left_comm, ← Int.mul_add, Int.mul_ediv_add_emod]
    rw [h1]; omega
  have hr : n % 7 = 1 ∨ n % 7 = 2 ∨ n % 7 = 3 ∨ n % 7 = 4 ∨ n % 7 = 5 ∨ n % 7 = 6 := by omega
  have he : ∀ k : Nat, (w + k * n) % 7 = (w + k * (n % 7)) % 7 := e
  rcases hr with hr | hr | hr | hr | hr | hr <;> rw [hr] at he
  · exact ⟨((d - w) % 7).toNat, by omega, fun k => by rw [he k]; omega⟩
  · exact ⟨(((d - w) * 4) % 7).toNat, by omega, fun k => by rw [he k]; omega⟩
  · exact ⟨(((d - w) * 5) % 7).toNat, by omega, fun k => by rw [he k]; omega⟩
  · exact ⟨(((d - w) * 2) % 7).toNat, by omega, fun k => by rw [he k]; omega⟩
  · exact ⟨(((d - w) * 3) % 7).toNat, by omega, fun k => by rw [he k]; omega⟩
  · exact ⟨(((d - w) * 6) % 7).toNat, by omega, fun k => by rw [he k]; omega⟩

/-- The items of `daily(n)` and what a weekday says to them. -/
theorem daily_items (c : Cfg) (hc : Sane c) (m : Moment) (hm : m.Valid c) (n : Int) (hn : 0 ≤ n ∧ n ≤ 30) (d : Day) (it : Iter)
    (hit : Ext.daily (.moment m) n = .ok it) (k : Nat) :
    (∃ r, nth (Iter.next c) k it = some (.ok (.moment r)) ∧ r.Valid c ∧ DaysLater m r (k * n) ∧
      d.matches (.moment r) = .ok ((m.weekday + k * n) % 7 == d.into)) ∨
    (Cal.instant (c.maxYear + 1) 1 1 0 0 0 ≤ m.instant + k * n * 86400 ∧
      ∃ Y M D H MI S, ∀ j, k ≤ j → nth (Iter.next c) j it = some (.err (.outOfBounds Y M D H MI S))) := by
  have hb : Iter.build m (amt .day n) = .ok it := by
    rw [(C33_named c (.moment m) n).2.2.1, (C33_every _ _).1 m rfl] at hit; exact hit
  have hb' : it = ⟨.moment m, amt .day n, false⟩ := by
    rw [(C33_build m (amt .day n)).1 ⟨_, _, rfl⟩] at hb; cases hb; rfl
  rcases C34_kth_item c hc m hm .day (by simp) n hn.1 (by simp only [TUnit.secs]; omega) it hb k with
    ⟨r, h1, v, i, -⟩ | ⟨h0, Y, M, D, H, MI, S, h1⟩
  · left
    have hd : DaysLater m r (k * n) := daysLater_of_instant hm v (by
      rw [i]
      simp only [TUnit.secs]
      rw [← Int.mul_assoc]; omega)
    refine ⟨r, h1, v, hd, ?_⟩
    simp only [Day.matches, TT.getMoment, Option.map_some, OutE.ofOption]
    congr 1
    rw [Bool.eq_iff_iff]
    have := weekday_of_daysLater hd
    simp only [beq_iff_eq]
    omega
  · right
    subst hb'
    refine ⟨?_, Y, M, D, H, MI, S, fun j hj => built_err_forever rfl h1 j hj⟩
    simp only [TUnit.secs] at h0
    rw [← Int.mul_assoc] at h0
    omega

/-- What stands at position `k` of `daily(n)`: `k` steps after the base, or an OutOfBounds error if that is past chrono's last year. -/
def DailyItem (c : Cfg) (m : Moment) (n : Int) (k : Nat) (item : Item) : Prop :=
  (∃ r, item = some (.ok (.moment r)) ∧ r.Valid c ∧ DaysLater m r (k * n)) ∨
  (Cal.instant (c.maxYear + 1) 1 1 0 0 0 ≤ m.instant + k * n * 86400 ∧ ∃ Y M D H MI S, item = some (.err (.outOfBounds Y M D H MI S)))

/-- **C67 (any number of days).** `daily(n).every(day)` with up to 30 days per step, but not whole weeks: of any seven successive items exactly one
is on that weekday. With `k0` the position of the first, the item at position `q` is the one at position `k0 + 7 q` of
`daily(n)`. No call looks at more than 7 items. -/
theorem C67_every_step (c : Cfg) (hc : Sane c) (m : Moment) (hm : m.Valid c) (n : Int) (hn : 0 ≤ n ∧ n ≤ 30) (h7 : n % 7 ≠ 0) (d : Day)
    (it : Iter) (hit : Ext.daily (.moment m) n = .ok it) :
    ∃ k0 : Nat, k0 < 7 ∧ (m.weekday + k0 * n) % 7 = d.into ∧ ∀ fuel, 7 ≤ fuel → ∀ q : Nat,
      DailyItem c m n (k0 + 7 * q) (nth (filterNext (Iter.next c) d.matches fuel) q it) := by
  have hd0 : 0 ≤ d.into ∧ d.into < 7 := by cases d <;> decide
  obtain ⟨k0, hk0, hk⟩ := residue7 m.weekday d.into n hd0 h7
  refine ⟨k0, hk0, (hk k0).2 (Nat.mod_eq_of_lt hk0), fun fuel hf q => ?_⟩
  rw [filter_periodic (nx := Iter.next c) (M := d.matches) (s := it) hk0 hf (fun k => by
    rcases daily_items c hc m hm n hn d it hit k with ⟨r, h1, -, -, h2⟩ | ⟨-, Y, M, D, H, MI, S, h⟩
    · refine .inl ⟨_, h1, ?_⟩
      rw [h2]
      congr 1
      rw [Bool.eq_iff_iff, beq_iff_eq, beq_iff_eq]
      exact hk k
    · exact .inr ⟨_, h⟩) q]
  rcases daily_items c hc m hm n hn d it hit (k0 + 7 * q) with ⟨r, h1, h2, h3, -⟩ | ⟨h0, Y, M, D, H, MI, S, h⟩
  · exact .inl ⟨r, h1, h2, h3⟩
  · exact .inr ⟨h0, Y, M, D, H, MI, S, h _ (Nat.le_refl _)⟩

/-- Every tenth day from Sunday 1 January 2017: the first Monday comes at position 5 (20 February), the second at position 12 (1 May). -/
example : (std .debug).profile = .debug ∧ Ext.daily (.moment (at_ 2017 1 1 10 30 0)) 10 = .ok ⟨.moment (at_ 2017 1 1 10 30 0), .days 10, false⟩ ∧
    items (filterNext (Iter.next (std .debug)) Day.monday.matches 7) 2 ⟨.moment (at_ 2017 1 1 10 30 0), .days 10, false⟩ =
      [some (.ok (.moment (at_ 2017 2 20 10 30 0))), some (.ok (.moment (at_ 2017 5 1 10 30 0)))] := by decide +kernel

/-- **C67 (without).** `daily(n).without(day)` in the same cases: every seventh item is left out, starting with the one at position `k0`. No call
looks at more than 2 items. -/
theorem C67_without (c : Cfg) (hc : Sane c) (m : Moment) (hm : m.Valid c) (n : Int) (hn : 0 ≤ n ∧ n ≤ 30) (h7 : n % 7 ≠ 0) (d : Day)
    (it : Iter) (hit : Ext.daily (.moment m) n = .ok it) :
    ∃ k0 : Nat, k0 < 7 ∧ (m.weekday + k0 * n) % 7 = d.into ∧ ∀ fuel, 2 ≤ fuel → ∀ q : Nat,
      DailyItem c m n (q + (q + 6 - k0) / 6) (nth (withoutNext (Iter.next c) d.matches fuel) q it) := by
  have hd0 : 0 ≤ d.into ∧ d.into < 7 := by cases d <;> decide
  obtain ⟨k0, hk0, hk⟩ := residue7 m.weekday d.into n hd0 h7
  refine ⟨k0, hk0, (hk k0).2 (Nat.mod_eq_of_lt hk0), fun fuel hf q => ?_⟩
  have hwo : withoutNext (Iter.next c) d.matches fuel = filterNext (Iter.next c) (negated d.matches) fuel := by
    funext s; exact without_eq_filter _ _ _ _
  rw [hwo, filter_but_periodic (nx := Iter.next c) (M := negated d.matches) (s := it) (p := 7) (by decide) hk0 hf
    (fun k => by
      rcases daily_items c hc m hm n hn d it hit k with ⟨r, h1, -, -, h2⟩ | ⟨-, Y, M, D, H, MI, S, h⟩
      · refine .inl ⟨_, h1, ?_⟩
        unfold negated
        rw [h2]
        simp only
        congr 2
        rw [Bool.eq_iff_iff, beq_iff_eq, beq_iff_eq]
        exact hk k
      · exact .inr ⟨_, h⟩) q]
  rcases daily_items c hc m hm n hn d it hit (q + (q + 6 - k0) / 6) with ⟨r, h1, h2, h3, -⟩ | ⟨h0, Y, M, D, H, MI, S, h⟩
  · exact .inl ⟨r, h1, h2, h3⟩
  · exact .inr ⟨h0, Y, M, D, H, MI, S, h _ (Nat.le_refl _)⟩

/-- Of the items of `daily(10)` from Sunday 1 January 2017, the one at position 0 is on a Sunday. -/
example : items (withoutNext (Iter.next (std .debug)) Day.sunday.matches 2) 7 ⟨.moment (at_ 2017 1 1 10 30 0), .days 10, false⟩ =
      [(1, 11), (1, 21), (1, 31), (2, 10), (2, 20), (3, 2), (3, 22)].map fun d => some (.ok (.moment (at_ 2017 d.1 d.2 10 30 0))) := by
  decide +kernel

/-- **C67 (whole weeks).** `daily(n)` and `weekly(n)` with one to four weeks per step: from a base on that weekday, `every(day)` leaves out nothing;
from any other base there is no item at all: every call runs to the end of chrono's range and returns an OutOfBounds error. With `without(day)` it is the other way
round. -/
theorem C67_weeks (c : Cfg) (hc : Sane c) (m : Moment) (hm : m.Valid c) (n : Int) (hn : 1 ≤ n ∧ n ≤ 4) (d : Day)
    (it : Iter) (hit : Ext.weekly c (.moment m) n = .ok it) :
    (m.weekday = d.into → ∀ fuel, 1 ≤ fuel → ∀ q : Nat,
      DailyItem c m (7 * n) q (nth (filterNext (Iter.next c) d.matches fuel) q it)) ∧
    (m.weekday ≠ d.into → ∃ Y M D H MI S B, ∀ fuel, B ≤ fuel → ∀ q : Nat,
      nth (filterNext (Iter.next c) d.matches fuel) q it = some (.err (.outOfBounds Y M D H MI S))) ∧
    (m.weekday ≠ d.into → ∀ fuel, 1 ≤ fuel → ∀ q : Nat,
      DailyItem c m (7 * n) q (nth (withoutNext (Iter.next c) d.matches fuel) q it)) ∧
    (m.weekday = d.into → ∃ Y M D H MI S B, ∀ fuel, B ≤ fuel → ∀ q : Nat,
      nth (withoutNext (Iter.next c) d.matches fuel) q it = some (.err (.outOfBounds Y M D H MI S))) := by
  have hit' : Ext.daily (.moment m) (7 * n) = .ok it := by
    rw [(C33_named c (.moment m) (7 * n)).2.2.1, ← (C33_named c (.moment m) n).2.2.2.2.2.1 (by omega)]; exact hit
  have hw : 0 ≤ m.weekday ∧ m.weekday < 7 := by unfold Moment.weekday Cal.weekday; omega
  have items := daily_items c hc m hm (7 * n) (by omega) d it hit'
  have hday : ∀ k : Nat, ((m.weekday + (k : Int) * (7 * n)) % 7 == d.into) = (m.weekday == d.into) := by
    intro k
    rw [Int.mul_left_comm (k : Int) 7 n]
    congr 1
    omega
  have hwo : ∀ fuel, withoutNext (Iter.next c) d.matches fuel = filterNext (Iter.next c) (negated d.matches) fuel := by
    intro fuel; funext s; exact without_eq_filter _ _ _ _
  have hneg : ∀ {t b}, d.matches t = .ok b → negated d.matches t = .ok (!b) := by
    intro t b h
    unfold negated
    rw [h]
  -- the end
  obtain ⟨K, hK⟩ : ∃ K : Nat, Cal.instant (c.maxYear + 1) 1 1 0 0 0 - m.instant ≤ K :=
    ⟨(Cal.instant (c.maxYear + 1) 1 1 0 0 0 - m.instant).toNat, by omega⟩
  have hend : ∃ Y M D H MI S, ∀ j, K ≤ j → nth (Iter.next c) j it = some (.err (.outOfBounds Y M D H MI S)) := by
    rcases items K with ⟨r, -, h2, h3, -⟩ | ⟨-, h⟩
    · exfalso
      have h4 := moment_lt_end h2
      obtain ⟨e1, e2, e3, e4⟩ := h3
      have h5 : (K : Int) * 1 ≤ K * (7 * n) := Int.mul_le_mul_of_nonneg_left (by omega) (by omega)
      unfold Moment.instant Cal.instant at h4 hK
      rw [e1, e2, e3, e4] at h4
      omega
    · exact h
  obtain ⟨Y, M, D, H, MI, S, hend⟩ := hend
  have all : ∀ (T : TT → Out Bool), (∀ r : Moment, d.matches (.moment r) = .ok (m.weekday == d.into) → T (.moment r) = .ok true) →
      ∀ fuel, 1 ≤ fuel → ∀ q : Nat, DailyItem c m (7 * n) q (nth (filterNext (Iter.next c) T fuel) q it) := by
    intro T hT fuel hf q
    rw [filter_positions (nx := Iter.next c) (M := T) (s := it) (P := fun _ => true) (pos := fun q => q) hf (by omega) (fun q => by omega)
      (fun q => by omega) (fun q => rfl) (fun i hi => by omega) (fun q i h1 h2 => by omega)
      (fun k => by
        rcases items k with ⟨r, h1, -, -, h2⟩ | ⟨-, Y, M, D, H, MI, S, h⟩
        · rw [hday] at h2
          exact .inl ⟨_, h1, hT r h2⟩
        · exact .inr ⟨_, h⟩) q]
    rcases items q with ⟨r, h1, h2, h3, -⟩ | ⟨h0, Y, M, D, H, MI, S, h⟩
    · exact .inl ⟨r, h1, h2, h3⟩
    · exact .inr ⟨h0, Y, M, D, H, MI, S, h _ (Nat.le_refl _)⟩
  have none : ∀ (T : TT → Out Bool), (∀ r : Moment, d.matches (.moment r) = .ok (m.weekday == d.into) → T (.moment r) = .ok false) →
      ∃ Y M D H MI S B, ∀ fuel, B ≤ fuel → ∀ q : Nat,
        nth (filterNext (Iter.next c) T fuel) q it = some (.err (.outOfBounds Y M D H MI S)) := by
    intro T hT
    refine ⟨Y, M, D, H, MI, S, K + 1, fun fuel hf q => ?_⟩
    refine filter_never hend (fun k _ => ?_) fuel (by omega) q
    rcases items k with ⟨r, h1, -, -, h2⟩ | ⟨-, Y, M, D, H, MI, S, h⟩
    · rw [hday] at h2
      exact .inl ⟨_, h1, hT r h2⟩
    · exact .inr ⟨_, h⟩
  refine ⟨fun h => all _ fun r hr => ?_, fun h => none _ fun r hr => ?_, fun h fuel => ?_, fun h => ?_⟩
  · rw [hr, beq_iff_eq.2 h]
  · rw [hr, beq_eq_false_iff_ne.2 h]
  · rw [hwo]
    refine all _ (fun r hr => ?_) fuel
    rw [hneg hr, beq_eq_false_iff_ne.2 h]; rfl
  · simp only [hwo]
    refine none _ fun r hr => ?_
    rw [hneg hr, beq_iff_eq.2 h]; rfl

/-- In a calendar that ends with 2017: from Sunday 5 November in steps of a week there are eight Sundays, and no Monday. -/
example : let c : Cfg := ⟨.debug, 2000, 2017⟩
    Sane c ∧ (at_ 2017 11 5 10 30 0).Valid c ∧ (at_ 2017 11 5 10 30 0).weekday = Day.sunday.into ∧
    Ext.weekly c (.moment (at_ 2017 11 5 10 30 0)) 1 = .ok ⟨.moment (at_ 2017 11 5 10 30 0), .days 7, false⟩ ∧
    nth (filterNext (Iter.next c) Day.sunday.matches 1) 7 ⟨.moment (at_ 2017 11 5 10 30 0), .days 7, false⟩ =
      some (.ok (.moment (at_ 2017 12 24 10 30 0))) ∧
    (filterNext (Iter.next c) Day.monday.matches 20 ⟨.moment (at_ 2017 11 5 10 30 0), .days 7, false⟩).2 =
      some (.err (.outOfBounds 2018 1 10 10 30 0)) := by
  decide +kernel

/-! ## C68 -/

/-- What stands at position `k` of `monthly(n)` from a day up to the 28th: `k` steps after the base, or an OutOfBounds error if that is past chrono's last year. -/
def MonthlyItem (c : Cfg) (m : Moment) (n : Int) (k : Nat) (item : Item) : Prop :=
  ∃ Y M : Int, 1 ≤ M ∧ M ≤ 12 ∧ Cal.monthIndex Y M = Cal.monthIndex m.year m.month + k * n ∧
    ((Y ≤ c.maxYear ∧ item = some (.ok (.moment { m with year := Y, month := M, nano := if k = 0 then m.nano else 0 }))) ∨
     (c.maxYear < Y ∧ ∃ Y' M' D H MI S, item = some (.err (.outOfBounds Y' M' D H MI S))))

/-- How often steps of `n` months meet a given month. -/
private theorem residue12 (w d n : Int) :
    ∃ p : Nat, p * Int.gcd n 12 = 12 ∧
      ((∃ k0 : Nat, k0 < p ∧ ∀ k : Nat, (w + k * n - d) % 12 = 0 ↔ k % p = k0) ∨ ∀ k : Nat, (w + k * n - d) % 12 ≠ 0) := by
  have e : ∀ k : Nat, (w + k * n - d) % 12 = (w + k * (n % 12) - d) % 12 := by
    intro k
    have h1 : (k : Int) * n = 12 * (k * (n / 12)) + k * (n % 12) := by
      rw [Int.mul_left_comm, ← Int.mul_add, Int.mul_ediv_add_emod]
    rw [h1]; omega
  have hg : Int.gcd n 12 = Int.gcd (n % 12) 12 := by
    have := Int.gcd_add_mul_left_left 12 (n % 12) (n / 12)
    rw [Int.emod_add_mul_ediv] at this
    exact this
  have hr : n % 12 = 0 ∨ n % 12 = 1 ∨ n % 12 = 2 ∨ n % 12 = 3 ∨ n % 12 = 4 ∨ n % 12 = 5 ∨ n % 12 = 6 ∨ n % 12 = 7 ∨ n % 12 = 8 ∨
    n % 12 = 9 ∨ n % 12 = 10 ∨ n % 12 = 11 := by omega
  rcases hr with hr | hr | hr | hr | hr | hr | hr | hr | hr | hr | hr | hr <;> rw [hr] at e hg <;> rw [hg]
  · refine ⟨1, by decide, ?_⟩
    by_cases h : (d - w) % 12 = 0
    · exact .inl ⟨0, by decide, fun k => by rw [e k]; omega⟩
    · exact .inr fun k => by rw [e k]; omega
  · exact ⟨12, by decide, .inl ⟨((d - w) % 12).toNat, by omega, fun k => by rw [e k]; omega⟩⟩
  · refine ⟨6, by decide, ?_⟩
    by_cases h : (d - w) % 2 = 0
    · exact .inl ⟨((d - w) / 2 % 6).toNat, by omega, fun k => by rw [e k]; omega⟩
    · exact .inr fun k => by rw [e k]; omega
  · refine ⟨4, by decide, ?_⟩
    by_cases h : (d - w) % 3 = 0
    · exact .inl ⟨((d - w) / 3 % 4).toNat, by omega, fun k => by rw [e k]; omega⟩
    · exact .inr fun k => by rw [e k]; omega
  · refine ⟨3, by decide, ?_⟩
    by_cases h : (d - w) % 4 = 0
    · exact .inl ⟨((d - w) / 4 % 3).toNat, by omega, fun k => by rw [e k]; omega⟩
    · exact .inr fun k => by rw [e k]; omega
  · exact ⟨12, by decide, .inl ⟨((d - w) * 5 % 12).toNat, by omega, fun k => by rw [e k]; omega⟩⟩
  · refine ⟨2, by decide, ?_⟩
    by_cases h : (d - w) % 6 = 0
    · exact .inl ⟨((d - w) / 6 % 2).toNat, by omega, fun k => by rw [e k]; omega⟩
    · exact .inr fun k => by rw [e k]; omega
  · exact ⟨12, by decide, .inl ⟨((d - w) * 7 % 12).toNat, by omega, fun k => by rw [e k]; omega⟩⟩
  · refine ⟨3, by decide, ?_⟩
    by_cases h : (d - w) % 4 = 0
    · exact .inl ⟨((d - w) / 4 * 2 % 3).toNat, by omega, fun k => by rw [e k]; omega⟩
    · exact .inr fun k => by rw [e k]; omega
  · refine ⟨4, by decide, ?_⟩
    by_cases h : (d - w) % 3 = 0
    · exact .inl ⟨((d - w) / 3 * 3 % 4).toNat, by omega, fun k => by rw [e k]; omega⟩
    · exact .inr fun k => by rw [e k]; omega
  · refine ⟨6, by decide, ?_⟩
    by_cases h : (d - w) % 2 = 0
    · exact .inl ⟨((d - w) / 2 * 5 % 6).toNat, by omega, fun k => by rw [e k]; omega⟩
    · exact .inr fun k => by rw [e k]; omega
  · exact ⟨12, by decide, .inl ⟨((d - w) * 11 % 12).toNat, by omega, fun k => by rw [e k]; omega⟩⟩

/-- The items of `monthly(n)` and what a month says to them. -/
private theorem monthly_items (c : Cfg) (hc : Sane c) (m : Moment) (hm : m.Valid c) (hd : m.day ≤ 28) (n : Int) (hn : 0 ≤ n) (hmax : n ≤ 24000000000)
    (mo : Month) (it : Iter) (hit : Ext.monthly (.moment m) n = .ok it) (k : Nat) :
    MonthlyItem c m n k (nth (Iter.next c) k it) ∧
    ((∃ t, nth (Iter.next c) k it = some (.ok t) ∧ mo.matches t = .ok ((m.month + k * n - mo.into) % 12 == 0)) ∨
     ∃ Y M D H MI S, ∀ j, k ≤ j → nth (Iter.next c) j it = some (.err (.outOfBounds Y M D H MI S))) := by
  have hb : Iter.build m (.months n) = .ok it := by
    rw [(C33_named c (.moment m) n).2.2.2.1, (C33_every _ _).1 m rfl] at hit; exact hit
  have hb' : it = ⟨.moment m, amt .month n, false⟩ := by
    rw [(C33_build m (.months n)).1 ⟨.month, _, rfl⟩] at hb; cases hb; rfl
  have h := C35_monthly c hc m hm hd n hn hmax it hb k
  refine ⟨h, ?_⟩
  have hd0 : 1 ≤ mo.into ∧ mo.into ≤ 12 := by cases mo <;> decide
  obtain ⟨Y, M, h1, h2, h3, ⟨-, h4⟩ | ⟨-, Y', M', D, H, MI, S, h4⟩⟩ := h
  · left
    refine ⟨_, h4, ?_⟩
    simp only [Month.matches, TT.getMoment, Option.map_some, OutE.ofOption]
    congr 1
    rw [Bool.eq_iff_iff]
    simp only [beq_iff_eq]
    unfold Cal.monthIndex at h3
    omega
  · right
    subst hb'
    exact ⟨_, _, _, _, _, _, fun j hj => built_err_forever rfl h4 j hj⟩

/-- **C68 (any number of months).** `monthly(n).every(month)` and `monthly(n).without(month)` from a day up to the 28th, with at least one month per step: the months repeat after
`p = 12 / gcd n 12` steps. Either that month is among them, first at position `k0 < p`: then `every` gives the items at the positions
`k0 + p q`, and `without` (unless it is the only month there is) leaves out just these. Or it is not: then `every` gives no item at all, but an OutOfBounds error at each
call, and `without` leaves out nothing. If it is the only month there is, `without` gives the OutOfBounds error. -/
theorem C68_every_step (c : Cfg) (hc : Sane c) (m : Moment) (hm : m.Valid c) (hd : m.day ≤ 28) (n : Int) (hn : 1 ≤ n) (hmax : n ≤ 24000000000)
    (mo : Month) (it : Iter) (hit : Ext.monthly (.moment m) n = .ok it) :
    ∃ p : Nat, p * Int.gcd n 12 = 12 ∧
    ((∃ k0 : Nat, k0 < p ∧ (m.month + k0 * n - mo.into) % 12 = 0 ∧
      (∀ fuel, p ≤ fuel → ∀ q : Nat, MonthlyItem c m n (k0 + p * q) (nth (filterNext (Iter.next c) mo.matches fuel) q it)) ∧
      (2 ≤ p → ∀ fuel, 2 ≤ fuel → ∀ q : Nat,
        MonthlyItem c m n (q + (q + (p - 1) - k0) / (p - 1)) (nth (withoutNext (Iter.next c) mo.matches fuel) q it)) ∧
      (p = 1 → ∃ Y M D H MI S B, ∀ fuel, B ≤ fuel → ∀ q : Nat,
        nth (withoutNext (Iter.next c) mo.matches fuel) q it = some (.err (.outOfBounds Y M D H MI S)))) ∨
     ((∀ k : Nat, (m.month + k * n - mo.into) % 12 ≠ 0) ∧
      (∃ Y M D H MI S B, ∀ fuel, B ≤ fuel → ∀ q : Nat,
        nth (filterNext (Iter.next c) mo.matches fuel) q it = some (.err (.outOfBounds Y M D H MI S))) ∧
      (∀ fuel, 1 ≤ fuel → ∀ q : Nat, MonthlyItem c m n q (nth (withoutNext (Iter.next c) mo.matches fuel) q it)))) := by
  have items := monthly_items c hc m hm hd n (by omega) hmax mo it hit
  have hwo : ∀ fuel, withoutNext (Iter.next c) mo.matches fuel = filterNext (Iter.next c) (negated mo.matches) fuel := by
    intro fuel; funext s; exact without_eq_filter _ _ _ _
  have hneg : ∀ {t b}, mo.matches t = .ok b → negated mo.matches t = .ok (!b) := by
    intro t b h
    unfold negated
    rw [h]
  -- the end
  obtain ⟨K, hK⟩ : ∃ K : Nat, 12 * (c.maxYear + 1) - Cal.monthIndex m.year m.month ≤ K :=
    ⟨(12 * (c.maxYear + 1) - Cal.monthIndex m.year m.month).toNat, by omega⟩
  have hend : ∃ Y M D H MI S, ∀ j, K ≤ j → nth (Iter.next c) j it = some (.err (.outOfBounds Y M D H MI S)) := by
    obtain ⟨⟨Y, M, h1, h2, h3, h4⟩, h5⟩ := items K
    have h6 : (K : Int) * 1 ≤ K * n := Int.mul_le_mul_of_nonneg_left hn (by omega)
    rcases h4 with ⟨h4, -⟩ | ⟨-, Y', M', D, H, MI, S, h4⟩
    · exfalso
      rw [show Cal.monthIndex Y M = 12 * Y + (M - 1) from rfl] at h3
      omega
    · rcases h5 with ⟨t, h5, -⟩ | h5
      · rw [h4] at h5; cases h5
      · exact h5
  obtain ⟨Y, M, D, H, MI, S, hend⟩ := hend
  have never : ∀ (T : TT → Out Bool), (∀ k t, nth (Iter.next c) k it = some (.ok t) →
        mo.matches t = .ok ((m.month + (k : Int) * n - mo.into) % 12 == 0) → T t = .ok false) →
      ∃ Y M D H MI S B, ∀ fuel, B ≤ fuel → ∀ q : Nat,
        nth (filterNext (Iter.next c) T fuel) q it = some (.err (.outOfBounds Y M D H MI S)) := by
    intro T hT
    refine ⟨Y, M, D, H, MI, S, K + 1, fun fuel hf q => ?_⟩
    refine filter_never hend (fun k _ => ?_) fuel (by omega) q
    rcases (items k).2 with ⟨t, h1, h2⟩ | ⟨Y, M, D, H, MI, S, h⟩
    · exact .inl ⟨t, h1, hT k t h1 h2⟩
    · exact .inr ⟨_, h⟩
  obtain ⟨p, hp, ⟨k0, hk0, hk⟩ | hno⟩ := residue12 m.month mo.into n
  · refine ⟨p, hp, .inl ⟨k0, hk0, (hk k0).2 (Nat.mod_eq_of_lt hk0), fun fuel hf q => ?_, fun hp2 fuel hf q => ?_, fun hp1 => ?_⟩⟩
    · rw [filter_periodic (nx := Iter.next c) (M := mo.matches) (s := it) hk0 hf (fun k => by
        rcases (items k).2 with ⟨t, h1, h2⟩ | ⟨Y, M, D, H, MI, S, h⟩
        · refine .inl ⟨_, h1, ?_⟩
          rw [h2]
          congr 1
          rw [Bool.eq_iff_iff, beq_iff_eq, beq_iff_eq]
          exact hk k
        · exact .inr ⟨_, h⟩) q]
      exact (items _).1
    · rw [hwo, filter_but_periodic (nx := Iter.next c) (M := negated mo.matches) (s := it) hp2 hk0 hf (fun k => by
        rcases (items k).2 with ⟨t, h1, h2⟩ | ⟨Y, M, D, H, MI, S, h⟩
        · refine .inl ⟨_, h1, ?_⟩
          rw [hneg h2]
          congr 2
          rw [Bool.eq_iff_iff, beq_iff_eq, beq_iff_eq]
          exact hk k
        · exact .inr ⟨_, h⟩) q]
      exact (items _).1
    · simp only [hwo]
      refine never _ fun k t _ h2 => ?_
      rw [hneg h2, beq_iff_eq.2 ((hk k).2 (by rw [hp1, Nat.mod_one]; omega))]
      rfl
  · refine ⟨p, hp, .inr ⟨hno, never _ fun k t _ h2 => ?_, fun fuel hf q => ?_⟩⟩
    · rw [h2, beq_eq_false_iff_ne.2 (hno k)]
    · rw [hwo, filter_positions (nx := Iter.next c) (M := negated mo.matches) (s := it) (P := fun _ => true) (pos := fun q => q) hf (by omega)
        (fun q => by omega) (fun q => by omega) (fun q => rfl) (fun i hi => by omega) (fun q i h1 h2 => by omega)
        (fun k => by
          rcases (items k).2 with ⟨t, h1, h2⟩ | ⟨Y, M, D, H, MI, S, h⟩
          · refine .inl ⟨_, h1, ?_⟩
            rw [hneg h2, beq_eq_false_iff_ne.2 (hno k)]
            rfl
          · exact .inr ⟨_, h⟩) q]
      exact (items _).1

/-- Every tenth month from February 2017 (a period of six steps): February, December, October, August, June, April. The second August comes at position 9. -/
example : (at_ 2017 2 15 10 30 0).Valid (std .debug) ∧ Int.gcd 10 12 = 2 ∧
    Ext.monthly (.moment (at_ 2017 2 15 10 30 0)) 10 = .ok ⟨.moment (at_ 2017 2 15 10 30 0), .months 10, false⟩ ∧
    nth (filterNext (Iter.next (std .debug)) Month.august.matches 6) 1 ⟨.moment (at_ 2017 2 15 10 30 0), .months 10, false⟩ =
      some (.ok (.moment (at_ 2024 8 15 10 30 0))) ∧
    nth (withoutNext (Iter.next (std .debug)) Month.august.matches 2) 3 ⟨.moment (at_ 2017 2 15 10 30 0), .months 10, false⟩ =
      some (.ok (.moment (at_ 2020 6 15 10 30 0))) := by
  decide +kernel

end Props
