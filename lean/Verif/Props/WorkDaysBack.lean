import Verif.Props.WorkDays
import Verif.Props.LastWeekday

/-!
# C172: the first and the last working days of a month
-/

namespace Props
open Kairos Spec

private theorem without_filter {σ : Type} (nx : σ → σ × Item) (M : TT → Out Bool) (fuel : Nat) :
    withoutNext nx M fuel = filterNext nx (negated M) fuel := by
  funext s; exact without_eq_filter _ _ _ _

/-- **C172, backwards.** `daily(-1).without(Saturday).without(Sunday)`, and likewise with the two in the other order, from any date: the item at position `q` is the working day number
`q` from the date back (the date included), at the time of day of the start, as long as that is in the same month; after that every call is an OutOfBounds error. -/
theorem C172_backwards (c : Cfg) (hc : Sane c) (m : Moment) (hm : m.Valid c) (it : Iter) (hit : Ext.daily (.moment m) (-1) = .ok it)
    (a b : Day) (hab : (a = .saturday ∧ b = .sunday) ∨ (a = .sunday ∧ b = .saturday))
    (fuel1 fuel2 : Nat) (hf1 : 2 ≤ fuel1) (hf2 : 2 ≤ fuel2) (q : Nat) (item : Item)
    (hitem : item = nth (withoutNext (withoutNext (Iter.next c) a.matches fuel1) b.matches fuel2) q it) (x : Int) (hx : x = m.day - workDayBack m.weekday q) :
    (1 ≤ x → item = some (.ok (.moment { m with day := x, nano := if x = m.day then m.nano else 0 })) ∧
      (TT.moment { m with day := x }).isA .saturday = .ok false ∧ (TT.moment { m with day := x }).isA .sunday = .ok false) ∧
    (x < 1 → ∃ Y M D H MI S, item = some (.err (.outOfBounds Y M D H MI S))) := by
  have hb : Iter.build m (amt .day (-1)) = .ok it := by
    rw [(C33_named c (.moment m) (-1)).2.2.1, (C33_every _ _).1 m rfl] at hit; exact hit
  have hb' : it = ⟨.moment m, amt .day (-1), false⟩ := by
    rw [(C33_build m (amt .day (-1))).1 ⟨_, _, rfl⟩] at hb; cases hb; rfl
  have hback := back_items c hc m hm it hb
  have hw : 0 ≤ m.weekday ∧ m.weekday < 7 := by unfold Moment.weekday Cal.weekday; omega
  have hday : ∀ (y nn : Int), ({ m with day := m.day - y, nano := nn } : Moment).weekday = (m.weekday - y) % 7 := by
    intro y nn
    unfold Moment.weekday Cal.weekday Cal.dayNumber
    simp only
    omega
  -- an item, its test, or errors from there on
  have cases_ : ∀ (d : Day) (k : Nat), (∃ t, nth (Iter.next c) k it = some (.ok t) ∧ negated d.matches t = .ok (!((m.weekday - k) % 7 == d.into))) ∨
      ∃ e, ∀ j, k ≤ j → nth (Iter.next c) j it = some (.err e) := by
    intro d k
    by_cases hk : (k : Int) < m.day
    · refine .inl ⟨_, (hback k).1 hk, ?_⟩
      unfold negated
      simp only [Day.matches, TT.getMoment, Option.map_some, OutE.ofOption, hday]
      congr 2
      rw [Bool.eq_iff_iff, beq_iff_eq, beq_iff_eq]
      exact eq_comm
    · obtain ⟨Y, M, D, H, MI, S, h1⟩ := (hback k).2 (by omega)
      subst hb'
      exact .inr ⟨_, fun j hj => built_err_forever rfl h1 j hj⟩
  have main : ∃ K : Nat, (K : Int) = workDayBack m.weekday q ∧ item = nth (Iter.next c) K it := by
    have go : ∀ (k1 k2 : Nat), k1 < 7 → k2 < 6 → (∀ k : Nat, (m.weekday - k) % 7 = a.into ↔ k % 7 = k1) →
        (∀ i : Nat, (m.weekday - ((i + (i + 6 - k1) / 6 : Nat) : Int)) % 7 = b.into ↔ i % 6 = k2) →
        item = nth (Iter.next c) ((q + (q + 5 - k2) / 5) + ((q + (q + 5 - k2) / 5) + 6 - k1) / 6) it := by
      intro k1 k2 hk1 hk2 h1 h2
      have first : ∀ q, nth (withoutNext (Iter.next c) a.matches fuel1) q it = nth (Iter.next c) (q + (q + 6 - k1) / 6) it := by
        intro q
        rw [without_filter]
        refine filter_but_periodic (nx := Iter.next c) (M := negated a.matches) (s := it) (p := 7) (by decide) hk1 hf1 (fun k => ?_) q
        rcases cases_ a k with ⟨t, e1, e2⟩ | h
        · refine .inl ⟨t, e1, e2.trans ?_⟩
          congr 2
          rw [Bool.eq_iff_iff, beq_iff_eq, beq_iff_eq]
          exact h1 k
        · exact .inr h
      rw [hitem, without_filter (withoutNext (Iter.next c) a.matches fuel1),
        filter_but_periodic (nx := withoutNext (Iter.next c) a.matches fuel1) (M := negated b.matches) (s := it) (p := 6) (by decide) hk2 hf2
        (fun i => by
          rcases cases_ b (i + (i + 6 - k1) / 6) with ⟨t, e1, e2⟩ | ⟨e, h⟩
          · refine .inl ⟨t, (first i).trans e1, e2.trans ?_⟩
            congr 2
            rw [Bool.eq_iff_iff, beq_iff_eq, beq_iff_eq]
            exact h2 i
          · exact .inr ⟨e, fun j hj => (first j).trans (h _ (by omega))⟩) q, first]
    have hW : 0 ≤ (4 - m.weekday) % 7 ∧ (4 - m.weekday) % 7 < 7 := by omega
    -- going back, Saturday and Sunday change places
    rcases hab with ⟨rfl, rfl⟩ | ⟨rfl, rfl⟩
    · obtain ⟨k1, k2, e1, e2, e3, e4, e5⟩ := work_positions ((4 - m.weekday) % 7) hW q 6 5 (by decide)
      refine ⟨_, e5, go k1 k2 e1 e2 (fun k => ?_) (fun i => ?_)⟩
      · rw [← e3 k]; show _ = (5 : Int) ↔ _; omega
      · rw [← e4 i]; show _ = (6 : Int) ↔ _; generalize i + (i + 6 - k1) / 6 = z; omega
    · obtain ⟨k1, k2, e1, e2, e3, e4, e5⟩ := work_positions ((4 - m.weekday) % 7) hW q 5 6 (by decide)
      refine ⟨_, e5, go k1 k2 e1 e2 (fun k => ?_) (fun i => ?_)⟩
      · rw [← e3 k]; show _ = (6 : Int) ↔ _; omega
      · rw [← e4 i]; show _ = (5 : Int) ↔ _; generalize i + (i + 6 - k1) / 6 = z; omega
  obtain ⟨K, hK, h⟩ := main
  have hc4 := ((workDayBack_counts m.weekday).1 q (by omega)).2.1
  rw [h]
  refine ⟨fun h1 => ⟨?_, ?_, ?_⟩, fun h1 => (hback K).2 (by omega)⟩
  · rw [(hback K).1 (by omega), hx, ← hK]
    have : (m.day - (K : Int) = m.day) = (K = 0) := by rw [eq_iff_iff]; omega
    simp only [this]
  all_goals
    have := hday (workDayBack m.weekday q) m.nano
    rw [← hx] at this
    simp only [TT.isA, this, Day.into]
    congr 1
    rw [beq_eq_false_iff_ne]
    omega

/-- **C172, none left out.** Every day of the month up to the date that is neither a Saturday nor a Sunday is the day of exactly one item, and later items are earlier days. -/
theorem C172_complete (c : Cfg) (hc : Sane c) (m : Moment) (hm : m.Valid c) (it : Iter) (hit : Ext.daily (.moment m) (-1) = .ok it)
    (a b : Day) (hab : (a = .saturday ∧ b = .sunday) ∨ (a = .sunday ∧ b = .saturday))
    (fuel1 fuel2 : Nat) (hf1 : 2 ≤ fuel1) (hf2 : 2 ≤ fuel2) (items : Nat → Item)
    (hitems : items = fun q => nth (withoutNext (withoutNext (Iter.next c) a.matches fuel1) b.matches fuel2) q it) :
    (∀ d, 1 ≤ d → d ≤ m.day → (TT.moment { m with day := d }).isA .saturday = .ok false → (TT.moment { m with day := d }).isA .sunday = .ok false →
      ∃ q, ∃ r : Moment, items q = some (.ok (.moment r)) ∧ r.day = d ∧
        ∀ q' (r' : Moment), items q' = some (.ok (.moment r')) → r'.day = d → q' = q) ∧
    ∀ q q' (r r' : Moment), items q = some (.ok (.moment r)) → items q' = some (.ok (.moment r')) → q < q' →
      r.year = r'.year ∧ r.month = r'.month ∧ r'.day < r.day := by
  subst hitems
  obtain ⟨hc1, hc2⟩ := workDayBack_counts m.weekday
  have mono : ∀ (q e : Nat), workDayBack m.weekday q < workDayBack m.weekday ((q + e + 1 : Nat) : Int) := by
    intro q e
    induction e with
    | zero => exact_mod_cast (hc1 q (by omega)).2.2
    | succ e ih =>
      have := (hc1 ((q + e + 1 : Nat) : Int) (by omega)).2.2
      have h : ((q + (e + 1) + 1 : Nat) : Int) = ((q + e + 1 : Nat) : Int) + 1 := by omega
      rw [h]
      omega
  have at_item : ∀ q (r : Moment), nth (withoutNext (withoutNext (Iter.next c) a.matches fuel1) b.matches fuel2) q it = some (.ok (.moment r)) →
      r.year = m.year ∧ r.month = m.month ∧ r.day = m.day - workDayBack m.weekday q := by
    intro q r hr
    obtain ⟨g1, g2⟩ := C172_backwards c hc m hm it hit a b hab fuel1 fuel2 hf1 hf2 q _ rfl _ rfl
    by_cases h : 1 ≤ m.day - workDayBack m.weekday q
    · have := (g1 h).1
      rw [hr] at this
      cases this
      exact ⟨rfl, rfl, rfl⟩
    · obtain ⟨_, _, _, _, _, _, h2⟩ := g2 (by omega)
      rw [hr] at h2
      cases h2
  have less : ∀ q q' (r r' : Moment), nth (withoutNext (withoutNext (Iter.next c) a.matches fuel1) b.matches fuel2) q it = some (.ok (.moment r)) →
      nth (withoutNext (withoutNext (Iter.next c) a.matches fuel1) b.matches fuel2) q' it = some (.ok (.moment r')) → q < q' →
      r.year = r'.year ∧ r.month = r'.month ∧ r'.day < r.day := by
    intro q q' r r' h1 h2 hlt
    obtain ⟨a1, a2, a3⟩ := at_item q r h1
    obtain ⟨b1, b2, b3⟩ := at_item q' r' h2
    have := mono q (q' - q - 1)
    rw [show q + (q' - q - 1) + 1 = q' by omega] at this
    exact ⟨by omega, by omega, by omega⟩
  refine ⟨fun d h1 h2 h3 h4 => ?_, less⟩
  have hw : ({ m with day := d } : Moment).weekday = (m.weekday - (m.day - d)) % 7 := by
    unfold Moment.weekday Cal.weekday Cal.dayNumber
    simp only
    omega
  simp only [TT.isA, hw, Day.into, OutE.ok.injEq, beq_eq_false_iff_ne] at h3 h4
  obtain ⟨Q, hQ, e⟩ := hc2 (m.day - d) (by omega) (by omega)
  obtain ⟨q, rfl⟩ : ∃ q : Nat, Q = q := ⟨Q.toNat, by omega⟩
  have key := ((C172_backwards c hc m hm it hit a b hab fuel1 fuel2 hf1 hf2 q _ rfl d (by omega)).1 h1).1
  refine ⟨q, _, key, rfl, fun q' r' h5 h6 => ?_⟩
  rcases Nat.lt_trichotomy q' q with h | h | h
  · have : d < r'.day := (less q' q r' _ h5 key h).2.2
    omega
  · exact h
  · have : r'.day < d := (less q q' _ r' key h5 h).2.2
    omega

/-- **C172, the last.** From the end of the month of any expression with the value of a date, the first item is the last working day of the month: it is neither a Saturday nor a
Sunday, and all later days of the month are. -/
theorem C172_last (c : Cfg) (x : TT) (m e : Moment) (h : EvalsTo c x m) (he : calculate c (.endOfMonth x) = .ok (.moment e))
    (it : Iter) (hit : Ext.daily (.moment e) (-1) = .ok it) (fuel1 fuel2 : Nat) (hf1 : 2 ≤ fuel1) (hf2 : 2 ≤ fuel2) :
    ∃ r : Moment, nth (withoutNext (withoutNext (Iter.next c) Day.saturday.matches fuel1) Day.sunday.matches fuel2) 0 it = some (.ok (.moment r)) ∧ r.Valid c ∧
      r.year = m.year ∧ r.month = m.month ∧ (TT.moment r).isA .saturday = .ok false ∧ (TT.moment r).isA .sunday = .ok false ∧
      ∀ r' : Moment, r'.Valid c → r'.year = m.year → r'.month = m.month → r.day < r'.day →
        (TT.moment r').isA .saturday = .ok true ∨ (TT.moment r').isA .sunday = .ok true := by
  have hc := h.sane
  have hm := h.valid
  obtain ⟨last, h1, h2, h3⟩ := C11_end_of_month c x m h
  rw [he] at h1
  have hl := Cal.monthLen_bounds (y := m.year) hm.2.2.1.1 hm.2.2.1.2.1
  have hlast : last = Cal.monthLen m.year m.month :=
    Int.le_antisymm h2.2.2.2 (h3 _ ⟨h2.1, h2.2.1, by omega, Int.le_refl _⟩)
  subst hlast
  obtain rfl : e = at_ m.year m.month (Cal.monthLen m.year m.month) 0 0 0 := by cases h1; rfl
  have hv : ∀ x, Cal.ValidDate m.year m.month x → (at_ m.year m.month x 0 0 0).Valid c :=
    fun x hx => ⟨hm.1, hm.2.1, hx, by simp [at_, Cal.ValidTime], by simp [at_]⟩
  generalize hL : Cal.monthLen m.year m.month = L at *
  have key := (C172_backwards c hc _ (hv _ h2) it hit .saturday .sunday (by simp) fuel1 fuel2 hf1 hf2 0 _ rfl _ rfl).1
  have hw : 0 ≤ (at_ m.year m.month L 0 0 0).weekday ∧ (at_ m.year m.month L 0 0 0).weekday < 7 := by unfold Moment.weekday Cal.weekday; omega
  have hback : 0 ≤ workDayBack (at_ m.year m.month L 0 0 0).weekday (0 : Nat) ∧ workDayBack (at_ m.year m.month L 0 0 0).weekday (0 : Nat) ≤ 2 ∧
      ∀ k, 0 ≤ k → k < workDayBack (at_ m.year m.month L 0 0 0).weekday (0 : Nat) → 5 ≤ ((at_ m.year m.month L 0 0 0).weekday - k) % 7 := by
    unfold workDayBack workDay
    split <;> refine ⟨by omega, by omega, fun k _ _ => by omega⟩
  generalize workDayBack (at_ m.year m.month L 0 0 0).weekday (0 : Nat) = B at key hback
  have hd : (at_ m.year m.month L 0 0 0).day = L := rfl
  rw [hd] at key
  obtain ⟨k1, k2, k3⟩ := key (by omega)
  refine ⟨_, k1, ?_, rfl, rfl, k2, k3, fun r' v' e1 e2 hlt => ?_⟩
  · have := hv (L - B) ⟨h2.1, h2.2.1, by omega, by rw [hL]; omega⟩
    simpa [at_] using this
  · have hr4 := v'.2.2.1.2.2.2
    rw [e1, e2, hL] at hr4
    have hlt : L - B < r'.day := hlt
    have := hback.2.2 (L - r'.day) (by omega) (by omega)
    have hw' : r'.weekday = ((at_ m.year m.month L 0 0 0).weekday - (L - r'.day)) % 7 := by
      unfold Moment.weekday Cal.weekday Cal.dayNumber
      simp only [at_, e1, e2]
      omega
    simp only [TT.isA, Day.into, OutE.ok.injEq, beq_iff_eq]
    omega

/-- **C172, the first.** From the first of a month, the first item of `daily(1).without(Saturday).without(Sunday)` is the first working day of the month: it is neither a Saturday nor
a Sunday, and all earlier days of the month are. -/
theorem C172_first (c : Cfg) (hc : Sane c) (m : Moment) (hm : m.Valid c) (h1 : m.day = 1) (it : Iter) (hit : Ext.daily (.moment m) 1 = .ok it)
    (fuel1 fuel2 : Nat) (hf1 : 2 ≤ fuel1) (hf2 : 2 ≤ fuel2) :
    ∃ r : Moment, nth (withoutNext (withoutNext (Iter.next c) Day.saturday.matches fuel1) Day.sunday.matches fuel2) 0 it = some (.ok (.moment r)) ∧ r.Valid c ∧
      r.year = m.year ∧ r.month = m.month ∧ (TT.moment r).isA .saturday = .ok false ∧ (TT.moment r).isA .sunday = .ok false ∧
      ∀ r' : Moment, r'.Valid c → r'.year = m.year → r'.month = m.month → r'.day < r.day →
        (TT.moment r').isA .saturday = .ok true ∨ (TT.moment r').isA .sunday = .ok true := by
  have hl := Cal.monthLen_bounds (y := m.year) hm.2.2.1.1 hm.2.2.1.2.1
  have hw : 0 ≤ m.weekday ∧ m.weekday < 7 := by unfold Moment.weekday Cal.weekday; omega
  have hon : 0 ≤ workDay m.weekday (0 : Nat) ∧ workDay m.weekday (0 : Nat) ≤ 2 ∧ ∀ k, 0 ≤ k → k < workDay m.weekday (0 : Nat) → 5 ≤ (m.weekday + k) % 7 := by
    unfold workDay
    split <;> refine ⟨by omega, by omega, fun k _ _ => by omega⟩
  have ht := hm.2.2.2.1
  obtain ⟨t1, t2, t3, t4, t5, t6⟩ := ht
  rcases C118_work_days c hc m hm it hit .saturday .sunday (by simp) fuel1 fuel2 hf1 hf2 0 _ rfl with ⟨r, e1, v, hd, e2, e3⟩ | ⟨i, -⟩
  · generalize workDay m.weekday (0 : Nat) = B at hd hon
    have hd' := hd.1
    obtain ⟨f1, f2, f3⟩ := Cal.dayNumber_inj v.2.2.1 (y' := m.year) (m' := m.month) (d' := 1 + B) ⟨hm.2.2.1.1, hm.2.2.1.2.1, by omega, by omega⟩ (by
      rw [hd', h1]; unfold Cal.dayNumber; omega)
    refine ⟨r, e1, v, f1, f2, e2, e3, fun r' v' g1 g2 hlt => ?_⟩
    have := hon.2.2 (r'.day - 1) (by have := v'.2.2.1.2.2.1; omega) (by omega)
    have hw' : r'.weekday = (m.weekday + (r'.day - 1)) % 7 := by
      unfold Moment.weekday Cal.weekday Cal.dayNumber
      simp only [g1, g2, h1]
      omega
    simp only [TT.isA, Day.into, OutE.ok.injEq, beq_iff_eq]
    omega
  · exfalso
    generalize workDay m.weekday (0 : Nat) = B at i hon
    have v1 : Cal.ValidDate (c.maxYear + 1) 1 1 := ⟨by decide, by decide, by decide, by have := Cal.monthLen_bounds (y := c.maxYear + 1) (m := 1) (by decide) (by decide); omega⟩
    have v3 : Cal.ValidDate m.year m.month (1 + B) := ⟨hm.2.2.1.1, hm.2.2.1.2.1, by omega, by omega⟩
    have := (Cal.dayNumber_lt_iff v3 v1).2 (.inl (by have := hm.2.1; omega))
    unfold Moment.instant Cal.instant at i
    unfold Cal.dayNumber at this i
    rw [h1] at i
    omega

/-- The last working day of July 2017 is Monday the 31st, that of September Friday the 29th (the 30th is a Saturday), that of April Friday the 28th; the first of October Monday the
2nd. -/
example : ((List.range 3).map fun q => nth (withoutNext (withoutNext (Iter.next (std .debug)) Day.saturday.matches 2) Day.sunday.matches 2) q ⟨.moment (at_ 2017 4 30 0 0 0), .days (-1), false⟩) =
      [some (.ok (.moment (at_ 2017 4 28 0 0 0))), some (.ok (.moment (at_ 2017 4 27 0 0 0))), some (.ok (.moment (at_ 2017 4 26 0 0 0)))] ∧
    nth (withoutNext (withoutNext (Iter.next (std .debug)) Day.saturday.matches 2) Day.sunday.matches 2) 0 ⟨.moment (at_ 2017 10 1 8 0 0), .days 1, false⟩ =
      some (.ok (.moment (at_ 2017 10 2 8 0 0))) := by decide +kernel
example := C172_backwards (std .debug) (sane_std _) (at_ 2017 4 30 0 0 0) (by decide) _ rfl .sunday .saturday (by decide) 2 2 (by decide) (by decide) 1 _ rfl 27 (by decide)
example := C172_complete (std .debug) (sane_std _) (at_ 2017 4 30 0 0 0) (by decide) _ rfl .saturday .sunday (by decide) 2 2 (by decide) (by decide) _ rfl
example := C172_last (std .debug) (.moment (at_ 2017 3 15 9 0 0) + .months 1) (at_ 2017 4 15 9 0 0) (at_ 2017 4 30 0 0 0)
  ⟨sane_std _, by decide +kernel, by decide⟩ (by decide +kernel) _ rfl 2 2 (by decide) (by decide)
example := C172_first (std .debug) (sane_std _) (at_ 2017 10 1 8 0 0) (by decide) (by decide) _ rfl 2 2 (by decide) (by decide)

end Props
