import Verif.Props.HowFar

/-!
# C170: the days of a month

`daily(1).every(month)` yields the days of that month, one year after the other.
-/

namespace Props
open Kairos Spec

/-- The item of `daily(1)` at position `k`: `k` days later, or an error past the last year. -/
private theorem day_item (c : Cfg) (hc : Sane c) (m : Moment) (hm : m.Valid c) (it : Iter) (hit : Iter.build m (amt .day 1) = .ok it) (k : Nat) :
    (∃ r : Moment, nth (Iter.next c) k it = some (.ok (.moment r)) ∧ r.Valid c ∧
      Cal.dayNumber r.year r.month r.day = Cal.dayNumber m.year m.month m.day + k ∧
      r.hour = m.hour ∧ r.minute = m.minute ∧ r.second = m.second ∧ r.nano = if k = 0 then m.nano else 0) ∨
    (Cal.dayNumber (c.maxYear + 1) 1 1 ≤ Cal.dayNumber m.year m.month m.day + k ∧
      ∃ Y M D H MI S, nth (Iter.next c) k it = some (.err (.outOfBounds Y M D H MI S))) := by
  have hm' := hm.2.2.2.1
  obtain ⟨t1, t2, t3, t4, t5, t6⟩ := hm'
  rcases C34_kth_item c hc m hm .day (by decide) 1 (by decide) (by decide) it hit k with ⟨r, h1, v, i, n⟩ | ⟨i, h⟩
  · obtain ⟨s1, s2, s3, s4, s5, s6⟩ := v.2.2.2.1
    simp only [Moment.instant, Cal.instant, TUnit.secs] at i
    exact .inl ⟨r, h1, v, by omega, by omega, by omega, by omega, n⟩
  · simp only [Moment.instant, Cal.instant, TUnit.secs] at i
    exact .inr ⟨by omega, h⟩

/-- The first position from `a` on whose day is in month `mo` is that of `(Y, mo, D)`, if that is the first such day. -/
private theorem month_item (c : Cfg) (hc : Sane c) (m : Moment) (hm : m.Valid c) (it : Iter) (hit : Iter.build m (amt .day 1) = .ok it) (mo : Month) (pos : Nat → Nat)
    (hpos : ∀ (k : Nat) (r : Moment), nth (Iter.next c) k it = some (.ok (.moment r)) → ((∃ q, pos q = k) ↔ (TT.moment r).isIn mo = .ok true))
    {a p : Nat} (hp : ∃ q, pos q = p) (hno : ∀ k, a ≤ k → k < p → ¬ ∃ q, pos q = k) (hap : a ≤ p) {Y D : Int} (v : Cal.ValidDate Y mo.into D)
    (hge : Cal.dayNumber m.year m.month m.day + a ≤ Cal.dayNumber Y mo.into D)
    (hleast : ∀ y d, Cal.ValidDate y mo.into d → Cal.dayNumber m.year m.month m.day + a ≤ Cal.dayNumber y mo.into d →
      Cal.dayNumber Y mo.into D ≤ Cal.dayNumber y mo.into d) :
    (Y ≤ c.maxYear → nth (Iter.next c) p it =
      some (.ok (.moment ⟨Y, mo.into, D, m.hour, m.minute, m.second, if p = 0 then m.nano else 0⟩)) ∧
        Cal.dayNumber Y mo.into D = Cal.dayNumber m.year m.month m.day + p) ∧
    (c.maxYear < Y → ∃ Y M D H MI S, nth (Iter.next c) p it = some (.err (.outOfBounds Y M D H MI S))) := by
  have isIn : ∀ r : Moment, (TT.moment r).isIn mo = .ok true ↔ r.month = mo.into := fun r => by simp [TT.isIn]
  have v1 : Cal.ValidDate (c.maxYear + 1) 1 1 := ⟨by decide, by decide, by decide, by have := Cal.monthLen_bounds (y := c.maxYear + 1) (m := 1) (by decide) (by decide); omega⟩
  have item := day_item c hc m hm it hit
  refine ⟨fun hY => ?_, fun hY => ?_⟩
  · have hlt := (Cal.dayNumber_lt_iff v v1).2 (.inl (by omega))
    obtain ⟨k, hk⟩ : ∃ k : Nat, (k : Int) = Cal.dayNumber Y mo.into D - Cal.dayNumber m.year m.month m.day := ⟨_, Int.toNat_of_nonneg (by omega)⟩
    have hpk : p ≤ k := by
      rcases item k with ⟨r, h1, w, i, -⟩ | ⟨i, -⟩
      · have e := Cal.dayNumber_inj w.2.2.1 v (by omega)
        have := (hpos k r h1).2 ((isIn r).2 e.2.1)
        apply Classical.byContradiction
        intro h
        exact hno k (by omega) (by omega) this
      · omega
    rcases item p with ⟨r, h1, w, i, e1, e2, e3, e4⟩ | ⟨i, -⟩
    · have hr := (isIn r).1 ((hpos p r h1).1 hp)
      have w' := w.2.2.1
      rw [hr] at w' i
      have := hleast _ _ w' (by omega)
      obtain ⟨f1, -, f2⟩ := Cal.dayNumber_inj w' v (by omega)
      obtain ⟨y, mm, d, hh, mi, s, nn⟩ := r
      simp only at f1 f2 e1 e2 e3 e4 hr
      rw [h1, f1, f2, e1, e2, e3, e4, hr]
      exact ⟨rfl, by omega⟩
    · omega
  · rcases item p with ⟨r, h1, w, i, -⟩ | ⟨-, h⟩
    · have hr := (isIn r).1 ((hpos p r h1).1 hp)
      have w' := w.2.2.1
      rw [hr] at w' i
      have h2 := hleast _ _ w' (by omega)
      have h3 := (Cal.dayNumber_lt_iff w' v).2 (.inl (by have := w.2.1; omega))
      omega
    · exact h

/-- **C170.** `daily(1).every(month)`. The first item is the start itself, if it is in the month, or else the first day of the month that comes next. After a day of the
month comes the next one, and after its last day the first of the same month of the next year, at the same time of day; past chrono's last year it is an OutOfBounds error.
No call looks at more than 338 items. -/
theorem C170_days (c : Cfg) (hc : Sane c) (m : Moment) (hm : m.Valid c) (mo : Month) (it : Iter) (hit : Ext.daily (.moment m) 1 = .ok it) (fuel : Nat) (hf : 338 ≤ fuel) :
    (m.month = mo.into → nth (filterNext (Iter.next c) mo.matches fuel) 0 it = some (.ok (.moment m))) ∧
    (∀ Y, Y = m.year + (if m.month < mo.into then 0 else 1) → m.month ≠ mo.into →
      (Y ≤ c.maxYear → nth (filterNext (Iter.next c) mo.matches fuel) 0 it = some (.ok (.moment ⟨Y, mo.into, 1, m.hour, m.minute, m.second, 0⟩))) ∧
      (c.maxYear < Y → ∃ Y M D H MI S, nth (filterNext (Iter.next c) mo.matches fuel) 0 it = some (.err (.outOfBounds Y M D H MI S)))) ∧
    ∀ (q : Nat) (r : Moment), nth (filterNext (Iter.next c) mo.matches fuel) q it = some (.ok (.moment r)) →
      (r.day < Cal.monthLen r.year mo.into → nth (filterNext (Iter.next c) mo.matches fuel) (q + 1) it = some (.ok (.moment { r with day := r.day + 1, nano := 0 }))) ∧
      (r.day = Cal.monthLen r.year mo.into → r.year < c.maxYear →
        nth (filterNext (Iter.next c) mo.matches fuel) (q + 1) it = some (.ok (.moment { r with year := r.year + 1, day := 1, nano := 0 }))) ∧
      (r.day = Cal.monthLen r.year mo.into → r.year = c.maxYear →
        ∃ Y M D H MI S, nth (filterNext (Iter.next c) mo.matches fuel) (q + 1) it = some (.err (.outOfBounds Y M D H MI S))) := by
  have hb : Iter.build m (amt .day 1) = .ok it := by
    rw [(C33_named c (.moment m) 1).2.2.1, (C33_every _ _).1 m rfl] at hit; exact hit
  have hmo : 1 ≤ mo.into ∧ mo.into ≤ 12 := by cases mo <;> decide
  have one : ∀ y, Cal.ValidDate y mo.into 1 := fun y => ⟨hmo.1, hmo.2, by decide, by have := Cal.monthLen_bounds (y := y) hmo.1 hmo.2; omega⟩
  obtain ⟨pos, -, hinc, hpos, hF⟩ := C168_month c hc m hm .day (by decide) 1 (by decide) (by decide) it hb mo 337 (by decide)
  have hF := hF fuel (by omega)
  have mono : ∀ q d, pos q + d ≤ pos (q + d) := by
    intro q d
    induction d with
    | zero => exact Nat.le_refl _
    | succ d ih =>
      have : pos (q + d) < pos (q + (d + 1)) := (hinc (q + d)).1
      omega
  have first : ∀ k, 0 ≤ k → k < pos 0 → ¬ ∃ q, pos q = k := by
    rintro k - h ⟨q, rfl⟩
    have := mono 0 q
    rw [Nat.zero_add] at this
    omega
  have later : ∀ q k, pos q + 1 ≤ k → k < pos (q + 1) → ¬ ∃ q', pos q' = k := by
    rintro q k h1 h2 ⟨q', rfl⟩
    rcases Nat.lt_or_ge q q' with h | h
    · have := mono (q + 1) (q' - (q + 1))
      rw [show q + 1 + (q' - (q + 1)) = q' by omega] at this
      omega
    · have := mono q' (q - q')
      rw [show q' + (q - q') = q by omega] at this
      omega
  refine ⟨fun h => ?_, fun Y hY h => ?_, fun q r hr => ?_⟩
  · have p0 : pos 0 = 0 := by
      apply Classical.byContradiction
      intro hne
      refine first 0 (by omega) (by omega) ((hpos 0 m ?_).2 (by simp [TT.isIn, h]))
      rcases day_item c hc m hm it hb 0 with ⟨r, h1, w, i, e1, e2, e3, e4⟩ | ⟨i, -⟩
      · obtain ⟨f1, f2, f3⟩ := Cal.dayNumber_inj w.2.2.1 hm.2.2.1 (by omega)
        obtain ⟨y, mm, d, hh, mi, s, nn⟩ := r
        simp only [if_true] at f1 f2 f3 e1 e2 e3 e4
        rw [h1, f1, f2, f3, e1, e2, e3, e4]
      · have v1 : Cal.ValidDate (c.maxYear + 1) 1 1 := ⟨by decide, by decide, by decide, by have := Cal.monthLen_bounds (y := c.maxYear + 1) (m := 1) (by decide) (by decide); omega⟩
        have := (Cal.dayNumber_lt_iff hm.2.2.1 v1).2 (.inl (by have := hm.2.1; omega))
        omega
    have v := hm.2.2.1
    rw [h] at v
    have := (month_item c hc m hm it hb mo pos hpos ⟨0, rfl⟩ first (by omega) v (by rw [h]; omega) (fun y d w hle => by rw [h] at hle; omega)).1 hm.2.1
    rw [hF, this.1, p0, ← h]
    rfl
  · have key := month_item c hc m hm it hb mo pos hpos (a := 0) (p := pos 0) ⟨0, rfl⟩ first (by omega) (one Y)
      (by
        have := Cal.dayNumber_lt_iff hm.2.2.1 (one Y)
        grind)
      (fun y d w hle => by
        have h1 := Cal.dayNumber_lt_iff w (one Y)
        have h2 := Cal.dayNumber_lt_iff w hm.2.2.1
        have := w.2.2.1
        grind)
    rw [hF]
    refine ⟨fun hy => ?_, key.2⟩
    obtain ⟨e1, e2⟩ := key.1 hy
    rw [e1]
    have : pos 0 ≠ 0 := by
      intro h0
      have := (Cal.dayNumber_inj hm.2.2.1 (one Y) (by omega)).2.1
      exact h this
    rw [if_neg this]
  · rw [hF] at hr
    rw [hF]
    have hrm : r.month = mo.into := by
      have := (hpos _ r hr).1 ⟨q, rfl⟩
      simpa [TT.isIn] using this
    rcases day_item c hc m hm it hb (pos q) with ⟨r', h1, w, i, e1, e2, e3, e4⟩ | ⟨-, _, _, _, _, _, _, h1⟩ <;> rw [hr] at h1 <;> cases h1
    have w' := w.2.2.1
    rw [hrm] at w' i
    have hpq := (hinc q).1
    have key := fun {Y D : Int} => month_item c hc m hm it hb mo pos hpos (a := pos q + 1) (p := pos (q + 1)) (Y := Y) (D := D) ⟨q + 1, rfl⟩ (later q) (by omega)
    obtain ⟨y, mm, d, hh, mi, s, nn⟩ := r
    simp only at hrm w' i e1 e2 e3 e4 ⊢
    subst hrm
    refine ⟨fun hd => ?_, fun hd hy => ?_, fun hd hy => ?_⟩
    · have v : Cal.ValidDate y mo.into (d + 1) := ⟨w'.1, w'.2.1, by have := w'.2.2.1; omega, by omega⟩
      rw [((key v (by unfold Cal.dayNumber at i ⊢; omega) (fun y' d' u hle => by unfold Cal.dayNumber at i hle ⊢; omega)).1 w.2.1).1,
        if_neg (by omega), e1, e2, e3]
    all_goals
      have lt := (Cal.dayNumber_lt_iff w' (one (y + 1))).2 (.inl (by omega))
      have k := key (one (y + 1)) (by omega) (fun y' d' u hle => by
        have h1 := Cal.dayNumber_lt_iff u (one (y + 1))
        have h2 := Cal.dayNumber_lt_iff w' u
        have := u.2.2.1
        have := u.2.2.2
        grind)
    · rw [(k.1 (by omega)).1, if_neg (by omega), e1, e2, e3]
    · exact k.2 (by omega)

/-- The days of February from 20 February 2016 12:00 on: the tenth is the 29th, the eleventh 1 February 2017. From a day in March. At the end of the range of dates. -/
example := C170_days (std .debug) (sane_std _) (at_ 2016 2 20 12 0 0) (by decide) .february _ rfl 338 (by decide)
example : nth (filterNext (Iter.next (std .debug)) (Month.matches .february) 338) 9 ⟨.moment (at_ 2016 2 20 12 0 0), .days 1, false⟩ = some (.ok (.moment (at_ 2016 2 29 12 0 0))) ∧
    nth (filterNext (Iter.next (std .debug)) (Month.matches .february) 338) 10 ⟨.moment (at_ 2016 2 20 12 0 0), .days 1, false⟩ = some (.ok (.moment (at_ 2017 2 1 12 0 0))) := by
  decide +kernel
example := C170_days (std .debug) (sane_std _) (at_ 2016 3 20 12 0 0) (by decide) .february _ rfl 338 (by decide)

end Props
