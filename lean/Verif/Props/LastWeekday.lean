import Verif.Props.NthWeekday
import Verif.Props.Backwards
import Verif.Props.EndOf

/-!
# C164: the last of a weekday in a month
-/

namespace Props
open Kairos Spec

/-- The dates of `daily(-1)`, as long as the month lasts. -/
theorem back_items (c : Cfg) (hc : Sane c) (m : Moment) (hm : m.Valid c) (it : Iter) (hit : Iter.build m (amt .day (-1)) = .ok it) (k : Nat) :
    ((k : Int) < m.day → nth (Iter.next c) k it =
      some (.ok (.moment { m with day := m.day - k, nano := if k = 0 then m.nano else 0 }))) ∧
    (m.day ≤ k → ∃ Y M D H MI S, nth (Iter.next c) k it = some (.err (.outOfBounds Y M D H MI S))) := by
  obtain ⟨h1, h2⟩ := C85_refuted c hc m hm .day 1 (m.day - 1) (by decide) (.inr (.inr (.inr ⟨rfl, by decide, rfl⟩))) it hit k
  refine ⟨fun hk => ?_, fun hk => h2 (by omega)⟩
  obtain ⟨r, hr, hi⟩ := h1 (by omega)
  rcases C85_exact_or_over_partial c hc m hm .day (by simp) (-1) (by decide) (by decide) it hit k with ⟨r', hr', v, i, hn⟩ | ⟨_, _, _, _, _, _, h⟩
  · rw [hr] at hr'
    cases hr'
    have hd := daysLater_of_instant (N := -k) hm v (by rw [i]; simp only [TUnit.secs]; omega)
    obtain ⟨-, -, ⟨a1, a2, a3, a4⟩, -⟩ := id hm
    have := Cal.dayNumber_inj v.2.2.1 (y' := m.year) (m' := m.month) (d' := m.day - k) ⟨a1, a2, by omega, by omega⟩ (by
      rw [hd.1]; unfold Cal.dayNumber; omega)
    obtain ⟨e1, e2, e3⟩ := this
    obtain ⟨-, e4, e5, e6⟩ := hd
    rw [hr]
    obtain ⟨y, mo, d, h, mi, s, nn⟩ := r
    simp only at e1 e2 e3 e4 e5 e6 hn
    subst e1 e2 e3 e4 e5 e6 hn
    rfl
  · rw [h k (Nat.le_refl _)] at hr; cases hr

/-- **C164.** `daily(-1).every(day)` from any date: its dates are the days of that month with that weekday from the date back to the first of the month, the latest
first, a week apart, at the time of day of the start; when there is none left in the month, every call is an OutOfBounds error. No call looks at more than seven days. -/
theorem C164_backwards (c : Cfg) (hc : Sane c) (m : Moment) (hm : m.Valid c) (d : Day) (it : Iter) (hit : Ext.daily (.moment m) (-1) = .ok it)
    (fuel : Nat) (hf : 7 ≤ fuel) (q : Nat) (x : Int) (hx : x = m.day - (m.weekday - d.into) % 7 - 7 * q) :
    (1 ≤ x → nth (filterNext (Iter.next c) d.matches fuel) q it =
        some (.ok (.moment { m with day := x, nano := if x = m.day then m.nano else 0 })) ∧
      (TT.moment { m with day := x, nano := if x = m.day then m.nano else 0 }).isA d = .ok true) ∧
    (x < 1 → ∃ Y M D H MI S, nth (filterNext (Iter.next c) d.matches fuel) q it = some (.err (.outOfBounds Y M D H MI S))) := by
  have hb : Iter.build m (amt .day (-1)) = .ok it := by
    rw [(C33_named c (.moment m) (-1)).2.2.1, (C33_every _ _).1 m rfl] at hit; exact hit
  have hb' : it = ⟨.moment m, amt .day (-1), false⟩ := by
    rw [(C33_build m (amt .day (-1))).1 ⟨_, _, rfl⟩] at hb; cases hb; rfl
  have hd0 : 0 ≤ d.into ∧ d.into < 7 := by cases d <;> decide
  have hitem := back_items c hc m hm it hb
  have hday : ∀ k : Nat, (k : Int) < m.day →
      ({ m with day := m.day - k, nano := if k = 0 then m.nano else 0 } : Moment).weekday = (m.weekday - k) % 7 := by
    intro k _
    unfold Moment.weekday Cal.weekday Cal.dayNumber
    simp only
    omega
  have hw : 0 ≤ m.weekday ∧ m.weekday < 7 := by unfold Moment.weekday Cal.weekday; omega
  have key := filter_periodic (nx := Iter.next c) (M := d.matches) (s := it) (p := 7) (off := ((m.weekday - d.into) % 7).toNat)
    (by omega) hf (fun k => by
      by_cases hk : (k : Int) < m.day
      · refine .inl ⟨_, (hitem k).1 hk, ?_⟩
        simp only [Day.matches, TT.getMoment, Option.map_some, OutE.ofOption, hday k hk]
        congr 1
        rw [Bool.eq_iff_iff]
        simp only [beq_iff_eq]
        omega
      · obtain ⟨Y, M, D, H, MI, S, h1⟩ := (hitem k).2 (by omega)
        subst hb'
        exact .inr ⟨_, fun j hj => built_err_forever rfl h1 j hj⟩) q
  rw [key]
  have hcast : ((((m.weekday - d.into) % 7).toNat + 7 * q : Nat) : Int) = (m.weekday - d.into) % 7 + 7 * q := by omega
  generalize ((m.weekday - d.into) % 7).toNat + 7 * q = K at hcast ⊢
  refine ⟨fun h => ?_, fun h => (hitem K).2 (by omega)⟩
  have e : ({ m with day := x, nano := if x = m.day then m.nano else 0 } : Moment) =
      { m with day := m.day - K, nano := if K = 0 then m.nano else 0 } := by
    have h1 : x = m.day - K := by omega
    have h2 : (m.day - K = m.day) = (K = 0) := by rw [eq_iff_iff]; omega
    subst h1
    simp only [h2]
  rw [e]
  refine ⟨(hitem K).1 (by omega), ?_⟩
  simp only [TT.isA, hday K (by omega)]
  congr 1
  rw [beq_iff_eq]
  omega

/-- **C164.** So, from the end of the month of any expression with the value of a date (`end_of_month`), the first of them is the last day of the month with that weekday, the one at position `q` the last
but `q`; every month has four, and the fifth call is a date exactly if it has five. Every day of the month with that weekday is one of them. -/
theorem C164_last (c : Cfg) (x : TT) (m e : Moment) (h : EvalsTo c x m) (he : calculate c (.endOfMonth x) = .ok (.moment e)) (d : Day)
    (it : Iter) (hit : Ext.daily (.moment e) (-1) = .ok it) (fuel : Nat) (hf : 7 ≤ fuel) :
    (∀ q : Nat, q < 4 → ∃ r, nth (filterNext (Iter.next c) d.matches fuel) q it = some (.ok (.moment r)) ∧ r.Valid c ∧
      r.year = m.year ∧ r.month = m.month ∧ (TT.moment r).isA d = .ok true ∧
      Cal.monthLen m.year m.month - 7 * (q + 1) < r.day ∧ r.day ≤ Cal.monthLen m.year m.month - 7 * q) ∧
    (∀ r' : Moment, r'.Valid c → r'.year = m.year → r'.month = m.month → (TT.moment r').isA d = .ok true →
      ∃ q r, nth (filterNext (Iter.next c) d.matches fuel) q it = some (.ok (.moment r)) ∧ r.year = m.year ∧ r.month = m.month ∧ r.day = r'.day) ∧
    (∀ q r, nth (filterNext (Iter.next c) d.matches fuel) q it = some (.ok r) → q < 5) := by
  have hc := h.sane
  have hm := h.valid
  obtain ⟨last, h1, h2, h3⟩ := C11_end_of_month c x m h
  rw [he] at h1
  have hl := Cal.monthLen_bounds (y := m.year) hm.2.2.1.1 hm.2.2.1.2.1
  have hlast : last = Cal.monthLen m.year m.month :=
    Int.le_antisymm h2.2.2.2 (h3 _ ⟨h2.1, h2.2.1, by omega, Int.le_refl _⟩)
  subst hlast
  obtain rfl : e = at_ m.year m.month (Cal.monthLen m.year m.month) 0 0 0 := by cases h1; rfl
  have hv : ∀ x, Cal.ValidDate m.year m.month x → (at_ m.year m.month x 0 0 0).Valid c :=
    fun x hx => ⟨hm.1, hm.2.1, hx, by simp [at_, Cal.ValidTime], by simp [at_]⟩
  have key := C164_backwards c hc _ (hv _ h2) d it hit fuel hf
  have hd : (at_ m.year m.month (Cal.monthLen m.year m.month) 0 0 0).day = Cal.monthLen m.year m.month := rfl
  generalize hb : ((at_ m.year m.month (Cal.monthLen m.year m.month) 0 0 0).weekday - d.into) % 7 = b at key
  have hb7 : 0 ≤ b ∧ b < 7 := by omega
  rw [hd] at key
  have hyes : ∀ q : Nat, 1 ≤ Cal.monthLen m.year m.month - b - 7 * q →
      nth (filterNext (Iter.next c) d.matches fuel) q it =
        some (.ok (.moment (at_ m.year m.month (Cal.monthLen m.year m.month - b - 7 * q) 0 0 0))) ∧
      (TT.moment (at_ m.year m.month (Cal.monthLen m.year m.month - b - 7 * q) 0 0 0)).isA d = .ok true := by
    intro q hq
    have := (key q _ rfl).1 hq
    simpa [at_] using this
  refine ⟨fun q hq => ?_, fun r' v' e1 e2 ha => ?_, fun q r hr => ?_⟩
  · obtain ⟨g1, g2⟩ := hyes q (by omega)
    exact ⟨_, g1, hv _ ⟨h2.1, h2.2.1, by omega, by omega⟩, rfl, rfl, g2, by simp only [at_]; omega, by simp only [at_]; omega⟩
  · have w : r'.weekday = d.into := by simpa [TT.isA] using ha
    have hr4 := v'.2.2.1
    rw [e1, e2] at hr4
    have hdvd : (Cal.monthLen m.year m.month - b - r'.day) % 7 = 0 := by
      rw [← hb, ← w]
      unfold Moment.weekday Cal.weekday Cal.dayNumber
      simp only [at_, e1, e2]
      omega
    have hr43 := hr4.2.2.1
    have hr44 := hr4.2.2.2
    have hge : r'.day ≤ Cal.monthLen m.year m.month - b := by
      have : b = ((at_ m.year m.month (Cal.monthLen m.year m.month) 0 0 0).weekday - r'.weekday) % 7 := by rw [w]; exact hb.symm
      unfold Moment.weekday Cal.weekday Cal.dayNumber at this
      simp only [at_, e1, e2] at this
      omega
    refine ⟨((Cal.monthLen m.year m.month - b - r'.day) / 7).toNat, _, (hyes _ (by omega)).1, rfl, rfl, ?_⟩
    simp only [at_]
    omega
  · by_cases h : 1 ≤ Cal.monthLen m.year m.month - b - 7 * q
    · omega
    · obtain ⟨Y, M, D, H, MI, S, g⟩ := (key q _ rfl).2 (by omega)
      rw [g] at hr; cases hr

/-- The last Fridays of June 2017 are the 30th, the 23rd, … , the 2nd; then there are errors. -/
example : calculate (std .debug) (.endOfMonth (.moment (at_ 2017 6 15 9 0 0))) = .ok (.moment (at_ 2017 6 30 0 0 0)) ∧
    (List.range 6).map (fun q => nth (filterNext (Iter.next (std .debug)) (Day.matches .friday) 7) q ⟨.moment (at_ 2017 6 30 0 0 0), .days (-1), false⟩) =
      [some (.ok (.moment (at_ 2017 6 30 0 0 0))), some (.ok (.moment (at_ 2017 6 23 0 0 0))), some (.ok (.moment (at_ 2017 6 16 0 0 0))),
        some (.ok (.moment (at_ 2017 6 9 0 0 0))), some (.ok (.moment (at_ 2017 6 2 0 0 0))), some (.err (.outOfBounds 2017 6 0 0 0 0))] := by
  decide +kernel

example := C164_last (std .debug) (.moment (at_ 2017 5 15 9 0 0) + .months 1) (at_ 2017 6 15 9 0 0) (at_ 2017 6 30 0 0 0)
  ⟨sane_std _, by decide +kernel, by decide⟩ (by decide +kernel) .friday _ rfl 7 (by decide)

example := C164_backwards (std .debug) (sane_std _) (at_ 2017 6 15 9 0 0) (by decide) .monday _ rfl 7 (by decide) 1 5 (by decide)

end Props
