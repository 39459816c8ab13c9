import Verif.Props.EveryKth
import Verif.Props.Filtered
import Verif.Props.Resume
import Verif.Props.SameSteps

/-!
# C165: a filter or a longer step
-/

namespace Props
open Kairos Spec

/-- **C165, weekdays.** `daily(n).every(day)`, with one to four days per step, gives the same dates as `weekly(n)` started at its first date; past
chrono's last year both give OutOfBounds errors. -/
theorem C165_weeks (c : Cfg) (hc : Sane c) (m : Moment) (hm : m.Valid c) (n : Int) (hn : 1 ≤ n ∧ n ≤ 4) (d : Day) (it : Iter)
    (hit : Ext.daily (.moment m) n = .ok it) (fuel : Nat) (hf : 7 ≤ fuel) (r : Moment)
    (hr : nth (filterNext (Iter.next c) d.matches fuel) 0 it = some (.ok (.moment r))) (it' : Iter) (hit' : Ext.weekly c (.moment r) n = .ok it') (q : Nat) :
    SameDate (nth (filterNext (Iter.next c) d.matches fuel) q it) (nth (Iter.next c) q it') := by
  have hd0 : 0 ≤ d.into ∧ d.into < 7 := by cases d <;> decide
  obtain ⟨k0, hk0, hk⟩ := residue7 m.weekday d.into n hd0 (by omega)
  have key : ∀ q, nth (filterNext (Iter.next c) d.matches fuel) q it = nth (Iter.next c) (k0 + 7 * q) it :=
    filter_periodic (nx := Iter.next c) (M := d.matches) (s := it) hk0 hf (fun k => by
      rcases daily_items c hc m hm n (by omega) d it hit k with ⟨r, h1, -, -, h2⟩ | ⟨-, Y, M, D, H, MI, S, h⟩
      · refine .inl ⟨_, h1, ?_⟩
        rw [h2]
        congr 1
        rw [Bool.eq_iff_iff, beq_iff_eq, beq_iff_eq]
        exact hk k
      · exact .inr ⟨_, h⟩)
  rw [key] at hr ⊢
  have v : r.Valid c := by
    rcases daily_items c hc m hm n (by omega) d it hit (k0 + 7 * 0) with ⟨r', h1, h2, -, -⟩ | ⟨-, Y, M, D, H, MI, S, h⟩
    · rw [hr] at h1; cases h1; exact h2
    · have := h _ (Nat.le_refl _); rw [hr] at this; cases this
  have hb : Iter.build m (.days n) = .ok it := by
    rw [(C33_named c (.moment m) n).2.2.1, (C33_every _ _).1 m rfl] at hit; exact hit
  have hb' : Iter.build r (amt .day ((7 : Nat) * n)) = .ok it' := by
    rw [(C33_named c (.moment r) n).2.2.2.2.2.1 (by omega), (C33_every _ _).1 r rfl] at hit'; exact hit'
  have h1 := C102_resume c m r (.days n) it ⟨.moment r, .days n, false⟩ hb k0 hr ((C33_build r (amt .day n)).1 ⟨_, _, rfl⟩) (q * 7)
  have h2 := C159_up_to_30_days_partial c hc r v .day (by simp) n (by omega) 7 (by omega) (by simp only [TUnit.secs]; omega)
    ⟨.moment r, .days n, false⟩ it' ((C33_build r (amt .day n)).1 ⟨_, _, rfl⟩) hb' q
  rw [h1, Nat.mul_comm q 7] at h2
  exact h2

/-- **C165, months.** `monthly(1).every(month)`, from days up to the 28th, gives the same dates as `yearly(1)` started at its first date; past
chrono's last year both give OutOfBounds errors. -/
theorem C165_years (c : Cfg) (hc : Sane c) (m : Moment) (hm : m.Valid c) (hd : m.day ≤ 28) (mo : Month) (it : Iter)
    (hit : Ext.monthly (.moment m) 1 = .ok it) (fuel : Nat) (hf : 12 ≤ fuel) (r : Moment)
    (hr : nth (filterNext (Iter.next c) mo.matches fuel) 0 it = some (.ok (.moment r))) (it' : Iter) (hit' : Ext.yearly (.moment r) 1 = .ok it') (q : Nat) :
    SameDate (nth (filterNext (Iter.next c) mo.matches fuel) q it) (nth (Iter.next c) q it') := by
  have hb : Iter.build m (.months 1) = .ok it := by
    rw [(C33_named c (.moment m) 1).2.2.2.1, (C33_every _ _).1 m rfl] at hit; exact hit
  have hb' : it = ⟨.moment m, amt .month 1, false⟩ := by
    rw [(C33_build m (.months 1)).1 ⟨.month, _, rfl⟩] at hb; cases hb; rfl
  have hkth := C35_monthly c hc m hm hd 1 (by decide) (by decide) it hb
  have hd0 : 1 ≤ mo.into ∧ mo.into ≤ 12 := by cases mo <;> decide
  have hm0 : 1 ≤ m.month ∧ m.month ≤ 12 := ⟨hm.2.2.1.1, hm.2.2.1.2.1⟩
  have key : ∀ q, nth (filterNext (Iter.next c) mo.matches fuel) q it = nth (Iter.next c) (((mo.into - m.month) % 12).toNat + 12 * q) it :=
    filter_periodic (nx := Iter.next c) (M := mo.matches) (s := it) (p := 12)
    (off := ((mo.into - m.month) % 12).toNat)
    (by omega) hf (fun k => by
      obtain ⟨Y, M, h1, h2, h3, h4⟩ := hkth k
      rcases h4 with ⟨-, h4⟩ | ⟨-, Y', M', D, H, MI, S, h4⟩
      · left
        refine ⟨_, h4, ?_⟩
        simp only [Month.matches, TT.getMoment, Option.map_some, OutE.ofOption]
        congr 1
        rw [Bool.eq_iff_iff]
        simp only [beq_iff_eq]
        unfold Cal.monthIndex at h3
        omega
      · right
        subst hb'
        exact ⟨_, fun j hj => built_err_forever rfl h4 j hj⟩)
  rw [key] at hr ⊢
  generalize ((mo.into - m.month) % 12).toNat = k0 at hr ⊢
  have v : r.Valid c ∧ r.day ≤ 28 := by
    obtain ⟨Y, M, h1, h2, h3, h4⟩ := hkth (k0 + 12 * 0)
    rcases h4 with ⟨hY, h4⟩ | ⟨-, Y', M', D, H, MI, S, h4⟩ <;> rw [hr] at h4 <;> cases h4
    obtain ⟨y1, y2, ⟨-, -, v3, v4⟩, t, n⟩ := id hm
    have := Cal.monthLen_bounds (y := Y) h1 h2
    refine ⟨⟨?_, hY, ⟨h1, h2, v3, by simp only; omega⟩, t, ?_⟩, hd⟩
    · simp only; unfold Cal.monthIndex at h3; omega
    · simp only; split
      · exact n
      · omega
  have g : Iter.build r (.months 1) = .ok ⟨.moment r, .months 1, false⟩ := (C33_build r (.months 1)).1 ⟨.month, _, rfl⟩
  have g' : Iter.build r (.months ((12 : Nat) * 1)) = .ok ⟨.moment r, .months 12, false⟩ := (C33_build r (.months 12)).1 ⟨.month, _, rfl⟩
  have h1 := C102_resume c m r (.months 1) it ⟨.moment r, .months 1, false⟩ hb k0 hr g (q * 12)
  have h2 := C159_months_partial c hc r v.1 v.2 1 (by omega) 12 (by omega) (by omega) _ _ g g' q
  have h3 := C109_months_partial c hc r v.1 1 (by decide) (by decide) (by omega) (by omega) ⟨.moment r, .months 12, false⟩ it'
    (by rw [(C33_named c (.moment r) _).2.2.2.1, (C33_every _ _).1 r rfl]; exact g') hit' q
  rw [h1, h3, Nat.mul_comm q 12] at h2
  exact h2

/-- Mondays and Octobers from 15 June 2017. -/
example := C165_weeks (std .debug) (sane_std _) (at_ 2017 6 15 9 0 0) (by decide) 1 (by decide) .monday _ rfl 7 (by decide) (at_ 2017 6 19 9 0 0)
  (by decide +kernel) ⟨.moment (at_ 2017 6 19 9 0 0), .days 7, false⟩ (by decide +kernel) 3
example := C165_years (std .debug) (sane_std _) (at_ 2017 6 15 9 0 0) (by decide) (by decide) .october _ rfl 12 (by decide) (at_ 2017 10 15 9 0 0)
  (by decide +kernel) ⟨.moment (at_ 2017 10 15 9 0 0), .years 1, false⟩ (by decide +kernel) 3
example : nth (filterNext (Iter.next (std .debug)) (Day.matches .monday) 7) 3 ⟨.moment (at_ 2017 6 15 9 0 0), .days 1, false⟩ = some (.ok (.moment (at_ 2017 7 10 9 0 0))) ∧
    nth (Iter.next (std .debug)) 3 ⟨.moment (at_ 2017 6 19 9 0 0), .days 7, false⟩ = some (.ok (.moment (at_ 2017 7 10 9 0 0))) := by decide +kernel

end Props
