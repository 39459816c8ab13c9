import Verif.Lemmas.Birthday
import Verif.Props.Filtered
import Verif.Props.LateDays

/-!
# C167: a day of the year on a given weekday

Birthdays on a Sunday are `yearly(1).every(Sunday)` from the day of birth.
-/

namespace Props
open Kairos Spec

/-- **C167.** `yearly(1).every(day)` from any date but 29 February: `pos` lists the years (counted from the start) in which that day of the year has that weekday, all
of them and no other. The first is one of the first twelve, and each of the others five to twelve years after the one before it. The item at position `q` is the date in year
`pos q`, at the same time of day, or an OutOfBounds error if that is past chrono's last year. No call looks at more than twelve years. -/
theorem C167_found (c : Cfg) (hc : Sane c) (m : Moment) (hm : m.Valid c) (hd : ¬ (m.month = 2 ∧ m.day = 29)) (d : Day) (it : Iter)
    (hit : Ext.yearly (.moment m) 1 = .ok it) :
    ∃ pos : Nat → Nat, pos 0 < 12 ∧ (∀ q, pos q + 5 ≤ pos (q + 1) ∧ pos (q + 1) ≤ pos q + 12) ∧
      (∀ k : Nat, (∃ q, pos q = k) ↔ Cal.weekday (m.year + k) m.month m.day = d.into) ∧
      ∀ fuel, 12 ≤ fuel → ∀ q : Nat,
        (m.year + pos q ≤ c.maxYear → nth (filterNext (Iter.next c) d.matches fuel) q it =
          some (.ok (.moment { m with year := m.year + pos q, nano := if pos q = 0 then m.nano else 0 }))) ∧
        (c.maxYear < m.year + pos q → ∃ Y M D H MI S, nth (filterNext (Iter.next c) d.matches fuel) q it = some (.err (.outOfBounds Y M D H MI S))) := by
  have hb : Iter.build m (.years 1) = .ok it := by
    rw [(C33_named c (.moment m) 1).2.2.2.2.1, (C33_every _ _).1 m rfl] at hit; exact hit
  have hb' : it = ⟨.moment m, amt .year 1, false⟩ := by
    rw [(C33_build m (.years 1)).1 ⟨.year, _, rfl⟩] at hb; cases hb; rfl
  have hy := hm.1
  have hkth : ∀ k : Nat, (m.year + k ≤ c.maxYear ∧ nth (Iter.next c) k it =
        some (.ok (.moment { m with year := m.year + k, nano := if k = 0 then m.nano else 0 }))) ∨
      (c.maxYear < m.year + k ∧ ∃ Y' M' D H MI S, nth (Iter.next c) k it = some (.err (.outOfBounds Y' M' D H MI S))) := by
    intro k
    have h := C35_yearly c hc m hm hd 1 (by decide) it hb k
    rw [Int.mul_one] at h
    rcases h with ⟨-, h1, h2⟩ | ⟨h1, h2⟩
    · exact .inl ⟨h1, h2⟩
    · exact .inr ⟨by omega, h2⟩
  have hd0 : 0 ≤ d.into ∧ d.into < 7 := by cases d <;> decide
  let P : Nat → Bool := fun k => Cal.weekday (m.year + k) m.month m.day == d.into
  obtain ⟨pos, h0, hinc, hstep, hpos, hgap0, hgap⟩ := positions_exist P 12 (fun a => by
    obtain ⟨k, h1, h2⟩ := Cal.weekday_years (m.year + a) m.month m.day d.into hd0
    refine ⟨k, h1, ?_⟩
    simp only [P, beq_iff_eq]
    rw [show m.year + ((a + k : Nat) : Int) = m.year + a + k by omega]
    exact h2)
  have hP : ∀ q, Cal.weekday (m.year + pos q) m.month m.day = d.into := fun q => by simpa [P] using hpos q
  refine ⟨pos, h0, fun q => ⟨?_, hstep q⟩, fun k => ⟨?_, fun h => positions_all hinc hgap0 hgap k (by simpa [P] using h)⟩, fun fuel hf q => ?_⟩
  · have := hinc q
    apply Classical.byContradiction
    intro h
    refine Cal.weekday_years_apart (m.year + pos q) m.month m.day (pos (q + 1) - pos q) (by omega) (by omega) ?_
    rw [hP q, show m.year + (pos q : Int) + ((pos (q + 1) - pos q : Nat) : Int) = m.year + pos (q + 1) by omega]
    exact hP (q + 1)
  · rintro ⟨q, rfl⟩
    exact hP q
  · rw [filter_positions (nx := Iter.next c) (M := d.matches) (s := it) hf h0 hinc hstep hpos hgap0 hgap (fun k => by
      rcases hkth k with ⟨-, h⟩ | ⟨-, Y, M, D, H, MI, S, h⟩
      · refine .inl ⟨_, h, ?_⟩
        simp only [Day.matches, TT.getMoment, Option.map_some, OutE.ofOption, Moment.weekday, P]
        congr 1
        rw [Bool.eq_iff_iff, beq_iff_eq, beq_iff_eq]
        exact eq_comm
      · subst hb'
        exact .inr ⟨_, fun j hj => built_err_forever rfl h j hj⟩) q]
    rcases hkth (pos q) with ⟨h, g⟩ | ⟨h, g⟩
    · exact ⟨fun _ => g, fun h' => by omega⟩
    · exact ⟨fun h' => by omega, fun _ => g⟩

/-- New Year's Days on a Monday from 1897 on; and the first on a Thursday from 1892 on (after that of 1891), for which eleven years are not enough. -/
example : (List.range 3).map (fun q => nth (filterNext (Iter.next (std .debug)) (Day.matches .monday) 12) q ⟨.moment (at_ 1897 1 1 0 0 0), .years 1, false⟩) =
      [some (.ok (.moment (at_ 1900 1 1 0 0 0))), some (.ok (.moment (at_ 1906 1 1 0 0 0))), some (.ok (.moment (at_ 1912 1 1 0 0 0)))] ∧
    nth (filterNext (Iter.next (std .debug)) (Day.matches .thursday) 12) 0 ⟨.moment (at_ 1892 1 1 0 0 0), .years 1, false⟩ = some (.ok (.moment (at_ 1903 1 1 0 0 0))) ∧
    nth (filterNext (Iter.next (std .debug)) (Day.matches .thursday) 11) 0 ⟨.moment (at_ 1892 1 1 0 0 0), .years 1, false⟩ = some .oof := by
  decide +kernel

example := C167_found (std .debug) (sane_std _) (at_ 1897 1 1 0 0 0) (by decide) (by decide) .monday _ rfl

/-- **C167, 29 February.** From 29 February `yearly(1)` goes on with 1 March of every year (C80). `pos` lists the years in which that (in the first year 29 February) has the
weekday, all of them and no other; no call looks at more than thirteen years. -/
theorem C167_from_29_february (c : Cfg) (hc : Sane c) (m : Moment) (hm : m.Valid c) (hd : m.month = 2 ∧ m.day = 29) (d : Day) (it : Iter)
    (hit : Ext.yearly (.moment m) 1 = .ok it) :
    ∃ pos : Nat → Nat, pos 0 < 13 ∧ (∀ q, pos q < pos (q + 1) ∧ pos (q + 1) ≤ pos q + 13) ∧
      (∀ k : Nat, (∃ q, pos q = k) ↔ (if k = 0 then Cal.weekday m.year 2 29 else Cal.weekday (m.year + k) 3 1) = d.into) ∧
      ∀ fuel, 13 ≤ fuel → ∀ q : Nat,
        (m.year + pos q ≤ c.maxYear → nth (filterNext (Iter.next c) d.matches fuel) q it =
          some (.ok (.moment (if pos q = 0 then m else { m with year := m.year + pos q, month := 3, day := 1, nano := 0 })))) ∧
        (c.maxYear < m.year + pos q → ∃ Y M D H MI S, nth (filterNext (Iter.next c) d.matches fuel) q it = some (.err (.outOfBounds Y M D H MI S))) := by
  have hb' : it = ⟨.moment m, .years 1, false⟩ := by
    rw [(C33_named c (.moment m) 1).2.2.2.2.1, (C33_every _ _).1 m rfl, (C33_build m (.years 1)).1 ⟨.year, _, rfl⟩] at hit
    cases hit; rfl
  have hy := hm.1
  have hl : Cal.isLeap m.year = true := by
    have := hm.2.2.1.2.2.2
    rw [hd.1, hd.2] at this
    cases h : Cal.isLeap m.year
    · simp [Cal.monthLen, h] at this
    · rfl
  have hl1 : Cal.isLeap (m.year + 1) = false := by
    revert hl
    unfold Cal.isLeap
    simp only [Bool.and_eq_true, Bool.or_eq_true, beq_iff_eq, bne_iff_ne, Bool.and_eq_false_iff, Bool.or_eq_false_iff, beq_eq_false_iff_ne]
    omega
  have hkth : ∀ k : Nat, (m.year + k ≤ c.maxYear ∧ nth (Iter.next c) k it =
        some (.ok (.moment (if k = 0 then m else { m with year := m.year + k, month := 3, day := 1, nano := 0 })))) ∨
      (c.maxYear < m.year + k ∧ ∃ Y' M' D H MI S, nth (Iter.next c) k it = some (.err (.outOfBounds Y' M' D H MI S))) := by
    intro k
    have h := C80_from_29_february_partial c hc m hm hd 1 (by decide) it hit k
    simp only [Int.mul_one] at h
    rcases h with ⟨-, h1, h2, h3⟩ | ⟨h1, h2⟩
    · refine .inl ⟨h1, ?_⟩
      by_cases hk : k = 0
      · subst hk
        rw [h2 (fun j hj => by rw [show j = 0 by omega]; simpa using hl)]
        simp
      · rw [h3 ⟨1, by omega, by simpa using hl1⟩, if_neg hk]
    · exact .inr ⟨by omega, h2⟩
  have hd0 : 0 ≤ d.into ∧ d.into < 7 := by cases d <;> decide
  let P : Nat → Bool := fun k => (if k = 0 then Cal.weekday m.year 2 29 else Cal.weekday (m.year + k) 3 1) == d.into
  obtain ⟨pos, h0, hinc, hstep, hpos, hgap0, hgap⟩ := positions_exist P 13 (fun a => by
    obtain ⟨k, h1, h2⟩ := Cal.weekday_years (m.year + a + 1) 3 1 d.into hd0
    refine ⟨k + 1, by omega, ?_⟩
    simp only [P, beq_iff_eq]
    rw [if_neg (by omega), show m.year + ((a + (k + 1) : Nat) : Int) = m.year + a + 1 + k by omega]
    exact h2)
  refine ⟨pos, h0, fun q => ⟨hinc q, hstep q⟩, fun k => ⟨?_, fun h => positions_all hinc hgap0 hgap k (by simpa only [P, beq_iff_eq] using h)⟩, fun fuel hf q => ?_⟩
  · rintro ⟨q, rfl⟩
    simpa only [P, beq_iff_eq] using hpos q
  · rw [filter_positions (nx := Iter.next c) (M := d.matches) (s := it) hf h0 hinc hstep hpos hgap0 hgap (fun k => by
      rcases hkth k with ⟨-, h⟩ | ⟨-, Y, M, D, H, MI, S, h⟩
      · refine .inl ⟨_, h, ?_⟩
        simp only [Day.matches, TT.getMoment, Option.map_some, OutE.ofOption, Moment.weekday, P]
        congr 1
        rw [Bool.eq_iff_iff, beq_iff_eq, beq_iff_eq]
        split
        · rw [hd.1, hd.2]; exact eq_comm
        · exact eq_comm
      · subst hb'
        exact .inr ⟨_, fun j hj => built_err_forever rfl h j hj⟩) q]
    rcases hkth (pos q) with ⟨h, g⟩ | ⟨h, g⟩
    · exact ⟨fun _ => g, fun h' => by omega⟩
    · exact ⟨fun h' => by omega, fun _ => g⟩

/-- 29 February 2016 was a Monday; the next 1 March on a Monday was in 2021. -/
example := C167_from_29_february (std .debug) (sane_std _) (at_ 2016 2 29 8 0 0) (by decide) (by decide) .monday _ rfl
example : (List.range 2).map (fun q => nth (filterNext (Iter.next (std .debug)) (Day.matches .monday) 13) q ⟨.moment (at_ 2016 2 29 8 0 0), .years 1, false⟩) =
    [some (.ok (.moment (at_ 2016 2 29 8 0 0))), some (.ok (.moment (at_ 2021 3 1 8 0 0)))] := by decide +kernel

end Props
