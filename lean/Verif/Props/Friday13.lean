import Verif.Lemmas.Friday13
import Verif.Props.Filtered

/-!
# C166: a day of the month on a given weekday

Friday the 13th is `monthly(1).every(Friday)` from a 13th.
-/

namespace Props
open Kairos Spec

/-- **C166.** `monthly(1).every(day)` from a day of the month up to the 28th: `pos` lists the months (counted from the start) in which that day of the month has that weekday, all
of them and no other. The first is one of the first fourteen and each of the others at most fourteen months after the one before it. The item at position `q` is the date in month
`pos q`, at the same time of day, or an OutOfBounds error if that is past chrono's last year. No call looks at more than fourteen months. -/
theorem C166_found (c : Cfg) (hc : Sane c) (m : Moment) (hm : m.Valid c) (hd : m.day ≤ 28) (d : Day) (it : Iter)
    (hit : Ext.monthly (.moment m) 1 = .ok it) (I : Int) (hI : I = Cal.monthIndex m.year m.month) :
    ∃ pos : Nat → Nat, pos 0 < 14 ∧ (∀ q, pos q < pos (q + 1) ∧ pos (q + 1) ≤ pos q + 14) ∧
      (∀ k : Nat, (∃ q, pos q = k) ↔ Cal.weekday ((I + k) / 12) ((I + k) % 12 + 1) m.day = d.into) ∧
      ∀ fuel, 14 ≤ fuel → ∀ q : Nat,
        ((I + pos q) / 12 ≤ c.maxYear → nth (filterNext (Iter.next c) d.matches fuel) q it =
          some (.ok (.moment { m with year := (I + pos q) / 12, month := (I + pos q) % 12 + 1, nano := if pos q = 0 then m.nano else 0 }))) ∧
        (c.maxYear < (I + pos q) / 12 → ∃ Y M D H MI S, nth (filterNext (Iter.next c) d.matches fuel) q it = some (.err (.outOfBounds Y M D H MI S))) := by
  have hb : Iter.build m (.months 1) = .ok it := by
    rw [(C33_named c (.moment m) 1).2.2.2.1, (C33_every _ _).1 m rfl] at hit; exact hit
  have hb' : it = ⟨.moment m, amt .month 1, false⟩ := by
    rw [(C33_build m (.months 1)).1 ⟨.month, _, rfl⟩] at hb; cases hb; rfl
  have hkth : ∀ k : Nat, ((I + k) / 12 ≤ c.maxYear ∧ nth (Iter.next c) k it =
        some (.ok (.moment { m with year := (I + k) / 12, month := (I + k) % 12 + 1, nano := if k = 0 then m.nano else 0 }))) ∨
      (c.maxYear < (I + k) / 12 ∧ ∃ Y' M' D H MI S, nth (Iter.next c) k it = some (.err (.outOfBounds Y' M' D H MI S))) := by
    intro k
    obtain ⟨Y, M, h1, h2, h3, h⟩ := C35_monthly c hc m hm hd 1 (by decide) (by decide) it hb k
    have hY : Y = (I + k) / 12 := by rw [hI]; unfold Cal.monthIndex at h3 ⊢; omega
    have hM : M = (I + k) % 12 + 1 := by rw [hI]; unfold Cal.monthIndex at h3 ⊢; omega
    subst hY hM
    exact h
  have hd0 : 0 ≤ d.into ∧ d.into < 7 := by cases d <;> decide
  let P : Nat → Bool := fun k => Cal.weekday ((I + k) / 12) ((I + k) % 12 + 1) m.day == d.into
  obtain ⟨pos, h0, hinc, hstep, hpos, hgap0, hgap⟩ := positions_exist P 14 (fun a => by
    obtain ⟨k, h1, h2⟩ := Cal.weekday_window (I + a) m.day d.into hd0
    refine ⟨k, h1, ?_⟩
    simp only [P, beq_iff_eq]
    rw [show I + ((a + k : Nat) : Int) = I + a + k by omega]
    exact h2)
  refine ⟨pos, h0, fun q => ⟨hinc q, hstep q⟩, fun k => ⟨?_, fun h => positions_all hinc hgap0 hgap k (by simpa [P] using h)⟩, fun fuel hf q => ?_⟩
  · rintro ⟨q, rfl⟩
    simpa [P] using hpos q
  · rw [filter_positions (nx := Iter.next c) (M := d.matches) (s := it) hf h0 hinc hstep hpos hgap0 hgap (fun k => by
      rcases hkth k with ⟨-, h⟩ | ⟨-, Y, M, D, H, MI, S, h⟩
      · refine .inl ⟨_, h, ?_⟩
        simp only [Day.matches, TT.getMoment, Option.map_some, OutE.ofOption, Moment.weekday, P]
        congr 1
        rw [Bool.eq_iff_iff, beq_iff_eq, beq_iff_eq]
        exact eq_comm
      · subst hb'
        exact .inr ⟨_, fun j hj => built_err_forever rfl h j hj⟩) q]
    rcases hkth (pos q) with ⟨h, g⟩ | ⟨h, g⟩
    · exact ⟨fun _ => g, fun h' => by omega⟩
    · exact ⟨fun h' => by omega, fun _ => g⟩

/-- **C166 (each year).** So there is one in each year after that of the start, up to chrono's last year, … -/
theorem C166_each_year (c : Cfg) (hc : Sane c) (m : Moment) (hm : m.Valid c) (hd : m.day ≤ 28) (d : Day) (it : Iter)
    (hit : Ext.monthly (.moment m) 1 = .ok it) (fuel : Nat) (hf : 14 ≤ fuel) (Y : Int) (hY : m.year < Y) (hY' : Y ≤ c.maxYear) :
    ∃ q r, nth (filterNext (Iter.next c) d.matches fuel) q it = some (.ok (.moment r)) ∧ r.year = Y ∧ r.day = m.day ∧ (TT.moment r).isA d = .ok true := by
  obtain ⟨pos, -, -, hall, hit⟩ := C166_found c hc m hm hd d it hit _ rfl
  have hd0 : 0 ≤ d.into ∧ d.into < 7 := by cases d <;> decide
  obtain ⟨M, h1, h2, h3⟩ := Cal.weekday_year Y m.day d.into hd0
  have hm1 := hm.2.2.1.1
  have hm2 := hm.2.2.1.2.1
  have hk : (Cal.monthIndex m.year m.month + ((Cal.monthIndex Y M - Cal.monthIndex m.year m.month).toNat : Nat)) = 12 * Y + (M - 1) := by
    unfold Cal.monthIndex; omega
  obtain ⟨q, hq⟩ := (hall (Cal.monthIndex Y M - Cal.monthIndex m.year m.month).toNat).2 (by
    rw [hk, show (12 * Y + (M - 1)) / 12 = Y by omega, show (12 * Y + (M - 1)) % 12 + 1 = M by omega]; exact h3)
  have g := (hit fuel hf q).1
  rw [hq, hk, show (12 * Y + (M - 1)) / 12 = Y by omega, show (12 * Y + (M - 1)) % 12 + 1 = M by omega] at g
  refine ⟨q, _, g hY', rfl, rfl, ?_⟩
  simp only [TT.isA, Moment.weekday, h3]
  simp

/-- **C166 (at most three).** … and never more than three in a year. -/
theorem C166_at_most_three (c : Cfg) (hc : Sane c) (m : Moment) (hm : m.Valid c) (hd : m.day ≤ 28) (d : Day) (it : Iter)
    (hit : Ext.monthly (.moment m) 1 = .ok it) (fuel : Nat) (hf : 14 ≤ fuel) (q : Nat) (r r' : Moment)
    (h : nth (filterNext (Iter.next c) d.matches fuel) q it = some (.ok (.moment r)))
    (h' : nth (filterNext (Iter.next c) d.matches fuel) (q + 3) it = some (.ok (.moment r'))) : r.year < r'.year := by
  obtain ⟨pos, -, hinc, hall, hit⟩ := C166_found c hc m hm hd d it hit _ rfl
  generalize Cal.monthIndex m.year m.month = I at hall hit
  have year : ∀ q r, nth (filterNext (Iter.next c) d.matches fuel) q it = some (.ok (.moment r)) → r.year = (I + pos q) / 12 := by
    intro q r h
    by_cases g : (I + pos q) / 12 ≤ c.maxYear
    · rw [(hit fuel hf q).1 g] at h; cases h; rfl
    · obtain ⟨_, _, _, _, _, _, g⟩ := (hit fuel hf q).2 (by omega)
      rw [g] at h; cases h
  rw [year q r h, year (q + 3) r' h']
  have i1 := (hinc q).1
  have i2 : pos (q + 1) < pos (q + 2) := (hinc (q + 1)).1
  have i3 : pos (q + 2) < pos (q + 3) := (hinc (q + 2)).1
  apply Classical.byContradiction
  intro hn
  have w : ∀ q, Cal.weekday ((I + pos q) / 12) ((I + pos q) % 12 + 1) m.day = d.into := fun q => (hall (pos q)).1 ⟨q, rfl⟩
  have w0 := w q
  have w1 := w (q + 1)
  have w2 := w (q + 2)
  have w3 := w (q + 3)
  rw [show (I + (pos (q + 1) : Int)) / 12 = (I + pos q) / 12 by omega] at w1
  rw [show (I + (pos (q + 2) : Int)) / 12 = (I + pos q) / 12 by omega] at w2
  rw [show (I + (pos (q + 3) : Int)) / 12 = (I + pos q) / 12 by omega] at w3
  exact Cal.weekday_three ((I + pos q) / 12) m.day _ _ _ _ (by omega) (by omega) (by omega) (by omega) (by omega)
    (w0.trans w1.symm) (w1.trans w2.symm) (w2.trans w3.symm)

/-- The Fridays on a 13th from September 1999 on: the first call looks at fourteen months and thirteen are not enough; in 2009 and 2012 there were three. -/
example : nth (filterNext (Iter.next (std .debug)) (Day.matches .friday) 14) 0 ⟨.moment (at_ 1999 9 13 0 0 0), .months 1, false⟩ =
      some (.ok (.moment (at_ 2000 10 13 0 0 0))) ∧
    nth (filterNext (Iter.next (std .debug)) (Day.matches .friday) 13) 0 ⟨.moment (at_ 1999 9 13 0 0 0), .months 1, false⟩ = some .oof ∧
    (List.range 4).map (fun q => nth (filterNext (Iter.next (std .debug)) (Day.matches .friday) 14) q ⟨.moment (at_ 2009 1 13 0 0 0), .months 1, false⟩) =
      [some (.ok (.moment (at_ 2009 2 13 0 0 0))), some (.ok (.moment (at_ 2009 3 13 0 0 0))), some (.ok (.moment (at_ 2009 11 13 0 0 0))),
        some (.ok (.moment (at_ 2010 8 13 0 0 0)))] := by
  decide +kernel

example := C166_found (std .debug) (sane_std _) (at_ 1999 9 13 0 0 0) (by decide) (by decide) .friday _ rfl _ rfl
example := C166_each_year (std .debug) (sane_std _) (at_ 1999 9 13 0 0 0) (by decide) (by decide) .friday _ rfl 14 (by decide) 2012 (by decide) (by decide)
example := C166_at_most_three (std .debug) (sane_std _) (at_ 2009 1 13 0 0 0) (by decide) (by decide) .friday _ rfl 14 (by decide) 0 (at_ 2009 2 13 0 0 0)
  (at_ 2010 8 13 0 0 0) (by decide +kernel) (by decide +kernel)

end Props
