import Verif.Props.BackAgain
import Verif.Props.Rollback
import Verif.Props.RoundTrip
import Verif.Props.AllYears
import Verif.Spec.Reference

/-!
# C24, C112, C39: there and back in years, for every number of years
-/

namespace Props
open Kairos Spec

private theorem s32 (x : Int) : -2147483648 ≤ signed32 x ∧ signed32 x ≤ 2147483647 ∧ ∃ k, x = signed32 x + k * 4294967296 := by
  refine ⟨by unfold signed32; omega, by unfold signed32; omega, (x + 2147483648) / 4294967296, ?_⟩
  unfold signed32; omega

private theorem s32_back {y n : Int} :
    (∃ k, signed32 (y + n) - n = y + k * 4294967296) ∧ ∃ k, signed32 (y - n) + n = y + k * 4294967296 := by
  constructor
  · refine ⟨-((y + n + 2147483648) / 4294967296), ?_⟩
    unfold signed32; omega
  · refine ⟨-((y - n + 2147483648) / 4294967296), ?_⟩
    unfold signed32; omega

private theorem add_years (c : Cfg) (m : Moment) (hm : m.Valid c) (n Y k : Int)
    (hy1 : -2147483648 ≤ Y) (hy2 : Y ≤ 2147483647) (hY : m.year + n = Y + k * 4294967296) :
    calculate c (.moment m + .years n) =
      if c.profile = .debug ∧ ¬ InI64 (m.year + n) then .panic
      else if Y < c.minYear ∨ c.maxYear < Y then
        .err (.outOfBounds Y (if m.month = 2 ∧ m.day = 29 ∧ Cal.isLeap Y = false then 3 else m.month) m.hour m.hour m.minute m.second)
      else if m.month = 2 ∧ m.day = 29 ∧ Cal.isLeap Y = false then
        .ok (.moment { m with year := Y, month := 3, day := 1, nano := 0 })
      else .ok (.moment { m with year := Y, nano := 0 }) := C18_every_amount_partial c m hm n Y k hy1 hy2 hY

private theorem sub_years (c : Cfg) (m : Moment) (hm : m.Valid c) (n Y k : Int)
    (hy1 : -2147483648 ≤ Y) (hy2 : Y ≤ 2147483647) (hY : m.year - n = Y + k * 4294967296) :
    calculate c (.moment m - .years n) =
      if c.profile = .debug ∧ ¬ InI64 (m.year - n) then .panic
      else if c.minYear ≤ Y ∧ Y ≤ c.maxYear ∧ Cal.ValidDate Y m.month m.day then .ok (.moment { m with year := Y, nano := 0 })
      else .err (.outOfBounds Y m.month m.hour m.hour m.minute m.second) := C23_every_amount_partial c m hm n Y k hy1 hy2 hY

private theorem year_range {c : Cfg} (hc : Sane c) {m : Moment} (hm : m.Valid c) : -2147483648 ≤ m.year ∧ m.year ≤ 2147483647 := by
  unfold Sane at hc; have := hm.1; have := hm.2.1; omega

/-- A day that exists in one year exists in another one, unless it is 29 February. -/
private theorem valid_in {y y' mo d : Int} (h : Cal.ValidDate y mo d) :
    Cal.ValidDate y' mo d ↔ ¬ (mo = 2 ∧ d = 29 ∧ Cal.isLeap y' = false) := by
  obtain ⟨h1, h2, h3, h4⟩ := h
  constructor
  · rintro ⟨-, -, -, h⟩ ⟨rfl, rfl, hl⟩
    simp [Cal.monthLen, hl] at h
  · intro hn
    refine ⟨h1, h2, h3, ?_⟩
    by_cases hm : mo = 2
    · subst hm
      have e : ∀ z, Cal.monthLen z 2 = if Cal.isLeap z then 29 else 28 := fun z => by simp [Cal.monthLen]
      rw [e] at h4 ⊢
      by_cases hd : d = 29
      · have : Cal.isLeap y' = true := by simpa using fun hh => hn ⟨rfl, hd, hh⟩
        rw [this]; simp; omega
      · split at h4 <;> split <;> omega
    · have : Cal.monthLen y' mo = Cal.monthLen y mo := by unfold Cal.monthLen; simp [hm]
      omega

private theorem again {m : Moment} (hz : m.nano = 0) : ({ m with nano := 0 } : Moment) = m := by
  cases m; simp only at hz; subst hz; rfl

/-- **C24, years, exactly when it holds**, for every number of years: `(m + n years) - n years` is `m` again if and only if the year
reached - the lowest 32 bits of `year + n` - is in chrono's range, the day exists in it, and, with overflow checks, none of the two
64-bit sums overflows. -/
theorem C24_every_year_iff_partial (c : Cfg) (hc : Sane c) (m : Moment) (hm : m.Valid c) (hz : m.nano = 0) (n : Int) :
    calculate c (.moment m + .years n - .years n) = .ok (.moment m) ↔
      (c.profile = .release ∨ InI64 (m.year + n) ∧ InI64 (signed32 (m.year + n) - n)) ∧
        c.minYear ≤ signed32 (m.year + n) ∧ signed32 (m.year + n) ≤ c.maxYear ∧
        Cal.ValidDate (signed32 (m.year + n)) m.month m.day := by
  have ch := (C07_chain_partial c (.moment m) (.years n) .year n).2.1
  simp only [amt] at ch
  rw [ch]
  have hy := year_range hc hm
  obtain ⟨z1, z2, k, hk⟩ := s32 (m.year + n)
  obtain ⟨⟨k', hk'⟩, -⟩ := s32_back (y := m.year) (n := n)
  have hd := valid_in (y' := signed32 (m.year + n)) hm.2.2.1
  rw [add_years c m hm n _ k z1 z2 hk]
  have hrel : c.profile = .release ∨ c.profile = .debug := by cases c.profile <;> simp
  generalize signed32 (m.year + n) = Y at *
  by_cases h0 : c.profile = .debug ∧ ¬ InI64 (m.year + n)
  · rw [if_pos h0]
    refine ⟨fun h => (by cases h), fun ⟨h, _⟩ => ?_⟩
    rcases h with h | h
    · rw [h] at h0; cases h0.1
    · exact absurd h.1 h0.2
  rw [if_neg h0]
  by_cases h1 : Y < c.minYear ∨ c.maxYear < Y
  · rw [if_pos h1]
    exact ⟨fun h => (by cases h), fun h => (by omega)⟩
  rw [if_neg h1]
  by_cases h2 : m.month = 2 ∧ m.day = 29 ∧ Cal.isLeap Y = false
  · rw [if_pos h2, OutE.ok_bind]
    have hv : ({ m with year := Y, month := 3, day := 1, nano := 0 } : Moment).Valid c :=
      ⟨by simp only; omega, by simp only; omega, by simp [Cal.ValidDate, Cal.monthLen], hm.2.2.2.1, by simp, by simp⟩
    rw [sub_years c _ hv n m.year k' hy.1 hy.2 hk']
    refine ⟨fun h => ?_, fun h => absurd h2 (hd.1 h.2.2.2)⟩
    split at h
    · cases h
    · split at h
      · have := ok_moment_inj h
        have e3 : (3 : Int) = m.month := by rw [← this]
        omega
      · cases h
  · rw [if_neg h2, OutE.ok_bind]
    have hv : ({ m with year := Y, nano := 0 } : Moment).Valid c :=
      ⟨by simp only; omega, by simp only; omega, hd.2 h2, hm.2.2.2.1, by simp, by simp⟩
    rw [sub_years c _ hv n m.year k' hy.1 hy.2 hk']
    simp only
    by_cases h3 : c.profile = .debug ∧ ¬ InI64 (Y - n)
    · rw [if_pos h3]
      refine ⟨fun h => (by cases h), fun ⟨h, _⟩ => ?_⟩
      rcases h with h | h
      · rw [h] at h3; cases h3.1
      · exact absurd h.2 h3.2
    · rw [if_neg h3, if_pos ⟨hm.1, hm.2.1, hm.2.2.1⟩]
      refine ⟨fun _ => ⟨?_, by omega, by omega, hd.2 h2⟩, fun _ => by rw [again hz]⟩
      rcases hrel with h | h
      · exact .inl h
      · exact .inr ⟨Decidable.not_not.1 fun g => h0 ⟨h, g⟩, Decidable.not_not.1 fun g => h3 ⟨h, g⟩⟩

/-- 2^32 years later it is the same date; 2^32 + 1 years after 29 February 2016 it is not. -/
example : calculate (std .debug) (.moment (at_ 2016 2 29 0 0 0) + .years 4294967296 - .years 4294967296) =
      .ok (.moment (at_ 2016 2 29 0 0 0)) ∧
    calculate (std .debug) (.moment (at_ 2016 2 29 0 0 0) + .years 4294967297 - .years 4294967297) ≠
      .ok (.moment (at_ 2016 2 29 0 0 0)) :=
  ⟨(C24_every_year_iff_partial (std .debug) (by decide) _ (by decide) rfl 4294967296).2 (by decide),
    fun h => absurd ((C24_every_year_iff_partial (std .debug) (by decide) _ (by decide) rfl 4294967297).1 h) (by decide)⟩

private theorem back {c : Cfg} (hc : Sane c) {m : Moment} (hm : m.Valid c) (hz : m.nano = 0) (n : Int) :
    (∃ q, calculate c (.moment m - .years n) = .ok (.moment q) ∧ calculate c (.moment q + .years n) = .ok (.moment m)) ↔
      (c.profile = .release ∨ InI64 (m.year - n) ∧ InI64 (signed32 (m.year - n) + n)) ∧
        c.minYear ≤ signed32 (m.year - n) ∧ signed32 (m.year - n) ≤ c.maxYear ∧
        Cal.ValidDate (signed32 (m.year - n)) m.month m.day := by
  have hy := year_range hc hm
  obtain ⟨z1, z2, k, hk⟩ := s32 (m.year - n)
  obtain ⟨-, k', hk'⟩ := s32_back (y := m.year) (n := n)
  rw [sub_years c m hm n _ k z1 z2 hk]
  have hrel : c.profile = .release ∨ c.profile = .debug := by cases c.profile <;> simp
  generalize signed32 (m.year - n) = Y at *
  by_cases h0 : c.profile = .debug ∧ ¬ InI64 (m.year - n)
  · rw [if_pos h0]
    refine ⟨fun ⟨_, h, _⟩ => (by cases h), fun ⟨h, _⟩ => ?_⟩
    rcases h with h | h
    · rw [h] at h0; cases h0.1
    · exact absurd h.1 h0.2
  rw [if_neg h0]
  by_cases h1 : c.minYear ≤ Y ∧ Y ≤ c.maxYear ∧ Cal.ValidDate Y m.month m.day
  · rw [if_pos h1]
    have hv : ({ m with year := Y, nano := 0 } : Moment).Valid c := ⟨h1.1, h1.2.1, h1.2.2, hm.2.2.2.1, by simp, by simp⟩
    have f := add_years c _ hv n m.year k' hy.1 hy.2 hk'
    simp only at f
    rw [if_neg (c := m.year < c.minYear ∨ c.maxYear < m.year) (by have := hm.1; have := hm.2.1; omega),
      if_neg (c := m.month = 2 ∧ _) ((valid_in hm.2.2.1).1 hm.2.2.1)] at f
    by_cases h3 : c.profile = .debug ∧ ¬ InI64 (Y + n)
    · rw [if_pos h3] at f
      refine ⟨fun ⟨_, h, h'⟩ => ?_, fun ⟨h, _⟩ => ?_⟩
      · cases h; rw [f] at h'; cases h'
      · rcases h with h | h
        · rw [h] at h3; cases h3.1
        · exact absurd h.2 h3.2
    · rw [if_neg h3] at f
      refine ⟨fun _ => ⟨?_, h1⟩, fun _ => ⟨_, rfl, by rw [f, again hz]⟩⟩
      rcases hrel with h | h
      · exact .inl h
      · exact .inr ⟨Decidable.not_not.1 fun g => h0 ⟨h, g⟩, Decidable.not_not.1 fun g => h3 ⟨h, g⟩⟩
  · rw [if_neg h1]
    exact ⟨fun ⟨_, h, _⟩ => (by cases h), fun h => absurd h.2 h1⟩

/-- **C112, years, exactly when it holds**, for every number of years. -/
theorem C112_every_year_iff_partial (c : Cfg) (hc : Sane c) (m : Moment) (hm : m.Valid c) (hz : m.nano = 0) (n : Int) :
    stepwise c (.moment m) [(.minus, .years n), (.plus, .years n)] = .ok (.moment m) ↔
      (c.profile = .release ∨ InI64 (m.year - n) ∧ InI64 (signed32 (m.year - n) + n)) ∧
        c.minYear ≤ signed32 (m.year - n) ∧ signed32 (m.year - n) ≤ c.maxYear ∧
        Cal.ValidDate (signed32 (m.year - n)) m.month m.day := by
  have two := minus_plus (c := c) (m := m) (u := .year) (n := n)
  simp only [amt] at two
  rw [two]
  exact back hc hm hz n

example : stepwise (std .debug) (.moment (at_ 2016 2 29 0 0 0)) [(.minus, .years 4294967300), (.plus, .years 4294967300)] =
    .ok (.moment (at_ 2016 2 29 0 0 0)) :=
  (C112_every_year_iff_partial (std .debug) (by decide) _ (by decide) rfl 4294967300).2 (by decide)

/-- **C39, years, exactly when it holds**, for every number of years. -/
theorem C39_every_year_iff_partial (c : Cfg) (hc : Sane c) (it it' : Iter) (r : Moment) (hr : r.Valid c) (hz : r.nano = 0)
    (n : Int) (hinc : it.increment = .years n) (h : it.next c = (it', some (.ok (.moment r)))) :
    ((it'.rollback c).2 = .ok () ∧ ((it'.rollback c).1.next c).2 = some (.ok (.moment r))) ↔
      (c.profile = .release ∨ InI64 (r.year - n) ∧ InI64 (signed32 (r.year - n) + n)) ∧
        c.minYear ≤ signed32 (r.year - n) ∧ signed32 (r.year - n) ≤ c.maxYear ∧
        Cal.ValidDate (signed32 (r.year - n)) r.month r.day := by
  have hs := state_after_item h
  rw [hinc] at hs
  subst hs
  rw [show TT.years n = amt .year n from rfl, rollback_iff]
  exact back hc hr hz n

example := (C39_every_year_iff_partial (std .debug) (by decide) ⟨.moment (at_ 2016 2 29 0 0 0), .years 4294967300, true⟩ _
  (at_ 2020 2 29 0 0 0) (by decide) rfl 4294967300 rfl rfl).2 (by decide)

end Props
