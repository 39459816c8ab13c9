import Verif.Props.Iterators

/-! Iterators that start on a day not every month or year has: monthly from the 29th to the 31st (C79),
yearly from 29 February (C80). -/

namespace Props
open Kairos Spec

/-! ## C79 -/

/-- A predicate on natural numbers that holds somewhere has a least witness. -/
private theorem least {P : Nat → Prop} : ∀ n, P n → ∃ j, j ≤ n ∧ P j ∧ ∀ k, k < j → ¬ P k := by
  intro n
  induction n using Nat.strongRecOn with
  | _ n ih =>
    intro hn
    by_cases h : ∃ k, k < n ∧ P k
    · obtain ⟨k, hk, hp⟩ := h
      obtain ⟨j, h1, h2, h3⟩ := ih k hk hp
      exact ⟨j, by omega, h2, h3⟩
    · exact ⟨n, Nat.le_refl n, hn, fun k hk hp => h ⟨k, hk, hp⟩⟩

/-- The code skips month number `i` (twelve per year, January of year 0 is 0) when stepping by one
month on day `d`: that month has no such day, or it is a January and `d` is 31. -/
private def Skips (i d : Int) : Prop := Cal.monthLen (i / 12) (i % 12 + 1) < d ∨ (i % 12 = 0 ∧ d = 31)

private theorem step_month (c : Cfg) (hc : Sane c) (m : Moment) (hm : m.Valid c) (i : Int)
    (hi : i = Cal.monthIndex m.year m.month + 1) :
    (¬ Skips i m.day → calculate c (.moment m + .months 1) =
      if i / 12 ≤ c.maxYear then .ok (.moment { m with year := i / 12, month := i % 12 + 1, nano := 0 })
      else .err (.outOfBounds (i / 12) (i % 12 + 1) m.hour m.hour m.minute m.second)) ∧
    (Skips i m.day → 29 ≤ m.day ∧ calculate c (.moment m + .months 1) =
      if (i + 1) / 12 ≤ c.maxYear then .ok (.moment { m with
        year := (i + 1) / 12, month := (i + 1) % 12 + 1,
        day := if Cal.monthLen (i / 12) (i % 12 + 1) < m.day then m.day - Cal.monthLen (i / 12) (i % 12 + 1) else 1,
        nano := 0 })
      else .err (.outOfBounds ((i + 1) / 12) ((i + 1) % 12 + 1) m.hour m.hour m.minute m.second)) := by
  have hm' := hm
  have hc' := hc
  unfold Sane at hc'
  obtain ⟨a1, a2, ⟨a3, a4, a5, a6⟩, t, -⟩ := hm'
  have ml := Cal.monthLen_bounds (y := m.year) a3 a4
  have mi := Cal.monthLen_bounds (y := i / 12) (m := i % 12 + 1) (by omega) (by omega)
  have mi1 := Cal.monthLen_bounds (y := (i + 1) / 12) (m := (i + 1) % 12 + 1) (by omega) (by omega)
  have small := monthDate_small (y := m.year) (t := m.month + 1) (d := m.day) (by omega) (by omega) (by omega) (by omega) a5 (by omega)
  rw [addMonths_closed c hc hm 1 (by omega) (by omega),
    build_cases c small.1 small.2.1 (by simp only; omega) (by simp only; omega) t]
  unfold Cal.monthIndex at hi
  unfold Skips
  by_cases h12 : m.month + 1 ≤ 12
  · have ey : i / 12 = m.year := by omega
    have em : i % 12 + 1 = m.month + 1 := by omega
    by_cases hl : m.day ≤ Cal.monthLen m.year (m.month + 1)
    · have hmd : monthDate m.year (m.month + 1) m.day = (m.year, m.month + 1, m.day) := by
        unfold monthDate; rw [if_pos h12, if_pos hl]
      refine ⟨fun _ => ?_, fun h => ?_⟩
      · rw [ey, em]
        simp only [hmd]
        rw [if_pos ⟨a1, a2, by omega, h12, a5, hl⟩, if_pos a2]
      · rw [ey, em] at h; omega
    · have hmd : monthDate m.year (m.month + 1) m.day = (m.year, m.month + 1 + 1, m.day - Cal.monthLen m.year (m.month + 1)) := by
        unfold monthDate; rw [if_pos h12, if_neg hl]
      rw [ey, em] at mi ⊢
      have h11 : m.month ≤ 10 := by
        by_cases h : m.month = 11
        · rw [h] at hl; simp [Cal.monthLen] at hl; omega
        · omega
      have ey2 : (i + 1) / 12 = m.year := by omega
      have em2 : (i + 1) % 12 + 1 = m.month + 1 + 1 := by omega
      rw [ey2, em2] at mi1 ⊢
      refine ⟨fun h => absurd (.inl (by omega)) h, fun _ => ⟨by omega, ?_⟩⟩
      simp only [hmd]
      rw [if_pos (show Cal.monthLen m.year (m.month + 1) < m.day by omega),
        if_pos ⟨a1, a2, by omega, by omega, by omega, by omega⟩, if_pos a2]
  · have e12 : m.month = 12 := by omega
    have ey : i / 12 = m.year + 1 := by omega
    have em : i % 12 + 1 = 1 := by omega
    have ey2 : (i + 1) / 12 = m.year + 1 := by omega
    have em2 : (i + 1) % 12 + 1 = 2 := by omega
    rw [ey, em, ey2, em2]
    have e31 : Cal.monthLen (m.year + 1) 1 = 31 := by simp [Cal.monthLen]
    by_cases hl : m.day ≤ 30
    · have hmd : monthDate m.year (m.month + 1) m.day = (m.year + 1, 1, m.day) := by
        unfold monthDate; rw [if_neg h12, if_pos hl, e12]; simp
      refine ⟨fun _ => ?_, fun h => by omega⟩
      simp only [hmd]
      by_cases hY : m.year + 1 ≤ c.maxYear
      · rw [if_pos hY, if_pos ⟨by omega, hY, by omega, by omega, a5, by omega⟩]
      · rw [if_neg hY, if_neg (by omega)]
    · have hmd : monthDate m.year (m.month + 1) m.day = (m.year + 1, 2, m.day - 30) := by
        unfold monthDate; rw [if_neg h12, if_neg hl, e12]; simp
      refine ⟨fun h => absurd (.inr ⟨by omega, by omega⟩) h, fun _ => ⟨by omega, ?_⟩⟩
      have e1 : m.day - 30 = 1 := by omega
      have := Cal.monthLen_bounds (y := m.year + 1) (m := 2) (by omega) (by omega)
      simp only [hmd]
      rw [if_neg (show ¬ Cal.monthLen (m.year + 1) 1 < m.day by omega), e1]
      by_cases hY : m.year + 1 ≤ c.maxYear
      · rw [if_pos hY, if_pos ⟨by omega, hY, by omega, by omega, by omega, by omega⟩]
      · rw [if_neg hY, if_neg (by omega)]

/-- Within two years there is a February of 28 days. -/
private theorem skip_soon (I d : Int) (hd : 29 ≤ d) (hv : d ≤ Cal.monthLen (I / 12) (I % 12 + 1)) :
    ∃ j : Nat, (1 ≤ j ∧ Skips (I + j) d) ∧ j ≤ 23 := by
  have key : ∀ y : Int, Cal.isLeap y = true → Cal.isLeap (y + 1) = false := by
    intro y h
    unfold Cal.isLeap at *
    simp at h ⊢
    omega
  obtain ⟨j, hj1, hj2, hj3⟩ : ∃ j : Nat, 1 ≤ j ∧ j ≤ 12 ∧ (I + j) % 12 = 1 :=
    ⟨(12 - (I + 11) % 12).toNat, by omega, by omega, by omega⟩
  cases hl : Cal.isLeap ((I + j) / 12)
  · exact ⟨j, ⟨hj1, .inl (by rw [hj3]; simp [Cal.monthLen, hl]; omega)⟩, by omega⟩
  · have hj12 : j ≠ 12 := by
      rintro rfl
      have e1 : I % 12 = 1 := by omega
      have e2 : (I + ((12 : Nat) : Int)) / 12 = I / 12 + 1 := by omega
      rw [e2] at hl
      have hn : Cal.isLeap (I / 12) = false := by
        cases h : Cal.isLeap (I / 12)
        · rfl
        · rw [key _ h] at hl; cases hl
      rw [e1] at hv
      simp [Cal.monthLen, hn] at hv; omega
    refine ⟨j + 12, ⟨by omega, .inl ?_⟩, by omega⟩
    have e1 : (I + ((j + 12 : Nat) : Int)) % 12 = 1 := by omega
    have e2 : (I + ((j + 12 : Nat) : Int)) / 12 = (I + j) / 12 + 1 := by omega
    rw [e1, e2]
    simp [Cal.monthLen, key _ hl]; omega

/-- **C79 (partial).** `monthly(1)` from a base on the 1st to the 28th has exactly one item in each
month: the item at position `k` is in the `k`-th month after the base, on the same day. -/
theorem C79_one_in_each_month_partial (c : Cfg) (hc : Sane c) (m : Moment) (hm : m.Valid c) (hd : m.day ≤ 28)
    (it : Iter) (hit : Ext.monthly (.moment m) 1 = .ok it) (k : Nat) (r : Moment)
    (hk : nth (Iter.next c) k it = some (.ok (.moment r))) :
    Cal.monthIndex r.year r.month = Cal.monthIndex m.year m.month + k ∧ r.day = m.day := by
  obtain ⟨Y, M, -, -, h3, h4⟩ := C35_monthly c hc m hm hd 1 (by decide) (by decide) it hit k
  rcases h4 with ⟨-, h4⟩ | ⟨-, _, _, _, _, _, _, h4⟩
  · rw [h4] at hk
    have e := ok_moment_inj (Option.some.inj hk)
    subst e
    exact ⟨by simp only; omega, rfl⟩
  · rw [h4] at hk; cases hk

example := C79_one_in_each_month_partial (std .debug) (sane_std _) (at_ 2017 1 28 0 0 0) (by decide) (by decide)
  ⟨.moment (at_ 2017 1 28 0 0 0), .months 1, false⟩ rfl 14 (at_ 2018 3 28 0 0 0) (by decide +kernel)

/-- **C79 refuted**, in general, with a full description of what happens instead. For every base on the
29th, 30th or 31st there is a month, at most 23 months on, in which `monthly(1)` has no item. Before
that there is one item in each month, on the day of the base; from then on one item in each month,
on the 1st, 2nd or 3rd (always the same one of them), for ever, until chrono's last year is over. -/
theorem C79_refuted (c : Cfg) (hc : Sane c) (m : Moment) (hm : m.Valid c) (hd : 29 ≤ m.day)
    (it : Iter) (hit : Ext.monthly (.moment m) 1 = .ok it) :
    ∃ (j : Nat) (D : Int), 1 ≤ j ∧ j ≤ 23 ∧ 1 ≤ D ∧ D ≤ 3 ∧ ∀ k : Nat, ∃ Y M : Int, 1 ≤ M ∧ M ≤ 12 ∧
      Cal.monthIndex Y M = Cal.monthIndex m.year m.month + k + (if k < j then 0 else 1) ∧
      ((Y ≤ c.maxYear ∧ nth (Iter.next c) k it = some (.ok (.moment { m with
          year := Y, month := M, day := if k < j then m.day else D, nano := if k = 0 then m.nano else 0 }))) ∨
       (c.maxYear < Y ∧ ∃ Y' M' D' H MI S, nth (Iter.next c) k it = some (.err (.outOfBounds Y' M' D' H MI S)))) := by
  have e : Ext.monthly (.moment m) 1 = Iter.build m (.months 1) := rfl
  rw [e, (C33_build m (.months 1)).1 ⟨.month, 1, rfl⟩] at hit
  cases hit
  have hc' := hc
  unfold Sane at hc'
  obtain ⟨a1, a2, ⟨a3, a4, a5, a6⟩, t, a7⟩ := id hm
  have ml := Cal.monthLen_bounds (y := m.year) a3 a4
  generalize hI : Cal.monthIndex m.year m.month = I
  have hIv : I / 12 = m.year ∧ I % 12 + 1 = m.month := by rw [← hI]; unfold Cal.monthIndex; omega
  obtain ⟨j0, p0, hj24⟩ := skip_soon I m.day hd (by rw [hIv.1, hIv.2]; exact a6)
  obtain ⟨j, hj0, ⟨hj1, hjs⟩, hfirst⟩ := least (P := fun j : Nat => 1 ≤ j ∧ Skips (I + j) m.day) j0 p0
  have hnot : ∀ k : Nat, 1 ≤ k → k < j → ¬ Skips (I + k) m.day := fun k h1 h2 h3 => hfirst k h2 ⟨h1, h3⟩
  generalize hD : (if Cal.monthLen ((I + j) / 12) ((I + j) % 12 + 1) < m.day
    then m.day - Cal.monthLen ((I + j) / 12) ((I + j) % 12 + 1) else 1) = D
  have mj := Cal.monthLen_bounds (y := (I + j) / 12) (m := (I + j) % 12 + 1) (by omega) (by omega)
  have hD1 : 1 ≤ D ∧ D ≤ 3 := by rw [← hD]; split <;> omega
  refine ⟨j, D, hj1, by omega, hD1.1, hD1.2, fun k => ?_⟩
  have valid : ∀ (i d z : Int), I ≤ i → i / 12 ≤ c.maxYear → 1 ≤ d → d ≤ Cal.monthLen (i / 12) (i % 12 + 1) →
      0 ≤ z → z < 2000000000 →
      ({ m with year := i / 12, month := i % 12 + 1, day := d, nano := z } : Moment).Valid c := by
    intro i d z h1 h2 h3 h4 h5 h6
    refine ⟨?_, h2, ⟨by simp only; omega, by simp only; omega, h3, h4⟩, t, h5, h6⟩
    simp only
    unfold Cal.monthIndex at hI
    omega
  have len3 : ∀ i : Int, 28 ≤ Cal.monthLen (i / 12) (i % 12 + 1) := fun i =>
    (Cal.monthLen_bounds (y := i / 12) (m := i % 12 + 1) (by omega) (by omega)).1
  let idx : Nat → Int := fun k => I + k + (if k < j then 0 else 1)
  refine (run_shape (c := c) (inc := .months 1) rfl
    (fun k r => idx k / 12 ≤ c.maxYear ∧
      r = { m with year := idx k / 12, month := idx k % 12 + 1, day := if k < j then m.day else D,
                   nano := if k = 0 then m.nano else 0 })
    (fun k e => c.maxYear < idx k / 12 ∧ ∃ Y' M' D' H MI S, e = .outOfBounds Y' M' D' H MI S)
    ?_ ?_ m ?_ k).elim ?_ ?_
  case refine_4 =>
    rintro ⟨r, ⟨g1, rfl⟩, -, h⟩
    exact ⟨idx k / 12, idx k % 12 + 1, by omega, by omega, by unfold Cal.monthIndex; simp only [idx]; omega, .inl ⟨g1, h⟩⟩
  case refine_5 =>
    rintro ⟨e, ⟨g1, Y', M', D', H, MI, S, rfl⟩, -, h⟩
    exact ⟨idx k / 12, idx k % 12 + 1, by omega, by omega, by unfold Cal.monthIndex; simp only [idx]; omega,
      .inr ⟨g1, Y', M', D', H, MI, S, h⟩⟩
  case refine_3 =>
    have e0 : idx 0 = I := by simp only [idx]; rw [if_pos (by omega)]; omega
    have : I / 12 = m.year ∧ I % 12 + 1 = m.month := by rw [← hI]; unfold Cal.monthIndex; omega
    simp only [e0, this.1, this.2]
    refine ⟨a2, ?_⟩
    rw [if_pos (by omega), if_pos trivial]
  case refine_2 =>
    rintro k e ⟨g1, g2⟩
    refine ⟨?_, g2⟩
    simp only [idx] at g1 ⊢
    split at g1 <;> split <;> omega
  case refine_1 =>
    rintro k r ⟨g1, rfl⟩
    have hz : 0 ≤ (if k = 0 then m.nano else 0) ∧ (if k = 0 then m.nano else 0) < 2000000000 := by
      split <;> omega
    by_cases hkj : k < j
    · have ei : idx k = I + k := by simp only [idx]; rw [if_pos hkj]; omega
      have hlen : m.day ≤ Cal.monthLen ((I + k) / 12) ((I + k) % 12 + 1) := by
        by_cases hk0 : k = 0
        · have : (I + k) / 12 = m.year ∧ (I + k) % 12 + 1 = m.month := by
            rw [← hI]; unfold Cal.monthIndex; omega
          rw [this.1, this.2]; exact a6
        · have := hnot k (by omega) hkj
          unfold Skips at this; omega
      rw [ei] at g1
      have hv := valid (I + k) m.day (if k = 0 then m.nano else 0) (by omega) g1 a5 hlen hz.1 hz.2
      have st := step_month c hc _ hv (I + k + 1) (by simp only; unfold Cal.monthIndex; omega)
      simp only at st
      simp only [ei, if_pos hkj]
      by_cases hk1 : k + 1 < j
      · have e1 : idx (k + 1) = I + k + 1 := by simp only [idx]; rw [if_pos hk1]; omega
        have hs := hnot (k + 1) (by omega) hk1
        rw [show I + ((k + 1 : Nat) : Int) = I + k + 1 by omega] at hs
        have s := st.1 hs
        simp only [e1, if_pos hk1, if_neg (Nat.succ_ne_zero k)]
        by_cases hY : (I + k + 1) / 12 ≤ c.maxYear
        · rw [if_pos hY] at s
          exact .inl ⟨_, s, hY, rfl⟩
        · rw [if_neg hY] at s
          exact .inr ⟨_, s, by omega, _, _, _, _, _, _, rfl⟩
      · have hjk : j = k + 1 := by omega
        have e1 : idx (k + 1) = I + k + 1 + 1 := by simp only [idx]; rw [if_neg hk1]; omega
        have hs := hjs
        rw [hjk, show I + ((k + 1 : Nat) : Int) = I + k + 1 by omega] at hs
        have s := (st.2 hs).2
        rw [hjk, show I + ((k + 1 : Nat) : Int) = I + k + 1 by omega] at hD
        rw [hD] at s
        simp only [e1, if_neg hk1, if_neg (Nat.succ_ne_zero k)]
        by_cases hY : (I + k + 1 + 1) / 12 ≤ c.maxYear
        · rw [if_pos hY] at s
          exact .inl ⟨_, s, hY, rfl⟩
        · rw [if_neg hY] at s
          exact .inr ⟨_, s, by omega, _, _, _, _, _, _, rfl⟩
    · have hk1 : ¬ k + 1 < j := by omega
      have ei : idx k = I + k + 1 := by simp only [idx]; rw [if_neg hkj]
      have e1 : idx (k + 1) = I + k + 1 + 1 := by simp only [idx]; rw [if_neg hk1]; omega
      rw [ei] at g1
      have l0 := len3 (I + k + 1)
      have l1 := len3 (I + k + 1 + 1)
      have hv := valid (I + k + 1) D (if k = 0 then m.nano else 0) (by omega) g1 hD1.1 (by omega) hz.1 hz.2
      have st := step_month c hc _ hv (I + k + 1 + 1) (by simp only; unfold Cal.monthIndex; omega)
      simp only at st
      have s := st.1 (by unfold Skips; omega)
      simp only [ei, e1, if_neg hkj, if_neg hk1, if_neg (Nat.succ_ne_zero k)]
      by_cases hY : (I + k + 1 + 1) / 12 ≤ c.maxYear
      · rw [if_pos hY] at s
        exact .inl ⟨_, s, hY, rfl⟩
      · rw [if_neg hY] at s
        exact .inr ⟨_, s, by omega, _, _, _, _, _, _, rfl⟩

/-- From 31 January 2017: nothing in February, then the 3rd of each month. -/
example : (List.range 4).map (fun k => nth (Iter.next (std .debug)) k ⟨.moment (at_ 2017 1 31 0 0 0), .months 1, false⟩) =
    [some (.ok (.moment (at_ 2017 1 31 0 0 0))), some (.ok (.moment (at_ 2017 3 3 0 0 0))),
     some (.ok (.moment (at_ 2017 4 3 0 0 0))), some (.ok (.moment (at_ 2017 5 3 0 0 0)))] ∧
    Ext.monthly (.moment (at_ 2017 1 31 0 0 0)) 1 = .ok ⟨.moment (at_ 2017 1 31 0 0 0), .months 1, false⟩ := by
  decide +kernel

/-- The bound of 23 months is reached: from 29 March 2015 the first month without an item is
February 2017. -/
example : nth (Iter.next (std .debug)) 22 ⟨.moment (at_ 2015 3 29 0 0 0), .months 1, false⟩ =
    some (.ok (.moment (at_ 2017 1 29 0 0 0))) ∧
    nth (Iter.next (std .debug)) 23 ⟨.moment (at_ 2015 3 29 0 0 0), .months 1, false⟩ =
    some (.ok (.moment (at_ 2017 3 1 0 0 0))) := by decide +kernel

/-! ## C80 -/

/-- **C80 (partial).** A yearly iterator from 29 February, any number of years at a time, forward or
backward: the item at position `k` is in the year `k * n` years on. It is on 29 February as long as no
common year has been met; and on 1 March from the first common year on. For every `k`; past
chrono's range an OutOfBounds error. -/
theorem C80_from_29_february_partial (c : Cfg) (hc : Sane c) (m : Moment) (hm : m.Valid c) (hd : m.month = 2 ∧ m.day = 29)
    (n : Int) (hn : -2000000000 ≤ n ∧ n ≤ 2000000000) (it : Iter) (hit : Ext.yearly (.moment m) n = .ok it) (k : Nat) :
    (c.minYear ≤ m.year + k * n ∧ m.year + k * n ≤ c.maxYear ∧
      ((∀ j : Nat, j ≤ k → Cal.isLeap (m.year + j * n) = true) → nth (Iter.next c) k it =
        some (.ok (.moment { m with year := m.year + k * n, nano := if k = 0 then m.nano else 0 }))) ∧
      ((∃ j : Nat, j ≤ k ∧ Cal.isLeap (m.year + j * n) = false) → nth (Iter.next c) k it =
        some (.ok (.moment { m with year := m.year + k * n, month := 3, day := 1, nano := 0 })))) ∨
    ((m.year + k * n < c.minYear ∨ c.maxYear < m.year + k * n) ∧
      ∃ Y M D H MI S, nth (Iter.next c) k it = some (.err (.outOfBounds Y M D H MI S))) := by
  have e : Ext.yearly (.moment m) n = Iter.build m (.years n) := rfl
  rw [e, (C33_build m (.years n)).1 ⟨.year, n, rfl⟩] at hit
  cases hit
  have hstep : ∀ k : Nat, ((k + 1 : Nat) : Int) * n = k * n + n := by
    intro k; rw [Int.natCast_add, Int.add_mul]; simp
  have hc' := hc
  unfold Sane at hc'
  obtain ⟨a1, a2, ⟨a3, a4, a5, a6⟩, t, a7⟩ := id hm
  have l0 : Cal.isLeap m.year = true := by
    rw [hd.1, hd.2] at a6
    cases h : Cal.isLeap m.year
    · simp [Cal.monthLen, h] at a6
    · rfl
  refine (run_shape (c := c) (inc := .years n) rfl
    (fun k r => c.minYear ≤ m.year + k * n ∧ m.year + k * n ≤ c.maxYear ∧
      (((∀ j : Nat, j ≤ k → Cal.isLeap (m.year + j * n) = true) ∧
        r = { m with year := m.year + k * n, nano := if k = 0 then m.nano else 0 }) ∨
       ((∃ j : Nat, j ≤ k ∧ Cal.isLeap (m.year + j * n) = false) ∧
        r = { m with year := m.year + k * n, month := 3, day := 1, nano := 0 })))
    (fun k e => (m.year + k * n < c.minYear ∨ c.maxYear < m.year + k * n) ∧
      ∃ Y' M' D H MI S, e = .outOfBounds Y' M' D H MI S)
    ?_ ?_ m ⟨by simp; omega, by simp; omega, .inl ⟨?_, by simp⟩⟩ k).elim ?_ ?_
  case refine_3 => intro j hj; simp [show j = 0 by omega, l0]
  case refine_4 =>
    rintro ⟨r, ⟨g1, g2, ⟨g3, rfl⟩ | ⟨g3, rfl⟩⟩, -, h⟩
    · refine .inl ⟨g1, g2, fun _ => h, ?_⟩
      rintro ⟨j, h1, h2⟩
      rw [g3 j h1] at h2; cases h2
    · refine .inl ⟨g1, g2, fun h' => ?_, fun _ => h⟩
      obtain ⟨j, h1, h2⟩ := g3
      rw [h' j h1] at h2; cases h2
  case refine_5 =>
    rintro ⟨e, ⟨g1, Y', M', D, H, MI, S, rfl⟩, -, h⟩
    exact .inr ⟨g1, Y', M', D, H, MI, S, h⟩
  · rintro k r ⟨g1, g2, g3⟩
    have hs := hstep k
    have hy : m.year + k * n + n = m.year + ((k + 1 : Nat) : Int) * n := by rw [hs]; omega
    have hz : 0 ≤ (if k = 0 then m.nano else 0) ∧ (if k = 0 then m.nano else 0) < 2000000000 := by
      split <;> omega
    rcases g3 with ⟨g3, rfl⟩ | ⟨⟨j, h1, h2⟩, rfl⟩
    · have hv : ({ m with year := m.year + k * n, nano := if k = 0 then m.nano else 0 } : Moment).Valid c := by
        refine ⟨g1, g2, ⟨a3, a4, a5, ?_⟩, t, hz.1, hz.2⟩
        simp only [hd.1, hd.2]
        simp [Cal.monthLen, g3 k (Nat.le_refl k)]
      have e := C18_adding_years_partial c _ hv n (by simp only; omega) (by simp only; omega)
      simp only [hy] at e
      by_cases hout : m.year + ((k + 1 : Nat) : Int) * n < c.minYear ∨ c.maxYear < m.year + ((k + 1 : Nat) : Int) * n
      · rw [if_pos hout] at e
        exact .inr ⟨_, e, hout, _, _, _, _, _, _, rfl⟩
      · rw [if_neg hout] at e
        cases hl : Cal.isLeap (m.year + ((k + 1 : Nat) : Int) * n)
        · rw [if_pos (show m.month = 2 ∧ m.day = 29 ∧ Cal.isLeap (m.year + ((k + 1 : Nat) : Int) * n) = false
            from ⟨hd.1, hd.2, hl⟩)] at e
          exact .inl ⟨_, e, by omega, by omega, .inr ⟨⟨k + 1, Nat.le_refl _, hl⟩, rfl⟩⟩
        · rw [if_neg (show ¬ (m.month = 2 ∧ m.day = 29 ∧ Cal.isLeap (m.year + ((k + 1 : Nat) : Int) * n) = false)
            by rw [hl]; simp)] at e
          refine .inl ⟨_, e, by omega, by omega, .inl ⟨fun j hj => ?_, by rw [if_neg (Nat.succ_ne_zero k)]⟩⟩
          by_cases h : j ≤ k
          · exact g3 j h
          · rw [show j = k + 1 by omega]; exact hl
    · have hv : ({ m with year := m.year + k * n, month := 3, day := 1, nano := 0 } : Moment).Valid c :=
        ⟨g1, g2, ⟨by simp, by simp, by simp, by simp [Cal.monthLen]⟩, t, by simp, by simp⟩
      have e := C18_adding_years_partial c _ hv n (by simp only; omega) (by simp only; omega)
      simp only [hy] at e
      by_cases hout : m.year + ((k + 1 : Nat) : Int) * n < c.minYear ∨ c.maxYear < m.year + ((k + 1 : Nat) : Int) * n
      · rw [if_pos hout] at e
        exact .inr ⟨_, e, hout, _, _, _, _, _, _, rfl⟩
      · rw [if_neg hout, if_neg (by simp)] at e
        exact .inl ⟨_, e, by omega, by omega, .inr ⟨⟨j, by omega, h2⟩, rfl⟩⟩
  · rintro k e ⟨g1, g2⟩
    refine ⟨?_, g2⟩
    have hs := hstep k
    by_cases h0 : 0 ≤ n
    · have : 0 ≤ (k : Int) * n := Int.mul_nonneg (by omega) h0
      omega
    · have : (k : Int) * n ≤ 0 := Int.mul_nonpos_of_nonneg_of_nonpos (by omega) (by omega)
      omega

example (k : Nat) := C80_from_29_february_partial (std .debug) (sane_std _) (at_ 2016 2 29 0 0 0) (by decide) (by decide) 4 (by decide)
  ⟨.moment (at_ 2016 2 29 0 0 0), .years 4, false⟩ rfl k

/-- **C80 refuted**, in general: from any 29 February, no later item of `yearly(1)` is on a 29
February again, whatever the year. -/
theorem C80_refuted (c : Cfg) (hc : Sane c) (m : Moment) (hm : m.Valid c) (hd : m.month = 2 ∧ m.day = 29)
    (it : Iter) (hit : Ext.yearly (.moment m) 1 = .ok it) (k : Nat) (hk : 1 ≤ k) (r : Moment)
    (h : nth (Iter.next c) k it = some (.ok (.moment r))) : r.month = 3 ∧ r.day = 1 ∧ r.year = m.year + k := by
  have key : Cal.isLeap m.year = true → Cal.isLeap (m.year + 1) = false := by
    intro h
    unfold Cal.isLeap at *
    simp at h ⊢
    omega
  have l0 : Cal.isLeap m.year = true := by
    have a6 := hm.2.2.1.2.2.2
    rw [hd.1, hd.2] at a6
    cases h : Cal.isLeap m.year
    · simp [Cal.monthLen, h] at a6
    · rfl
  rcases C80_from_29_february_partial c hc m hm hd 1 (by decide) it hit k with ⟨-, -, -, h3⟩ | ⟨-, _, _, _, _, _, _, h3⟩
  · rw [h3 ⟨1, hk, by simpa using key l0⟩] at h
    have e := ok_moment_inj (Option.some.inj h)
    subst e
    simp
  · rw [h3] at h; cases h

/-- 2016 and 2020 are leap years, but `yearly(1)` gives 1 March 2020; `yearly(4)` gives 29 February. -/
example : nth (Iter.next (std .debug)) 4 ⟨.moment (at_ 2016 2 29 1 2 3), .years 1, false⟩ =
      some (.ok (.moment (at_ 2020 3 1 1 2 3))) ∧ Cal.isLeap 2020 = true ∧
    nth (Iter.next (std .debug)) 4 ⟨.moment (at_ 2016 2 29 1 2 3), .years 4, false⟩ =
      some (.ok (.moment (at_ 2032 2 29 1 2 3))) ∧
    Ext.yearly (.moment (at_ 2016 2 29 1 2 3)) 1 = .ok ⟨.moment (at_ 2016 2 29 1 2 3), .years 1, false⟩ := by
  decide +kernel

end Props
