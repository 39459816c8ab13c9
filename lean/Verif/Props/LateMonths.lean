import Verif.Props.LateDays
import Verif.Props.AllAmounts

/-! Monthly iterators with any number of months per step, from any day (C79). -/

namespace Props
open Kairos Spec

/-- The length of month number `i` (twelve per year, January of year 0 is number 0, as in `Cal.monthIndex`). -/
def lengthOf (i : Int) : Int := Cal.monthLen (i / 12) (i % 12 + 1)

/-- A step of `n` months from month number `i` ends in a later year. -/
def LeavesYear (i n : Int) : Prop := i / 12 < (i + n) / 12

/-- A step of `n` months from day `d` of month number `i` does not end on that day: there is none in the month it ends in, or
the day is the 31st and the step ends in a later year. -/
def Stumbles (d i n : Int) : Prop := lengthOf (i + n) < d ∨ (d = 31 ∧ LeavesYear i n)

instance (i n : Int) : Decidable (LeavesYear i n) := by unfold LeavesYear; infer_instance
instance (d i n : Int) : Decidable (Stumbles d i n) := by unfold Stumbles; infer_instance

/-- The day `d` of month number `i`, at the time of day of `m`. -/
def onDay (m : Moment) (i d z : Int) : Moment := { m with year := i / 12, month := i % 12 + 1, day := d, nano := z }

theorem lengthOf_bounds (i : Int) : 28 ≤ lengthOf i ∧ lengthOf i ≤ 31 :=
  Cal.monthLen_bounds (y := i / 12) (m := i % 12 + 1) (by omega) (by omega)

private theorem step_months (c : Cfg) (hc : Sane c) (m : Moment) (i d z n : Int) (hv : (onDay m i d z).Valid c) (hn : 1 ≤ n)
    (hmax : n ≤ 24000000000) :
    (¬ Stumbles d i n → calculate c (.moment (onDay m i d z) + .months n) =
      if (i + n) / 12 ≤ c.maxYear then .ok (.moment (onDay m (i + n) d 0))
      else .err (.outOfBounds ((i + n) / 12) ((i + n) % 12 + 1) m.hour m.hour m.minute m.second)) ∧
    (Stumbles d i n → LeavesYear i n → d ≤ 30 →
      ∃ Y M, calculate c (.moment (onDay m i d z) + .months n) = .err (.outOfBounds Y M m.hour m.hour m.minute m.second)) ∧
    (Stumbles d i n → ¬ (LeavesYear i n ∧ d ≤ 30) → calculate c (.moment (onDay m i d z) + .months n) =
      if (i + n + 1) / 12 ≤ c.maxYear then
        .ok (.moment (onDay m (i + n + 1) (if LeavesYear i n then 1 else d - lengthOf (i + n)) 0))
      else .err (.outOfBounds ((i + n + 1) / 12) ((i + n + 1) % 12 + 1) m.hour m.hour m.minute m.second)) := by
  have hc' := hc
  unfold Sane at hc'
  obtain ⟨a1, a2, ⟨a3, a4, a5, a6⟩, t, a7⟩ := id hv
  have lb := lengthOf_bounds i
  have lb' := lengthOf_bounds (i + n)
  have hd31 : d ≤ 31 := by
    have : (onDay m i d z).day ≤ _ := a6
    simp only [onDay] at this; unfold lengthOf at lb; omega
  simp only [onDay] at a1 a2 a5
  by_cases hL : LeavesYear i n
  · have hL' := hL
    unfold LeavesYear at hL'
    by_cases h30 : d ≤ 30
    · have key := C17_beyond_the_year_partial c hc (onDay m i d z) hv h30 n ((i + n) / 12) ((i + n) % 12 + 1) ((i + n) / 12) 0
        (by simp only [onDay]; omega) (by omega) (by simp only [onDay]; unfold Cal.monthIndex; omega)
        (by simp only [onDay]; omega) (by omega) (by omega)
      refine ⟨fun hs => ?_, fun hs _ _ => ?_, fun _ h => absurd ⟨hL, h30⟩ h⟩
      · rw [key]
        have hlen : d ≤ lengthOf (i + n) := by unfold Stumbles at hs; omega
        by_cases hY : (i + n) / 12 ≤ c.maxYear
        · rw [if_pos hY, if_pos ⟨by omega, hY, by omega, by omega, a5, hlen⟩]; rfl
        · rw [if_neg hY, if_neg (fun h => hY h.2.1)]; rfl
      · rw [key, if_neg (fun h => ?_)]
        · exact ⟨_, _, rfl⟩
        · have : d ≤ lengthOf (i + n) := h.2.2.2.2.2
          unfold Stumbles at hs; omega
    · have e31 : d = 31 := by omega
      have key := C17_from_the_31st_partial c hc (onDay m i d z) hv e31 n ((i + n + 1) / 12) ((i + n + 1) % 12 + 1) ((i + n + 1) / 12) 0
        (by simp only [onDay]; omega) (by omega) (by simp only [onDay]; unfold Cal.monthIndex; omega)
        (by simp only [onDay]; omega) (by omega) (by omega)
      refine ⟨fun hs => absurd (.inr ⟨e31, hL⟩) hs, fun _ _ h => absurd h h30, fun _ _ => ?_⟩
      rw [key, if_pos hL]
      by_cases hY : (i + n + 1) / 12 ≤ c.maxYear
      · rw [if_pos hY, if_pos ⟨by omega, hY⟩]; rfl
      · rw [if_neg hY, if_neg (fun h => hY h.2)]; rfl
  · have hL' := hL
    unfold LeavesYear at hL'
    have ey : (i + n) / 12 = i / 12 := by omega
    have em : (i + n) % 12 + 1 = i % 12 + 1 + n := by omega
    have key := C17_within_the_year_partial c hc (onDay m i d z) hv n (i % 12 + 1 + n) (by omega) rfl (by omega)
    have el : lengthOf (i + n) = Cal.monthLen (i / 12) (i % 12 + 1 + n) := by unfold lengthOf; rw [ey, em]
    refine ⟨fun hs => ?_, fun _ h => absurd h hL, fun hs _ => ?_⟩
    · have hlen : d ≤ Cal.monthLen (i / 12) (i % 12 + 1 + n) := by unfold Stumbles at hs; omega
      rw [key, if_pos (by simp only [onDay]; exact hlen), if_pos (by omega)]
      simp only [onDay, ey, em]
    · have hlen : ¬ d ≤ Cal.monthLen (i / 12) (i % 12 + 1 + n) := by
        rcases hs with hs | ⟨-, hs⟩
        · omega
        · exact absurd hs hL
      have h11 : i % 12 + 1 + n ≤ 11 := by
        by_cases h : i % 12 + 1 + n = 12
        · rw [h] at hlen; simp [Cal.monthLen] at hlen; omega
        · omega
      have ey2 : (i + n + 1) / 12 = i / 12 := by omega
      have em2 : (i + n + 1) % 12 + 1 = i % 12 + 1 + n + 1 := by omega
      rw [key, if_neg (by simp only [onDay]; exact hlen), if_pos (by omega), if_neg hL, el]
      simp only [onDay, ey2, em2]

/-- **C79, every step (partial).** A monthly iterator with `n ≥ 1` months per step (up to two billion years), from any moment.
`I` is the number of the month of the base. As long as no step stumbles, the item at position `k` is on the day of the base, `k * n` months on. If the step after
position `j` is the first one to stumble: if it leaves the year, and the day is the 29th or 30th, there are only errors from then on; otherwise all
further items are one month late and on the 1st, 2nd or 3rd: on the 1st if that step left the year, and else on the day that is left over. In
chrono's range; beyond it there are only errors. Missing: one item on the day of the base in each `n`-th month, see `C79_refuted`. -/
theorem C79_every_step_partial (c : Cfg) (hc : Sane c) (m : Moment) (hm : m.Valid c) (n : Int) (hn : 1 ≤ n) (hmax : n ≤ 24000000000)
    (it : Iter) (hit : Ext.monthly (.moment m) n = .ok it) (I : Int) (hI : I = Cal.monthIndex m.year m.month) :
    (∀ k : Nat, (∀ j : Nat, j < k → ¬ Stumbles m.day (I + j * n) n) →
      ((I + k * n) / 12 ≤ c.maxYear →
        nth (Iter.next c) k it = some (.ok (.moment (onDay m (I + k * n) m.day (if k = 0 then m.nano else 0))))) ∧
      (c.maxYear < (I + k * n) / 12 → ∃ Y M D H MI S, nth (Iter.next c) k it = some (.err (.outOfBounds Y M D H MI S)))) ∧
    (∀ j : Nat, (∀ j' : Nat, j' < j → ¬ Stumbles m.day (I + j' * n) n) → Stumbles m.day (I + j * n) n → ∀ k : Nat, j < k →
      (LeavesYear (I + j * n) n ∧ m.day ≤ 30 → ∃ Y M D H MI S, nth (Iter.next c) k it = some (.err (.outOfBounds Y M D H MI S))) ∧
      (¬ (LeavesYear (I + j * n) n ∧ m.day ≤ 30) → ∀ D : Int,
        D = (if LeavesYear (I + j * n) n then 1 else m.day - lengthOf (I + j * n + n)) →
        1 ≤ D ∧ D ≤ 3 ∧
        ((I + k * n + 1) / 12 ≤ c.maxYear → nth (Iter.next c) k it = some (.ok (.moment (onDay m (I + k * n + 1) D 0)))) ∧
        (c.maxYear < (I + k * n + 1) / 12 → ∃ Y M D H MI S, nth (Iter.next c) k it = some (.err (.outOfBounds Y M D H MI S))))) := by
  have e : Ext.monthly (.moment m) n = Iter.build m (.months n) := rfl
  rw [e, (C33_build m (.months n)).1 ⟨.month, n, rfl⟩] at hit
  cases hit
  have hc' := hc
  unfold Sane at hc'
  obtain ⟨a1, a2, ⟨a3, a4, a5, a6⟩, t, a7⟩ := id hm
  have ml := Cal.monthLen_bounds (y := m.year) a3 a4
  have hIv : I / 12 = m.year ∧ I % 12 + 1 = m.month := by rw [hI]; unfold Cal.monthIndex; omega
  have hstep : ∀ k : Nat, ((k + 1 : Nat) : Int) * n = k * n + n := by
    intro k; rw [Int.natCast_add, Int.add_mul]; simp
  have hpos : ∀ k : Nat, 0 ≤ (k : Int) * n := fun k => Int.mul_nonneg (Int.natCast_nonneg _) (by omega)
  have valid : ∀ i d z : Int, I ≤ i → i / 12 ≤ c.maxYear → 1 ≤ d → d ≤ lengthOf i → 0 ≤ z → z < 2000000000 →
      (onDay m i d z).Valid c := by
    intro i d z h1 h2 h3 h4 h5 h6
    exact ⟨by simp only [onDay]; omega, h2, ⟨by simp only [onDay]; omega, by simp only [onDay]; omega, h3, h4⟩, t, h5, h6⟩
  let early : Nat → Prop := fun k => ∀ j : Nat, j < k → ¬ Stumbles m.day (I + j * n) n
  let first : Nat → Prop := fun j => early j ∧ Stumbles m.day (I + j * n) n
  let hard : Nat → Prop := fun j => LeavesYear (I + j * n) n ∧ m.day ≤ 30
  let D : Nat → Int := fun j => if LeavesYear (I + j * n) n then 1 else m.day - lengthOf (I + j * n + n)
  have hD : ∀ j, first j → 1 ≤ D j ∧ D j ≤ 3 := by
    intro j hj
    have lb := lengthOf_bounds (I + j * n + n)
    simp only [D]
    by_cases hL : LeavesYear (I + j * n) n
    · rw [if_pos hL]; omega
    · rw [if_neg hL]
      rcases hj.2 with h | ⟨-, h⟩
      · omega
      · exact absurd h hL
  have hsucc : ∀ k, early k → early (k + 1) ∨ first k := by
    intro k hk
    by_cases hs : Stumbles m.day (I + k * n) n
    · exact .inr ⟨hk, hs⟩
    · refine .inl fun j hj => ?_
      by_cases e : j = k
      · rw [e]; exact hs
      · exact hk j (by omega)
  have uniq : ∀ j j', first j → first j' → j = j' := by
    intro j j' h h'
    rcases Nat.lt_trichotomy j j' with g | g | g
    · exact absurd h.2 (h'.1 j g)
    · exact g
    · exact absurd h'.2 (h.1 j' g)
  have elen : ∀ k, early k → m.day ≤ lengthOf (I + k * n) := by
    intro k hk
    cases k with
    | zero =>
      have e0 : I + ((0 : Nat) : Int) * n = I := by simp
      rw [e0]; unfold lengthOf; rw [hIv.1, hIv.2]; exact a6
    | succ k =>
      have := hk k (by omega)
      rw [hstep, ← Int.add_assoc]
      unfold Stumbles at this; omega
  have shape := run_shape (c := c) (inc := .months n) rfl
    (fun k r => (early k ∧ (I + k * n) / 12 ≤ c.maxYear ∧ r = onDay m (I + k * n) m.day (if k = 0 then m.nano else 0)) ∨
      (∃ j, j < k ∧ first j ∧ ¬ hard j ∧ (I + k * n + 1) / 12 ≤ c.maxYear ∧ r = onDay m (I + k * n + 1) (D j) 0))
    (fun k e => (∃ Y M D H MI S, e = .outOfBounds Y M D H MI S) ∧
      ((early k ∧ c.maxYear < (I + k * n) / 12) ∨
       (∃ j, j < k ∧ first j ∧ (hard j ∨ c.maxYear < (I + k * n + 1) / 12))))
    ?_ ?_ m ?_
  · refine ⟨fun k hk => ?_, fun j h1 h2 k hjk => ?_⟩
    · have hno : ∀ j, j < k → ¬ first j := fun j hj h => hk j hj h.2
      rcases shape k with ⟨r, hg, -, h⟩ | ⟨e, ⟨⟨Y, M, D', H, MI, S, rfl⟩, hb⟩, -, h⟩
      · rcases hg with ⟨-, g, rfl⟩ | ⟨j, g1, g2, -⟩
        · exact ⟨fun _ => h, fun g' => by omega⟩
        · exact absurd g2 (hno j g1)
      · rcases hb with ⟨-, g⟩ | ⟨j, g1, g2, -⟩
        · exact ⟨fun g' => by omega, fun _ => ⟨_, _, _, _, _, _, h⟩⟩
        · exact absurd g2 (hno j g1)
    · have hf : first j := ⟨h1, h2⟩
      have hne : ¬ early k := fun h => h j hjk h2
      refine ⟨fun hh => ?_, fun hs D' eD => ?_⟩
      · rcases shape k with ⟨r, hg, -, h⟩ | ⟨e, ⟨⟨Y, M, D', H, MI, S, rfl⟩, hb⟩, -, h⟩
        · rcases hg with ⟨g, -⟩ | ⟨j', g1, g2, g3, -⟩
          · exact absurd g hne
          · rw [uniq j' j g2 hf] at g3; exact absurd hh g3
        · exact ⟨_, _, _, _, _, _, h⟩
      · have hd := hD j hf
        rw [show D' = D j from eD]
        refine ⟨hd.1, hd.2, ?_⟩
        rcases shape k with ⟨r, hg, -, h⟩ | ⟨e, ⟨⟨Y, M, D', H, MI, S, rfl⟩, hb⟩, -, h⟩
        · rcases hg with ⟨g, -⟩ | ⟨j', g1, g2, g3, g4, rfl⟩
          · exact absurd g hne
          · rw [uniq j' j g2 hf] at h
            exact ⟨fun _ => h, fun g' => by omega⟩
        · rcases hb with ⟨g, -⟩ | ⟨j', g1, g2, g3⟩
          · exact absurd g hne
          · rw [uniq j' j g2 hf] at g3
            rcases g3 with g3 | g3
            · exact absurd g3 hs
            · exact ⟨fun g' => by omega, fun _ => ⟨_, _, _, _, _, _, h⟩⟩
  · -- one step
    intro k r hg
    have hz : 0 ≤ (if k = 0 then m.nano else 0) ∧ (if k = 0 then m.nano else 0) < 2000000000 := by split <;> omega
    have hk0 := hpos k
    rw [hstep]
    rcases hg with ⟨hE, hY, rfl⟩ | ⟨j, hj, hf, hh, hY, rfl⟩
    · have st := step_months c hc m (I + k * n) m.day (if k = 0 then m.nano else 0) n
        (valid _ _ _ (by omega) hY a5 (elen k hE) hz.1 hz.2) hn hmax
      rw [if_neg (Nat.succ_ne_zero k), ← Int.add_assoc]
      rcases hsucc k hE with hE' | hF
      · have s := st.1 (hE' k (by omega))
        by_cases hY' : (I + k * n + n) / 12 ≤ c.maxYear
        · rw [if_pos hY'] at s
          exact .inl ⟨_, s, .inl ⟨hE', hY', rfl⟩⟩
        · rw [if_neg hY'] at s
          exact .inr ⟨_, s, ⟨_, _, _, _, _, _, rfl⟩, .inl ⟨hE', by omega⟩⟩
      · by_cases hH : hard k
        · obtain ⟨Y, M, s⟩ := st.2.1 hF.2 hH.1 hH.2
          exact .inr ⟨_, s, ⟨_, _, _, _, _, _, rfl⟩, .inr ⟨k, by omega, hF, .inl hH⟩⟩
        · have s := st.2.2 hF.2 hH
          by_cases hY' : (I + k * n + n + 1) / 12 ≤ c.maxYear
          · rw [if_pos hY'] at s
            exact .inl ⟨_, s, .inr ⟨k, by omega, hF, hH, hY', rfl⟩⟩
          · rw [if_neg hY'] at s
            exact .inr ⟨_, s, ⟨_, _, _, _, _, _, rfl⟩, .inr ⟨k, by omega, hF, .inr (by omega)⟩⟩
    · have hd := hD j hf
      have l0 := lengthOf_bounds (I + k * n + 1)
      have l1 := lengthOf_bounds (I + k * n + 1 + n)
      have st := step_months c hc m (I + k * n + 1) (D j) 0 n
        (valid _ _ _ (by omega) hY hd.1 (by omega) (by omega) (by omega)) hn hmax
      have s := st.1 (by unfold Stumbles; omega)
      rw [show I + (k * n + n) + 1 = I + k * n + 1 + n by omega]
      by_cases hY' : (I + k * n + 1 + n) / 12 ≤ c.maxYear
      · rw [if_pos hY'] at s
        exact .inl ⟨_, s, .inr ⟨j, by omega, hf, hh, hY', rfl⟩⟩
      · rw [if_neg hY'] at s
        exact .inr ⟨_, s, ⟨_, _, _, _, _, _, rfl⟩, .inr ⟨j, by omega, hf, .inr (by omega)⟩⟩
  · -- errors stay
    rintro k e ⟨he, hb⟩
    refine ⟨he, ?_⟩
    rw [hstep]
    rcases hb with ⟨hE, hY⟩ | ⟨j, hj, hf, hb⟩
    · rcases hsucc k hE with hE' | hF
      · exact .inl ⟨hE', by omega⟩
      · exact .inr ⟨k, by omega, hF, .inr (by omega)⟩
    · refine .inr ⟨j, by omega, hf, ?_⟩
      rcases hb with hb | hb
      · exact .inl hb
      · exact .inr (by omega)
  · refine .inl ⟨fun j hj => absurd hj (by omega), ?_, ?_⟩
    · simp; omega
    · simp only [Int.zero_mul, Int.add_zero, onDay, hIv.1, hIv.2, if_true, Int.cast_ofNat_Int]

/-- The three ways to stumble. From 31 January 2018 by three months: the first step ends in April, within the year, one day is left over, and
everything is on the 1st, one month late. From 30 November 2017 by three months: the first step ends in February of another year, only errors. From 31 January 2018 by
twelve months: the first step ends in January 2019, which has a 31st, yet the item is 1 February. -/
example : Stumbles 31 (Cal.monthIndex 2018 1) 3 ∧ ¬ LeavesYear (Cal.monthIndex 2018 1) 3 ∧
    nth (Iter.next (std .debug)) 1 ⟨.moment (at_ 2018 1 31 4 5 6), .months 3, false⟩ = some (.ok (.moment (at_ 2018 5 1 4 5 6))) ∧
    nth (Iter.next (std .debug)) 2 ⟨.moment (at_ 2018 1 31 4 5 6), .months 3, false⟩ = some (.ok (.moment (at_ 2018 8 1 4 5 6))) ∧
    Stumbles 30 (Cal.monthIndex 2017 11) 3 ∧ LeavesYear (Cal.monthIndex 2017 11) 3 ∧
    nth (Iter.next (std .debug)) 2 ⟨.moment (at_ 2017 11 30 4 5 6), .months 3, false⟩ = some (.err (.outOfBounds 2018 2 4 4 5 6)) ∧
    Stumbles 31 (Cal.monthIndex 2018 1) 12 ∧
    nth (Iter.next (std .debug)) 1 ⟨.moment (at_ 2018 1 31 4 5 6), .months 12, false⟩ = some (.ok (.moment (at_ 2019 2 1 4 5 6))) := by
  decide +kernel

/-- Steps that do not stumble: from 31 January by two months, up to July; and a base on the 30th with twelve months per step, for ever. -/
example : (∀ j : Nat, j < 3 → ¬ Stumbles 31 (Cal.monthIndex 2018 1 + j * 2) 2) ∧
    ∀ j : Nat, ¬ Stumbles 30 (Cal.monthIndex 2018 4 + j * 12) 12 := by
  refine ⟨by decide +kernel, fun j h => ?_⟩
  rcases h with h | ⟨h, -⟩
  · have e : (Cal.monthIndex 2018 4 + (j : Int) * 12 + 12) % 12 + 1 = 4 := by unfold Cal.monthIndex; omega
    unfold lengthOf at h
    rw [e] at h
    simp [Cal.monthLen] at h
  · cases h

/-- The hypotheses of `C79_every_step_partial` for these. -/
example : Sane (std .debug) ∧ (at_ 2018 1 31 4 5 6).Valid (std .debug) ∧
    Ext.monthly (.moment (at_ 2018 1 31 4 5 6)) 3 = .ok ⟨.moment (at_ 2018 1 31 4 5 6), .months 3, false⟩ := by
  decide +kernel

end Props
