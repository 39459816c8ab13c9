import Verif.Props.Edge

/-!
# C92: subtracting what does not fit, in the wrapping build
-/

namespace Props
open Kairos Spec

private theorem chk_release {ε : Type} {c : Cfg} (hp : c.profile = .release) (x : Int) : ∃ v, (c.chk x : OutE ε Int) = .ok v := by
  by_cases h : InI64 x
  · exact ⟨x, chk_ok_of_in c h⟩
  · exact ⟨_, by simp only [Cfg.chk, if_neg h, hp]; rfl⟩

private theorem borrow_release {ε : Type} {c : Cfg} (hp : c.profile = .release) (b l k t n : Int) :
    ∃ p, (borrow c b l k t n : OutE ε (Int × Int)) = .ok p := by
  unfold borrow
  split
  · simp only [Cfg.abs, Cfg.add, Cfg.sub]
    obtain ⟨v1, e1⟩ := chk_release (ε := ε) hp (if b < 0 then -b else b)
    rw [e1, OutE.ok_bind]
    obtain ⟨v2, e2⟩ := chk_release (ε := ε) hp (v1.tdiv k + 1)
    rw [e2, OutE.ok_bind]
    obtain ⟨v3, e3⟩ := chk_release (ε := ε) hp (n - v2)
    rw [e3, OutE.ok_bind]
    obtain ⟨v4, e4⟩ := chk_release (ε := ε) hp (0 - b)
    rw [e4, OutE.ok_bind]
    obtain ⟨v5, e5⟩ := chk_release (ε := ε) hp (if v4 < 0 then -v4 else v4)
    rw [e5, OutE.ok_bind]
    obtain ⟨v6, e6⟩ := chk_release (ε := ε) hp (t - v5)
    rw [e6, OutE.ok_bind]
    exact ⟨_, rfl⟩
  · exact ⟨_, rfl⟩

/-- Borrowing for a component that has wrapped round to the smallest numbers of all. -/
private theorem borrow_wrapped {ε : Type} {c : Cfg} (hp : c.profile = .release) {low k top next : Int} (j : Int)
    (h0 : 0 ≤ j) (h1 : j ≤ 100) (hl : 0 ≤ low) (ht : 0 ≤ top ∧ top ≤ 60) :
    ∃ nx, (borrow c (-9223372036854775808 + j) low k top next : OutE ε (Int × Int)) = .ok (nx, -9223372036854775808 + (top + j)) := by
  unfold borrow
  rw [if_pos (by omega)]
  simp only [Cfg.abs, Cfg.add, Cfg.sub]
  obtain ⟨v1, e1⟩ := chk_release (ε := ε) hp (if -9223372036854775808 + j < 0 then -(-9223372036854775808 + j) else -9223372036854775808 + j)
  rw [e1, OutE.ok_bind]
  obtain ⟨v2, e2⟩ := chk_release (ε := ε) hp (v1.tdiv k + 1)
  rw [e2, OutE.ok_bind]
  obtain ⟨v3, e3⟩ := chk_release (ε := ε) hp (next - v2)
  rw [e3, OutE.ok_bind]
  refine ⟨v3, ?_⟩
  by_cases hj : j = 0
  · subst hj
    rw [wrap_over hp (j := 0) (by omega) (by omega) (by omega), OutE.ok_bind, if_pos (by omega),
      wrap_over hp (j := 0) (by omega) (by omega) (by omega), OutE.ok_bind,
      wrap_over hp (j := top) (by omega) (by omega) (by omega), OutE.ok_bind]
    simp
  · rw [chk_ok_of_in c (by unfold InI64; omega), OutE.ok_bind, if_neg (by omega),
      chk_ok_of_in c (by unfold InI64; omega), OutE.ok_bind, chk_ok_of_in c (by unfold InI64; omega), OutE.ok_bind]
    congr 2; omega

/-- Borrowing for the smallest number of all. -/
theorem borrow_min {ε : Type} {c : Cfg} (hp : c.profile = .release) {low k top next : Int} (hl : 0 ≤ low)
    (ht : 0 ≤ top ∧ top ≤ 60) (hi : InI64 ((-9223372036854775808 : Int).tdiv k + 1)) (hi2 : InI64 (next - ((-9223372036854775808 : Int).tdiv k + 1))) :
    (borrow c (-9223372036854775808) low k top next : OutE ε (Int × Int)) =
      .ok (next - ((-9223372036854775808 : Int).tdiv k + 1), -9223372036854775808 + top) := by
  unfold borrow
  rw [if_pos (by omega)]
  simp only [Cfg.abs, Cfg.add, Cfg.sub]
  rw [if_pos (by omega), wrap_over hp (j := 0) (by omega) (by omega) (by omega), OutE.ok_bind]
  simp only [Int.add_zero]
  rw [chk_ok_of_in c hi, OutE.ok_bind, chk_ok_of_in c hi2, OutE.ok_bind,
    wrap_over hp (j := 0) (by omega) (by omega) (by omega), OutE.ok_bind, if_pos (by omega),
    wrap_over hp (j := 0) (by omega) (by omega) (by omega), OutE.ok_bind,
    wrap_over hp (j := top) (by omega) (by omega) (by omega), OutE.ok_bind]

/-- Without checks, borrowing always gives some parts; the smaller ones are not touched by the later steps. -/
private theorem tail_release {ε : Type} {c : Cfg} (hp : c.profile = .release) (y mo d h mi s : Int) :
    (∃ p, (adjustTimesSub c ⟨y, mo, d, h, mi, s⟩ : OutE ε Parts) = .ok p ∧
      (∀ nx b, (borrow c s 0 60 60 mi : OutE ε (Int × Int)) = .ok (nx, b) → p.s = b) ∧
      (0 ≤ s → ∀ nx b, (borrow c mi 0 60 60 h : OutE ε (Int × Int)) = .ok (nx, b) → p.mi = b) ∧
      (0 ≤ s → 0 ≤ mi → ∀ nx b, (borrow c h 0 24 24 d : OutE ε (Int × Int)) = .ok (nx, b) → p.h = b) ∧
      (0 ≤ s → 0 ≤ mi → 0 ≤ h → ∀ nx b, (borrow c d 1 32 31 mo : OutE ε (Int × Int)) = .ok (nx, b) → p.d = b) ∧
      (0 ≤ s → 0 ≤ mi → 0 ≤ h → 1 ≤ d → ∀ nx b, (borrow c mo 1 13 12 y : OutE ε (Int × Int)) = .ok (nx, b) → p.mo = b ∧ p.y = nx)) := by
  obtain ⟨⟨mi1, s1⟩, e1⟩ := borrow_release (ε := ε) hp s 0 60 60 mi
  obtain ⟨⟨h1, mi2⟩, e2⟩ := borrow_release (ε := ε) hp mi1 0 60 60 h
  obtain ⟨⟨d1, h2⟩, e3⟩ := borrow_release (ε := ε) hp h1 0 24 24 d
  obtain ⟨⟨mo1, d2⟩, e4⟩ := borrow_release (ε := ε) hp d1 1 32 31 mo
  obtain ⟨⟨y1, mo2⟩, e5⟩ := borrow_release (ε := ε) hp mo1 1 13 12 y
  have w1 : 0 ≤ s → mi1 = mi := fun hs => by
    rw [borrow_within c hs] at e1; injection e1 with e1; injection e1 with e1 _; exact e1.symm
  have w2 : 0 ≤ s → 0 ≤ mi → h1 = h := fun hs hmi => by
    rw [w1 hs, borrow_within c hmi] at e2; injection e2 with e2; injection e2 with e2 _; exact e2.symm
  have w3 : 0 ≤ s → 0 ≤ mi → 0 ≤ h → d1 = d := fun hs hmi hh => by
    rw [w2 hs hmi, borrow_within c hh] at e3; injection e3 with e3; injection e3 with e3 _; exact e3.symm
  have w4 : 0 ≤ s → 0 ≤ mi → 0 ≤ h → 1 ≤ d → mo1 = mo := fun hs hmi hh hd => by
    rw [w3 hs hmi hh, borrow_within c hd] at e4; injection e4 with e4; injection e4 with e4 _; exact e4.symm
  refine ⟨⟨y1, mo2, d2, h2, mi2, s1⟩, ?_, ?_, ?_, ?_, ?_, ?_⟩
  · unfold adjustTimesSub
    simp only [e1, e2, e3, e4, e5, OutE.ok_bind]
  · intro nx b e; rw [e1] at e; injection e with e; injection e
  · intro hs nx b e; rw [← w1 hs, e2] at e; injection e with e; injection e
  · intro hs hmi nx b e; rw [← w2 hs hmi, e3] at e; injection e with e; injection e
  · intro hs hmi hh nx b e; rw [← w3 hs hmi hh, e4] at e; injection e with e; injection e
  · intro hs hmi hh hd nx b e; rw [← w4 hs hmi hh hd, e5] at e; injection e with e; injection e with f g; exact ⟨g, f⟩

private theorem build_fails_month (c : Cfg) {p : Parts}
    (h : 12 < asU32 p.mo ∨ asI32 p.y < c.minYear) : ∃ e, Eval.buildMoment c p = .err e := by
  cases hb : Eval.buildMoment c p with
  | err e => exact ⟨e, rfl⟩
  | panic => exact absurd hb (np_build c p)
  | oof => unfold Eval.buildMoment at hb; split at hb <;> cases hb
  | ok v =>
    obtain ⟨m, -, hm, hv⟩ := buildMoment_ok hb
    obtain ⟨h1, h2, ⟨h3, h4, h5, h6⟩, -⟩ := hv.1
    subst hm
    simp only at *
    omega

/-- **C92, subtracting seconds, minutes, hours or months that do not fit, in the wrapping build**: an error. -/
theorem C92_wrapped_subtracting (c : Cfg) (hc : Sane c) (hp : c.profile = .release) (m : Moment) (hm : m.Valid c) (u : TUnit)
    (hu : u = .second ∨ u = .minute ∨ u = .hour ∨ u = .month) (n : Int) (hn : InI64 n) (h : ¬ InI64 (part m u - n)) :
    ∃ e, calculate c (.moment m - amt u n) = .err e := by
  obtain ⟨h1, h2, ⟨h3, h4, h5, h6⟩, ⟨t1, t2, t3, t4, t5, t6⟩, -⟩ := hm
  have hb31 := Cal.monthLen_bounds (y := m.year) h3 h4
  unfold Sane at hc
  unfold InI64 at hn h
  rw [calc_sub_moment, exec_subFromMoment]
  rcases hu with rfl | rfl | rfl | rfl <;> simp only [amt, Eval.subFromMoment, Cfg.sub, part] at h ⊢
  · obtain ⟨j, hj⟩ : ∃ j, m.second - n = 9223372036854775808 + j := ⟨m.second - n - 9223372036854775808, by omega⟩
    rw [wrap_over hp hj (by omega) (by omega), OutE.ok_bind]
    obtain ⟨p, e, k, -⟩ := tail_release hp m.year m.month m.day m.hour m.minute (-9223372036854775808 + j)
    obtain ⟨nx, eb⟩ := borrow_wrapped hp (low := 0) (k := 60) (top := 60) (next := m.minute) j (by omega) (by omega) (by omega) (by omega)
    rw [e, OutE.ok_bind]
    have := k _ _ eb
    exact build_fails c (by unfold asU32; omega)
  · obtain ⟨j, hj⟩ : ∃ j, m.minute - n = 9223372036854775808 + j := ⟨m.minute - n - 9223372036854775808, by omega⟩
    rw [wrap_over hp hj (by omega) (by omega), OutE.ok_bind]
    obtain ⟨p, e, -, k, -⟩ := tail_release hp m.year m.month m.day m.hour (-9223372036854775808 + j) m.second
    obtain ⟨nx, eb⟩ := borrow_wrapped hp (low := 0) (k := 60) (top := 60) (next := m.hour) j (by omega) (by omega) (by omega) (by omega)
    rw [e, OutE.ok_bind]
    have := k t5 _ _ eb
    exact build_fails c (by unfold asU32; omega)
  · obtain ⟨j, hj⟩ : ∃ j, m.hour - n = 9223372036854775808 + j := ⟨m.hour - n - 9223372036854775808, by omega⟩
    rw [wrap_over hp hj (by omega) (by omega), OutE.ok_bind]
    obtain ⟨p, e, -, -, k, -⟩ := tail_release hp m.year m.month m.day (-9223372036854775808 + j) m.minute m.second
    obtain ⟨nx, eb⟩ := borrow_wrapped hp (low := 0) (k := 24) (top := 24) (next := m.day) j (by omega) (by omega) (by omega) (by omega)
    rw [e, OutE.ok_bind]
    have := k t5 t3 _ _ eb
    exact build_fails c (by unfold asU32; omega)
  · obtain ⟨j, hj⟩ : ∃ j, m.month - n = 9223372036854775808 + j := ⟨m.month - n - 9223372036854775808, by omega⟩
    rw [wrap_over hp hj (by omega) (by omega), OutE.ok_bind]
    obtain ⟨p, e, -, -, -, -, k⟩ := tail_release hp m.year (-9223372036854775808 + j) m.day m.hour m.minute m.second
    rw [e, OutE.ok_bind]
    by_cases hj0 : j = 0
    · subst hj0
      have := (k t5 t3 t1 h5 _ _ (borrow_min hp (by decide) (by decide) (by decide) (by
        rw [show (-9223372036854775808 : Int).tdiv 13 = -709490156681136600 by decide]; unfold InI64; omega))).2
      rw [show (-9223372036854775808 : Int).tdiv 13 = -709490156681136600 by decide] at this
      refine build_fails_month c (.inr ?_)
      rw [asI32_of (Y := m.year - 660764201) (k := 165191050) (by omega) (by omega) (by omega)]
      omega
    · obtain ⟨nx, eb⟩ := borrow_wrapped hp (low := 1) (k := 13) (top := 12) (next := m.year) j (by omega) (by omega) (by omega) (by omega)
      have := (k t5 t3 t1 h5 _ _ eb).1
      exact build_fails_month c (by unfold asU32; omega)

example := C92_wrapped_subtracting (std .release) (sane_std _) rfl (at_ 2017 1 31 0 0 0) (by decide) .hour (by decide) (-9223372036854775808)
  (by decide) (by decide)

/-- **C92, subtracting days that do not fit, in the wrapping build**: the 31st of the month before if that month is in the same
year and has 31 days and if the day number is exactly one too large; otherwise an error. -/
theorem C92_wrapped_subtracting_days (c : Cfg) (hc : Sane c) (hp : c.profile = .release) (m : Moment) (hm : m.Valid c)
    (n : Int) (hn : InI64 n) (h : ¬ InI64 (m.day - n)) :
    (m.day - n = 9223372036854775808 ∧ 1 < m.month ∧ Cal.monthLen m.year (m.month - 1) = 31 →
      calculate c (.moment m - .days n) = .ok (.moment { m with month := m.month - 1, day := 31, nano := 0 })) ∧
    (¬ (m.day - n = 9223372036854775808 ∧ 1 < m.month ∧ Cal.monthLen m.year (m.month - 1) = 31) →
      ∃ e, calculate c (.moment m - .days n) = .err e) := by
  obtain ⟨h1, h2, ⟨h3, h4, h5, h6⟩, t, -⟩ := hm
  obtain ⟨t1, t2, t3, t4, t5, t6⟩ := id t
  have hb31 := Cal.monthLen_bounds (y := m.year) h3 h4
  unfold Sane at hc
  unfold InI64 at hn h
  rw [calc_sub_moment, exec_subFromMoment]
  simp only [Eval.subFromMoment, Cfg.sub]
  obtain ⟨j, hj⟩ : ∃ j, m.day - n = 9223372036854775808 + j := ⟨m.day - n - 9223372036854775808, by omega⟩
  rw [wrap_over hp hj (by omega) (by omega), OutE.ok_bind]
  by_cases hj0 : j = 0
  · subst hj0
    unfold adjustTimesSub
    simp only
    rw [borrow_within c t5, OutE.ok_bind]
    simp only
    rw [borrow_within c t3, OutE.ok_bind]
    simp only
    rw [borrow_within c t1, OutE.ok_bind]
    simp only [Int.add_zero]
    rw [borrow_min hp (by decide) (by decide) (by decide) (by
        rw [show (-9223372036854775808 : Int).tdiv 32 = -288230376151711744 by decide]; unfold InI64; omega), OutE.ok_bind]
    simp only
    rw [show (-9223372036854775808 : Int).tdiv 32 = -288230376151711744 by decide, borrow_within c (by omega), OutE.ok_bind]
    simp only [OutE.ok_bind]
    rw [build_u32 c (MO := m.month - 1) (D := 31) (by unfold asU32; omega) (by decide),
      build_cases c (by simp only; omega) (by simp only; omega) (by simp only; omega) (by simp only; omega) t]
    constructor
    · rintro ⟨-, g1, g2⟩
      rw [if_pos ⟨h1, h2, by simp only; omega, by simp only; omega, by simp only; omega, by simp only; omega⟩]
    · intro hno
      rw [if_neg]
      · exact ⟨_, rfl⟩
      · rintro ⟨-, -, v1, v2, v3, v4⟩
        simp only at v1 v2 v4
        have := Cal.monthLen_bounds (y := m.year) v1 v2
        exact hno ⟨by omega, by omega, by omega⟩
  · refine ⟨fun hx => by omega, fun _ => ?_⟩
    obtain ⟨p, e, -, -, -, k, -⟩ := tail_release hp m.year m.month (-9223372036854775808 + j) m.hour m.minute m.second
    rw [e, OutE.ok_bind]
    obtain ⟨nx, eb⟩ := borrow_wrapped hp (low := 1) (k := 32) (top := 31) (next := m.month) j (by omega) (by omega) (by omega) (by omega)
    have := k t5 t3 t1 _ _ eb
    exact build_fails c (by unfold asU32; omega)

/-- In the wrapping build 2^63 - 15 days "minus" from 15 June end on 31 May; 2^63 seconds are an error. -/
example : (std .release).profile = .release ∧ (at_ 2017 6 15 12 0 0).Valid (std .release) ∧ InI64 (-9223372036854775793) ∧
    (at_ 2017 6 15 12 0 0).day - -9223372036854775793 = 9223372036854775808 ∧
    calculate (std .release) (.moment (at_ 2017 6 15 12 0 0) - .days (-9223372036854775793)) = .ok (.moment (at_ 2017 5 31 12 0 0)) ∧
    ¬ InI64 ((at_ 2017 5 15 12 0 0).day - -9223372036854775793) ∧
    calculate (std .release) (.moment (at_ 2017 5 15 12 0 0) - .days (-9223372036854775793)) = .err (.outOfBounds 2017 4 12 12 0 0) ∧
    ¬ InI64 (part (at_ 2017 6 15 12 0 0) .month - -9223372036854775802) ∧
    calculate (std .release) (.moment (at_ 2017 6 15 12 0 0) - .months (-9223372036854775802)) =
      .err (.outOfBounds (-660762184) 12 12 12 0 0) := by
  decide +kernel

end Props
