import Verif.Lemmas.Rounds
import Verif.Props.Cost

/-!
# C139: how long an addition takes

`addToMomentN c n₁ n₂ m a` (`Model/Rounds.lean`) is the function that works out `m + a` with its loop over months cut
off after `n₁` rounds and its loop over years after `n₂`; its answer is `.oof` if the function is not done by then.
-/

namespace Props
open Kairos Spec

/-- The cut-offs change nothing else: what is done by then gives the same result. -/
theorem C139_cut_off (c : Cfg) (n₁ n₂ : Nat) (m : Moment) (u : TUnit) (n : Int) :
    addToMomentN c n₁ n₂ m (amt u n) = .oof ∨ addToMomentN c n₁ n₂ m (amt u n) = calculate c (.moment m + amt u n) := by
  rw [calc_add_moment, exec_addToMoment]
  have key : ∀ (x : Out Int) (f : Int → Parts),
      (do let s ← x; let p ← adjustTimesAddN c n₁ n₂ (f s); Eval.buildMoment c p) = (.oof : Out TT) ∨
      (do let s ← x; let p ← adjustTimesAddN c n₁ n₂ (f s); Eval.buildMoment c p) =
        (do let s ← x; let p ← adjustTimesAdd c (f s); Eval.buildMoment c p : Out TT) := by
    intro x f
    cases x with
    | ok s =>
      rcases adjustN_cut (ε := ErrorKind) c n₁ n₂ (f s) with e | e
      · left; simp only [OutE.ok_bind]; rw [e]; rfl
      · right; simp only [OutE.ok_bind]; rw [e]
    | _ => right; rfl
  cases u <;> exact key _ _

/-- Three rounds of the first loop are enough for 100 days from 20 January, two are not. -/
example : addToMomentN (std .debug) 3 0 (at_ 2017 1 20 0 0 0) (amt .day 100) = .ok (.moment (at_ 2017 4 30 0 0 0)) ∧
    addToMomentN (std .debug) 2 0 (at_ 2017 1 20 0 0 0) (amt .day 100) = .oof := by decide +kernel

/-- The months and years that are added at a stroke, without a loop. -/
def atAStroke : TUnit → Int → Int × Int
  | .month, n => (n, 0)
  | .year, n => (12 * n, n)
  | _, _ => (0, 0)

/-- An addition with a result, of up to three billion years, takes one round of the first loop for every month, and one
round of the second loop for every year, between the start and the result, less the months and years of the amount
itself.
(Partial. Missing: a number of rounds that does not depend on the amount, see `C139_refuted`.) -/
theorem C139_rounds_partial (c : Cfg) (hc : Sane c) (m r : Moment) (hm : m.Valid c) (u : TUnit) (n : Int)
    (hn : 0 ≤ n) (hmax : n * u.secs ≤ 100000000000000000)
    (h : calculate c (.moment m + amt u n) = .ok (.moment r)) (n₁ n₂ : Nat) :
    addToMomentN c n₁ n₂ m (amt u n) = .oof ↔
      (n₁ : Int) < 12 * (r.year - m.year) + (r.month - m.month) - (atAStroke u n).1 ∨
      (n₂ : Int) < r.year - m.year - (atAStroke u n).2 := by
  unfold Sane at hc
  obtain ⟨a1, a2, ⟨a3, a4, a5, a6⟩, ⟨t1, t2, t3, t4, t5, t6⟩, a7⟩ := hm
  have ml := Cal.monthLen_bounds (y := m.year) a3 a4
  rw [calc_add_moment, exec_addToMoment] at h
  have key : ∀ (v : Int) (x : Out Int) (f : Int → Parts), x = .ok v →
      1 ≤ (f v).mo ∧ (f v).mo ≤ 100000000000 ∧ -2147483648 ≤ (f v).y ∧ (f v).y ≤ 10000000000 ∧
      0 ≤ (f v).s ∧ 0 ≤ (f v).mi ∧ 0 ≤ (f v).h ∧ 1 ≤ (f v).d ∧
      (f v).s ≤ 1000000000000000000 ∧ (f v).mi ≤ 1000000000000000000 ∧ (f v).h ≤ 1000000000000000000 ∧
      (f v).d ≤ 1000000000000000000 ∧
      28 * (12 * (f v).y + (f v).mo) + (f v).d + ((f v).h + ((f v).mi + (f v).s / 60) / 60) / 24 ≤ 1400000000000 →
      (do let s ← x; let p ← adjustTimesAdd c (f s); Eval.buildMoment c p : Out TT) = .ok (.moment r) →
      ((do let s ← x; let p ← adjustTimesAddN c n₁ n₂ (f s); Eval.buildMoment c p : Out TT) = .oof ↔
        (n₁ : Int) < 12 * (r.year - (f v).y) + (r.month - (f v).mo) ∨ (n₂ : Int) < r.year - (f v).y) := by
    intro v x f hx ⟨b1, b2, b3, b4, b5, b6, b7, b8, b9, b10, b11, b12, b13⟩ h
    subst hx
    simp only [OutE.ok_bind] at h ⊢
    obtain ⟨q, hq, hb⟩ := (OutE.bind_eq_ok ..).mp h
    have hr := adjustAdd_reach c (f v) q b1 (by omega) (by omega) (by omega) b5 b6 b7 b8 b9 b10 b11 b12 hq
    have hrr := adjustN_rounds c (f v) q (by omega) (by omega) (by omega) (by omega) hq n₁ n₂
    obtain ⟨r', e, e', ⟨v1, v2, -⟩, -⟩ := buildMoment_ok hb
    injection e with e
    subst e
    have hy : asI32 q.y = q.y := by
      rw [e'] at v1 v2
      simp only at v1 v2
      unfold asI32 at v1 v2 ⊢
      rw [Int.bmod_def] at *
      split at v1 <;> omega
    have hmo : asU32 q.mo = q.mo := by unfold asU32; omega
    have ey : r.year = q.y := by rw [e']; exact hy
    have em : r.month = q.mo := by rw [e']; exact hmo
    rw [ey, em, ← hrr]
    rcases adjustN_cut (ε := ErrorKind) c n₁ n₂ (f v) with e | e
    · rw [e]; exact ⟨fun _ => rfl, fun _ => rfl⟩
    · rw [e, hq]
      simp [hb]
  have inr : ∀ x : Int, 0 ≤ x + 1000000 → x ≤ 1000000000000000000 → (c.chk x : Out Int) = .ok x :=
    fun x h1 h2 => chk_in c (by omega) (by omega)
  cases u <;> simp only [TUnit.secs] at hmax
  · refine (key (m.second + n) _ _ (inr _ (by omega) (by omega)) (by simp only; omega) h).trans ?_
    simp only [atAStroke, Int.sub_zero]
  · refine (key (m.minute + n) _ _ (inr _ (by omega) (by omega)) (by simp only; omega) h).trans ?_
    simp only [atAStroke, Int.sub_zero]
  · refine (key (m.hour + n) _ _ (inr _ (by omega) (by omega)) (by simp only; omega) h).trans ?_
    simp only [atAStroke, Int.sub_zero]
  · refine (key (m.day + n) _ _ (inr _ (by omega) (by omega)) (by simp only; omega) h).trans ?_
    simp only [atAStroke, Int.sub_zero]
  · refine (key (m.month + n) _ _ (inr _ (by omega) (by omega)) (by simp only; omega) h).trans ?_
    simp only [atAStroke]
    omega
  · refine (key (m.year + n) _ _ (inr _ (by omega) (by omega)) (by simp only; omega) h).trans ?_
    simp only [atAStroke]
    omega

example := C139_rounds_partial (std .debug) (sane_std _) (at_ 2017 1 20 0 0 0) (at_ 2018 5 5 0 0 0) (by decide +kernel)
  .day 470 (by decide) (by decide) (by decide +kernel)

/-- So every addition with a result (of up to three billion years) is done after as many rounds as there are months in
all the years that chrono has. -/
theorem C139_results_are_quick_partial (c : Cfg) (hc : Sane c) (m r : Moment) (hm : m.Valid c) (hr : r.Valid c) (u : TUnit)
    (n : Int) (hn : 0 ≤ n) (hmax : n * u.secs ≤ 100000000000000000)
    (h : calculate c (.moment m + amt u n) = .ok (.moment r)) (k : Nat) (hk : 12 * (c.maxYear - c.minYear + 1) ≤ k) :
    addToMomentN c k k m (amt u n) = .ok (.moment r) := by
  rcases C139_cut_off c k k m u n with e | e
  · have := (C139_rounds_partial c hc m r hm u n hn hmax h k k).mp e
    obtain ⟨a1, a2, ⟨a3, a4, -, -⟩, -, -⟩ := hm
    obtain ⟨b1, b2, ⟨b3, b4, -, -⟩, -, -⟩ := hr
    have h1 : 0 ≤ (atAStroke u n).1 ∧ 0 ≤ (atAStroke u n).2 := by
      cases u <;> simp only [atAStroke] <;> omega
    omega
  · rw [e, h]

example := C139_results_are_quick_partial (std .debug) (sane_std _) (at_ 2017 1 20 0 0 0) (at_ 2018 5 5 0 0 0) (by decide +kernel)
  (by decide +kernel) .day 470 (by decide) (by decide) (by decide +kernel) 6300000 (by decide)

/-- Years are added without the loops, but for 29 February, which takes one round of the first. -/
theorem C139_years_partial (c : Cfg) (m : Moment) (hm : m.Valid c) (n : Int) :
    addToMomentN c 1 0 m (.years n) = calculate c (.moment m + .years n) := by
  rcases C139_cut_off c 1 0 m .year n with e | e
  · exfalso
    obtain ⟨a1, a2, ⟨a3, a4, a5, a6⟩, ⟨t1, t2, t3, t4, t5, t6⟩, a7⟩ := hm
    have ml := Cal.monthLen_bounds (y := m.year) a3 a4
    simp only [amt, addToMomentN, Cfg.add] at e
    rcases chk_cases (ε := ErrorKind) c (m.year + n) with hv | ⟨v, hv, -⟩
    · rw [hv] at e; cases e
    · rw [hv] at e
      simp only [OutE.ok_bind, adjustTimesAddN] at e
      rw [fix_nonneg c (by decide) t5 (by omega) (by omega) (by omega)] at e
      simp only [OutE.ok_bind] at e
      rw [fix_nonneg c (by decide) (by omega) (by omega) (by omega) (by omega)] at e
      simp only [OutE.ok_bind] at e
      rw [fix_nonneg c (by decide) (by omega) (by omega) (by omega) (by omega)] at e
      simp only [OutE.ok_bind] at e
      have hz : m.day + (m.hour + (m.minute + m.second / 60) / 60) / 24 = m.day := by omega
      rw [hz] at e
      have hloop : ∃ mo d, (dayLoop c v 1 m.month m.day : Out (Int × Int)) = .ok (mo, d) ∧ mo ≤ 12 := by
        by_cases hd : m.day ≤ getNumOfDaysInMonth v m.month
        · exact ⟨_, _, dayLoop_stop c v _ _ _ hd, a4⟩
        · have h2 : m.month = 2 := by
            by_cases h2 : m.month = 2
            · exact h2
            · rw [numDays_not2 (y := m.year) v a3 a4 h2] at hd; omega
          have h31 : getNumOfDaysInMonth v (m.month + 1) = 31 := by rw [h2]; simp [getNumOfDaysInMonth]
          rw [dayLoop_step c v _ _ 0 (by omega) (by omega) (by omega) (by omega), dayLoop_stop c v _ _ _ (by
            have := numDays_range v m.month
            omega)]
          exact ⟨_, _, rfl, by omega⟩
      obtain ⟨mo, d, h1, h2⟩ := hloop
      rw [h1] at e
      simp only [OutE.ok_bind] at e
      rw [monthLoop_stop c _ _ _ h2] at e
      simp only [OutE.ok_bind] at e
      unfold Eval.buildMoment at e
      split at e <;> cases e
  · exact e

example : addToMomentN (std .debug) 1 0 (at_ 2016 2 29 0 0 0) (.years 1) = .ok (.moment (at_ 2017 3 1 0 0 0)) ∧
    addToMomentN (std .debug) 0 0 (at_ 2016 2 29 0 0 0) (.years 1) = .oof ∧
    addToMomentN (std .debug) 0 0 (at_ 2016 2 28 0 0 0) (.years 1000) = .ok (.moment (at_ 3016 2 28 0 0 0)) := by
  decide +kernel

/-- Days take more than `k` rounds as soon as there are `31 · (k + 1)` of them, whether or not there is a result. -/
theorem C139_days_partial (c : Cfg) (m : Moment) (hm : m.Valid c) (n : Int) (hn : InI64 (m.day + n)) (k n₂ : Nat)
    (hk : 31 * ((k : Int) + 1) ≤ n) : addToMomentN c k n₂ m (.days n) = .oof := by
  obtain ⟨a1, a2, ⟨a3, a4, a5, a6⟩, ⟨t1, t2, t3, t4, t5, t6⟩, a7⟩ := hm
  have ml := Cal.monthLen_bounds (y := m.year) a3 a4
  unfold InI64 at hn
  simp only [addToMomentN, adjustTimesAddN, Cfg.add, chk_in c hn.1 hn.2, OutE.ok_bind]
  rw [fix_nonneg c (by decide) t5 (by omega) (by omega) (by omega)]
  simp only [OutE.ok_bind]
  rw [fix_nonneg c (by decide) (by omega) (by omega) (by omega) (by omega)]
  simp only [OutE.ok_bind]
  rw [fix_nonneg c (by decide) (by omega) (by omega) (by omega) (by omega)]
  simp only [OutE.ok_bind]
  rw [(C91_day_rounds_partial c m.year k m.month _ (by omega) (by unfold InI64; omega) (by unfold InI64; omega)).1 (by omega)]
  rfl

example : (at_ 2017 1 20 0 0 0).Valid (std .debug) ∧ InI64 ((at_ 2017 1 20 0 0 0).day + 9000000000000000000) ∧
    31 * (((290000000000000000 : Nat) : Int) + 1) ≤ 9000000000000000000 := by decide +kernel

/-- Months take more than `k` rounds as soon as there are `12 · (k + 1)` of them, whether or not there is a result. -/
theorem C139_months_partial (c : Cfg) (hc : Sane c) (m : Moment) (hm : m.Valid c) (n : Int)
    (hn : InI64 (m.month + n + 1)) (k n₁ : Nat) (hk : 12 * ((k : Int) + 1) ≤ n) : addToMomentN c n₁ k m (.months n) = .oof := by
  obtain ⟨a1, a2, ⟨a3, a4, a5, a6⟩, ⟨t1, t2, t3, t4, t5, t6⟩, a7⟩ := hm
  have ml := Cal.monthLen_bounds (y := m.year) a3 a4
  unfold InI64 at hn
  unfold Sane at hc
  simp only [addToMomentN, adjustTimesAddN, Cfg.add, chk_in c (show -9223372036854775808 ≤ m.month + n by omega) (by omega),
    OutE.ok_bind]
  rw [fix_nonneg c (by decide) t5 (by omega) (by omega) (by omega)]
  simp only [OutE.ok_bind]
  rw [fix_nonneg c (by decide) (by omega) (by omega) (by omega) (by omega)]
  simp only [OutE.ok_bind]
  rw [fix_nonneg c (by decide) (by omega) (by omega) (by omega) (by omega)]
  simp only [OutE.ok_bind]
  have hz : m.day + (m.hour + (m.minute + m.second / 60) / 60) / 24 = m.day := by omega
  rw [hz]
  have hr := numDays_range m.year (m.month + n)
  have fin : ∀ mo, 12 * ((k : Int) + 1) < mo → InI64 mo → (monthLoop c k m.year mo : Out (Int × Int)) = .oof := by
    intro mo h1 h2
    unfold InI64 at h2
    exact (C91_month_rounds_partial c k m.year mo (by unfold InI64; omega) (by unfold InI64; omega) h2).2 h1
  by_cases hd : m.day ≤ getNumOfDaysInMonth m.year (m.month + n)
  · rw [dayLoop_stop c _ _ _ _ hd]
    simp only [OutE.ok_bind]
    rw [fin (m.month + n) (by omega) (by unfold InI64; omega)]
    rfl
  · cases n₁ with
    | zero => rw [dayLoop, if_pos (by omega)]; rfl
    | succ n₁ =>
      have := numDays_range m.year (m.month + n + 1)
      rw [dayLoop_step c _ _ _ _ (by omega) (by omega) (by omega) (by omega), dayLoop_stop c _ _ _ _ (by omega)]
      simp only [OutE.ok_bind]
      rw [fin (m.month + n + 1) (by omega) (by unfold InI64; omega)]
      rfl

example : Sane (std .debug) ∧ (at_ 2017 1 20 0 0 0).Valid (std .debug) ∧
    InI64 ((at_ 2017 1 20 0 0 0).month + 9000000000000000000 + 1) ∧
    12 * (((700000000000000000 : Nat) : Int) + 1) ≤ 9000000000000000000 := by decide +kernel

/-- No number of rounds up to 297 quadrillion is enough for all amounts, from whatever moment: the program as good as
hangs, and then only reports that there is no such date. -/
theorem C139_refuted (c : Cfg) (m : Moment) (hm : m.Valid c) (k : Nat) (hk : k ≤ 297000000000000000) :
    ∃ n, InI64 n ∧ ∀ n₂, addToMomentN c k n₂ m (.days n) = .oof := by
  refine ⟨31 * ((k : Int) + 1), by unfold InI64; omega, fun n₂ => C139_days_partial c m hm _ ?_ k n₂ (Int.le_refl _)⟩
  obtain ⟨a1, a2, ⟨a3, a4, a5, a6⟩, -⟩ := hm
  have ml := Cal.monthLen_bounds (y := m.year) a3 a4
  unfold InI64; omega

example : (at_ 2017 1 20 0 0 0).Valid (std .debug) := by decide +kernel

end Props
