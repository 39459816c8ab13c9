import Verif.Lemmas.PanicIff
import Verif.Props.AllAmounts
import Verif.Props.AllYears
import Verif.Props.Kinds

/-!
# C92: exactly when the checked build panics on a moment and an amount

and what the wrapping build does instead.
-/

namespace Props
open Kairos Spec

theorem np_then_build (c : Cfg) {x : Out Parts} (h : Safe (fun _ => True) x) :
    (do let p ← x; Eval.buildMoment c p) ≠ .panic := by
  cases x with
  | ok p => exact np_build c p
  | err e => intro h; cases h
  | panic => exact absurd rfl h.1
  | oof => intro h; cases h

theorem chk_panic_iff {ε : Type} (c : Cfg) (x : Int) : (c.chk x : OutE ε Int) = .panic ↔ c.profile = .debug ∧ ¬ InI64 x := by
  unfold Cfg.chk
  by_cases h : InI64 x
  · rw [if_pos h]; simp [h]
  · rw [if_neg h]
    cases c.profile <;> simp [h]

/-- An operation on one component and what follows: panics if the operation overflows, and otherwise as what follows. -/
theorem chk_then_panic {c : Cfg} {x : Int} {f : Int → Out TT} (hw : c.profile = .release → ∀ v, f v ≠ .panic)
    (hf : InI64 x → f x ≠ .panic) : ((c.chk x : Out Int) >>= f) = .panic ↔ c.profile = .debug ∧ ¬ InI64 x := by
  by_cases h : InI64 x
  · rw [chk_ok_of_in c h, OutE.ok_bind]
    exact ⟨fun h' => absurd h' (hf h), fun h' => absurd h h'.2⟩
  · cases hp : c.profile with
    | debug => simp [Cfg.chk, h, hp]
    | release =>
      simp only [Cfg.chk, if_neg h, hp]
      exact ⟨fun h' => absurd h' (hw hp _), fun h' => by simp at h'⟩

theorem release_eq {c : Cfg} (h : c.profile = .release) : c = c.release := by
  cases c; simp only at h; subst h; rfl

theorem release_add {c : Cfg} (h : c.profile = .release) (p : Parts) :
    (do let q ← (adjustTimesAdd c p : Out Parts); Eval.buildMoment c q) ≠ .panic :=
  np_then_build c ⟨by rw [release_eq h]; exact np_adjustAdd c p, fun _ _ => trivial⟩

theorem release_sub {c : Cfg} (h : c.profile = .release) (p : Parts) :
    (do let q ← (adjustTimesSub c p : Out Parts); Eval.buildMoment c q) ≠ .panic :=
  np_then_build c ⟨by rw [release_eq h]; exact np_adjustSub c p, fun _ _ => trivial⟩

/-- **C92, adding.** The checked build panics exactly if the number does not fit when it is added to the component of the
moment that belongs to the unit. -/
theorem C92_adding (c : Cfg) (hc : Sane c) (m : Moment) (hm : m.Valid c) (u : TUnit) (hu : u ≠ .month) (n : Int) :
    calculate c (.moment m + amt u n) = .panic ↔ c.profile = .debug ∧ ¬ InI64 (part m u + n) := by
  obtain ⟨h1, h2, ⟨h3, h4, h5, h6⟩, ⟨t1, t2, t3, t4, t5, t6⟩, -⟩ := hm
  have hb31 := Cal.monthLen_bounds (y := m.year) h3 h4
  unfold Sane at hc
  rw [calc_add_moment, exec_addToMoment]
  cases u <;> simp only [amt, Eval.addToMoment, Cfg.add, part]
  · exact chk_then_panic (fun h v => release_add h _) fun h => np_then_build c
      (safe_add_second c (by omega) (by omega) (by omega) (by omega) (by omega) h)
  · exact chk_then_panic (fun h v => release_add h _) fun h => np_then_build c
      (safe_add_minute c (by omega) (by omega) (by omega) (by omega) h (by omega))
  · exact chk_then_panic (fun h v => release_add h _) fun h => np_then_build c
      (safe_add_hour c (by omega) (by omega) (by omega) h (by omega) (by omega))
  · refine chk_then_panic (fun h v => release_add h _) fun h => np_then_build c ?_
    rw [Kairos.adjustAdd_time' c h (by omega) (by omega) (by omega)]
    exact safe_loops c (by omega) (by omega) h
  · exact absurd rfl hu
  · exact chk_then_panic (fun h v => release_add h _) fun h => np_then_build c
      (safe_add_year c (by omega) (by omega) (by omega) (by omega) (by omega))

example : calculate (std .debug) (.moment (at_ 2017 6 15 0 0 30) + amt .second 9223372036854775778) = .panic :=
  (C92_adding (std .debug) (sane_std _) _ (by decide) .second (by decide) _).2 (by decide)

/-- **C92, adding months.** On a 31st the largest number is already too large. -/
theorem C92_adding_months (c : Cfg) (hc : Sane c) (m : Moment) (hm : m.Valid c) (n : Int) :
    calculate c (.moment m + .months n) = .panic ↔
      c.profile = .debug ∧ (¬ InI64 (m.month + n) ∨ m.month + n = 9223372036854775807 ∧ m.day = 31) := by
  obtain ⟨h1, h2, ⟨h3, h4, h5, h6⟩, ⟨t1, t2, t3, t4, t5, t6⟩, -⟩ := hm
  have hb31 := Cal.monthLen_bounds (y := m.year) h3 h4
  unfold Sane at hc
  rw [calc_add_moment, exec_addToMoment]
  simp only [Eval.addToMoment, Cfg.add]
  by_cases h : InI64 (m.month + n)
  · rw [chk_ok_of_in c h, OutE.ok_bind]
    have e := panic_add_month (ε := ErrorKind) c (y := m.year) (mo := m.month + n) (d := m.day) (h := m.hour)
      (mi := m.minute) (s := m.second) (by omega) h (by omega) (by omega) (by omega) (by omega)
    simp only [h, not_true_eq_false, false_or]
    rw [← e]
    cases hx : (adjustTimesAdd c ⟨m.year, m.month + n, m.day, m.hour, m.minute, m.second⟩ : Out Parts) with
    | ok p => simp only [OutE.ok_bind]; exact ⟨fun h => absurd h (np_build c p), (nomatch ·)⟩
    | err e => exact ⟨(nomatch ·), (nomatch ·)⟩
    | panic => exact ⟨fun _ => rfl, fun _ => rfl⟩
    | oof => exact ⟨(nomatch ·), (nomatch ·)⟩
  · rw [chk_then_panic (fun h v => release_add h _) (fun h' => absurd h' h)]
    simp [h]

example : calculate (std .debug) (.moment (at_ 2017 6 30 0 0 30) + .months 9223372036854775801) ≠ .panic :=
  mt (C92_adding_months (std .debug) (sane_std _) _ (by decide) _).1 (by decide)

/-- **C92, subtracting.** -/
theorem C92_subtracting (c : Cfg) (hc : Sane c) (m : Moment) (hm : m.Valid c) (u : TUnit) (n : Int) (hn : InI64 n) :
    calculate c (.moment m - amt u n) = .panic ↔ c.profile = .debug ∧ ¬ InI64 (part m u - n) := by
  obtain ⟨h1, h2, ⟨h3, h4, h5, h6⟩, ⟨t1, t2, t3, t4, t5, t6⟩, -⟩ := hm
  have hb31 := Cal.monthLen_bounds (y := m.year) h3 h4
  unfold Sane at hc
  unfold InI64 at hn
  rw [calc_sub_moment, exec_subFromMoment]
  cases u <;> simp only [amt, Eval.subFromMoment, Cfg.sub, part] <;>
    refine chk_then_panic (fun h v => release_sub h _) fun h => np_then_build c ?_
  · exact safe_sub_one c .second (by simp; omega) (by simp; omega) (by simp; omega) (by simp; omega) (by simp; omega)
      (by unfold InI64 at h; simp; omega)
  · exact safe_sub_one c .minute (by simp; omega) (by simp; omega) (by simp; omega) (by simp; omega)
      (by unfold InI64 at h; simp; omega) (by simp; omega)
  · exact safe_sub_one c .hour (by simp; omega) (by simp; omega) (by simp; omega) (by unfold InI64 at h; simp; omega)
      (by simp; omega) (by simp; omega)
  · exact safe_sub_one c .day (by simp; omega) (by simp; omega) (by unfold InI64 at h; simp; omega) (by simp; omega)
      (by simp; omega) (by simp; omega)
  · exact safe_sub_one c .month (by simp; omega) (by unfold InI64 at h; simp; omega) (by simp; omega) (by simp; omega)
      (by simp; omega) (by simp; omega)
  · exact safe_sub_one c .year (by simp; exact h) (by simp; omega) (by simp; omega) (by simp; omega)
      (by simp; omega) (by simp; omega)

example : (at_ 2017 1 31 23 59 59).Valid (std .debug) ∧ InI64 9223372036854775777 ∧
    ¬ InI64 (part (at_ 2017 1 31 23 59 59) .day + 9223372036854775777) ∧
    ¬ InI64 (part (at_ 2017 1 31 23 59 59) .second - (-9223372036854775749)) := by decide

/-- **C92, whole expressions.** If the left operand stands for a moment and the right one for an amount, and the sum (difference)
can be calculated at all, the same holds for the values of the operands. -/
theorem C92_expressions (c : Cfg) (hc : Sane c) (a b : TT) (m : Moment) (hm : m.Valid c) (u : TUnit) (n : Int) (hn : InI64 n)
    (ha : calculate c a = .ok (.moment m)) (hb : calculate c b = .ok (amt u n)) :
    (kind (a + b) ≠ none → (calculate c (a + b) = .panic ↔ c.profile = .debug ∧
      (¬ InI64 (part m u + n) ∨ u = .month ∧ m.month + n = 9223372036854775807 ∧ m.day = 31))) ∧
    (kind (a - b) ≠ none → (calculate c (a - b) = .panic ↔ c.profile = .debug ∧ ¬ InI64 (part m u - n))) := by
  constructor
  · intro hk
    rw [(C77_values_combine c a b _ _ ha hb).1 hk]
    by_cases hu : u = .month
    · subst hu
      have := C92_adding_months c hc m hm n
      simpa [amt, part] using this
    · have := C92_adding c hc m hm u hu n
      simpa [hu] using this
  · intro hk
    rw [(C77_values_combine c a b _ _ ha hb).2 hk]
    exact C92_subtracting c hc m hm u n hn

/-- A sum of a date and a difference of amounts, near the bound. -/
example : calculate (std .debug) (.moment (at_ 2017 6 15 8 0 0) + .days 20) = .ok (.moment (at_ 2017 7 5 8 0 0)) ∧
    calculate (std .debug) (.days 9223372036854775807 - .days 4) = .ok (.days 9223372036854775803) ∧
    kind ((TT.moment (at_ 2017 6 15 8 0 0) + .days 20) + (.days 9223372036854775807 - .days 4)) ≠ none ∧
    ¬ InI64 (part (at_ 2017 7 5 8 0 0) .day + 9223372036854775803) := by decide +kernel

/-! ## What the wrapping build does instead -/

theorem wrap_over {ε : Type} {c : Cfg} (hp : c.profile = .release) {x j : Int} (hx : x = 9223372036854775808 + j) (h0 : 0 ≤ j)
    (h1 : j < 9223372036854775808) : (c.chk x : OutE ε Int) = .ok (-9223372036854775808 + j) := by
  subst hx
  have : ¬ InI64 (9223372036854775808 + j) := by unfold InI64; omega
  simp only [Cfg.chk, if_neg this, hp]
  congr 1
  unfold wrap64
  rw [Int.bmod_def]
  split <;> omega

theorem numDays_low {y mo : Int} (h : mo < 1) : getNumOfDaysInMonth y mo = 30 := by
  unfold getNumOfDaysInMonth
  rw [if_neg (by omega), if_neg (by omega)]

theorem dayLoop_low {ε : Type} (c : Cfg) (y mo d : Int) (n : Nat) (hd : d ≤ 28) :
    (dayLoop c y n mo d : OutE ε (Int × Int)) = .ok (mo, d) := by
  have := numDays_bounds y mo
  cases n <;> (unfold dayLoop; rw [if_neg (by omega)])

theorem build_u32 (c : Cfg) {y mo MO d D h mi s : Int} (e1 : asU32 mo = asU32 MO) (e2 : asU32 d = asU32 D) :
    Eval.buildMoment c ⟨y, mo, d, h, mi, s⟩ = Eval.buildMoment c ⟨y, MO, D, h, mi, s⟩ := by
  unfold Eval.buildMoment; simp only [e1, e2]

/-- **C92, days that do not fit, in the wrapping build**: an earlier day of the same month, or an error. -/
theorem C92_wrapped_days (c : Cfg) (hc : Sane c) (hp : c.profile = .release) (m : Moment) (hm : m.Valid c) (n j : Int)
    (hn : InI64 n) (hj : 0 ≤ j) (h : m.day + n = 9223372036854775808 + j) :
    calculate c (.moment m + .days n) =
      if 1 ≤ j then .ok (.moment { m with day := j, nano := 0 })
      else .err (.outOfBounds m.year m.month m.hour m.hour m.minute m.second) := by
  obtain ⟨h1, h2, ⟨h3, h4, h5, h6⟩, t, -⟩ := hm
  have hb31 := Cal.monthLen_bounds (y := m.year) h3 h4
  unfold Sane at hc
  unfold InI64 at hn
  obtain ⟨t1, t2, t3, t4, t5, t6⟩ := id t
  rw [calc_add_moment, exec_addToMoment]
  simp only [Eval.addToMoment, Cfg.add]
  rw [wrap_over hp h hj (by omega), OutE.ok_bind, Kairos.adjustAdd_time' c (by unfold InI64; omega) ⟨t1, t2⟩ ⟨t3, t4⟩ ⟨t5, t6⟩,
    dayLoop_low c _ _ _ _ (by omega), OutE.ok_bind]
  simp only
  rw [monthLoop_within c _ h4, OutE.ok_bind]
  simp only [OutE.ok_bind]
  rw [build_u32 c (d := -9223372036854775808 + j) (MO := m.month) (D := j) rfl (by unfold asU32; omega),
    build_cases c (by simp only; omega) (by simp only; omega) (by simp only; omega) (by simp only; omega) t]
  by_cases hj1 : 1 ≤ j
  · rw [if_pos hj1, if_pos ⟨h1, h2, h3, h4, hj1, by simp only; omega⟩]
  · rw [if_neg hj1, if_neg (fun hv => hj1 hv.2.2.2.2.1)]

example : calculate (std .release) (.moment (at_ 2017 6 15 0 0 0) + .days 9223372036854775807) = .ok (.moment (at_ 2017 6 14 0 0 0)) :=
  C92_wrapped_days (std .release) (sane_std _) rfl (at_ 2017 6 15 0 0 0) (by decide) _ 14 (by decide) (by decide) (by decide)

/-- **C92, months that do not fit, in the wrapping build**: an earlier month of the same year if it has that day, and otherwise
an error; from a 31st to the first of the month after that one. -/
theorem C92_wrapped_months (c : Cfg) (hc : Sane c) (hp : c.profile = .release) (m : Moment) (hm : m.Valid c) (n j : Int)
    (hn : InI64 n) (hj : 0 ≤ j) (h : m.month + n = 9223372036854775808 + j) :
    calculate c (.moment m + .months n) =
      if m.day = 31 then .ok (.moment { m with month := j + 1, day := 1, nano := 0 })
      else if 1 ≤ j ∧ m.day ≤ Cal.monthLen m.year j then .ok (.moment { m with month := j, nano := 0 })
      else .err (.outOfBounds m.year j m.hour m.hour m.minute m.second) := by
  obtain ⟨h1, h2, ⟨h3, h4, h5, h6⟩, t, -⟩ := hm
  have hb31 := Cal.monthLen_bounds (y := m.year) h3 h4
  unfold Sane at hc
  unfold InI64 at hn
  obtain ⟨t1, t2, t3, t4, t5, t6⟩ := id t
  rw [calc_add_moment, exec_addToMoment]
  simp only [Eval.addToMoment, Cfg.add]
  rw [wrap_over hp h hj (by omega), OutE.ok_bind, Kairos.adjustAdd_time' c (by unfold InI64; omega) ⟨t1, t2⟩ ⟨t3, t4⟩ ⟨t5, t6⟩]
  have h30 := numDays_low (y := m.year) (mo := -9223372036854775808 + j) (by omega)
  by_cases hd : m.day = 31
  · rw [if_pos hd, hd]
    show (do let p ← (do let (mo, d) ← dayLoop c m.year (30 + 1) _ 31; _); _) = _
    unfold dayLoop
    rw [h30, if_pos (by omega)]
    simp only [Cfg.sub, Cfg.add]
    rw [chk_ok_of_in c (by decide), OutE.ok_bind, chk_ok_of_in c (by unfold InI64; omega), OutE.ok_bind,
      dayLoop_low c _ _ _ _ (by omega), OutE.ok_bind]
    simp only
    rw [monthLoop_within c _ (by omega), OutE.ok_bind]
    simp only [OutE.ok_bind]
    rw [build_u32 c (mo := -9223372036854775808 + j + 1) (d := 31 - 30) (MO := j + 1) (D := 1) (by unfold asU32; omega) rfl,
      build_cases c (by simp only; omega) (by simp only; omega) (by simp only; omega) (by simp only; omega) t]
    have := Cal.monthLen_bounds (y := m.year) (m := j + 1) (by omega) (by omega)
    rw [if_pos ⟨h1, h2, by simp only; omega, by simp only; omega, by simp only; omega, by simp only; omega⟩]
  · rw [if_neg hd]
    have hstop : ∀ k : Nat, (dayLoop c m.year k (-9223372036854775808 + j) m.day : Out (Int × Int)) = .ok (-9223372036854775808 + j, m.day) := by
      intro k
      cases k <;> (unfold dayLoop; rw [h30, if_neg (by omega)])
    rw [hstop, OutE.ok_bind]
    simp only
    rw [monthLoop_within c _ (by omega), OutE.ok_bind]
    simp only [OutE.ok_bind]
    rw [build_u32 c (mo := -9223372036854775808 + j) (MO := j) (D := m.day) (by unfold asU32; omega) rfl,
      build_cases c (by simp only; omega) (by simp only; omega) (by simp only; omega) (by simp only; omega) t]
    by_cases hv : 1 ≤ j ∧ m.day ≤ Cal.monthLen m.year j
    · rw [if_pos hv, if_pos ⟨h1, h2, hv.1, by simp only; omega, h5, hv.2⟩]
    · rw [if_neg hv, if_neg (fun hx => hv ⟨hx.2.2.1, hx.2.2.2.2.2⟩)]

example : calculate (std .release) (.moment (at_ 2017 6 15 0 0 0) + .months 9223372036854775807) = .ok (.moment (at_ 2017 5 15 0 0 0)) :=
  C92_wrapped_months (std .release) (sane_std _) rfl (at_ 2017 6 15 0 0 0) (by decide) _ 5 (by decide) (by decide) (by decide)

/-- The remaining case: from a 31st to the largest month number there is. -/
theorem C92_wrapped_months_31 (c : Cfg) (hc : Sane c) (hp : c.profile = .release) (m : Moment) (hm : m.Valid c) (hd : m.day = 31) (n : Int)
    (h : m.month + n = 9223372036854775807) :
    calculate c (.moment m + .months n) = .err (.outOfBounds m.year 0 m.hour m.hour m.minute m.second) := by
  obtain ⟨h1, h2, ⟨h3, h4, h5, h6⟩, t, -⟩ := hm
  unfold Sane at hc
  obtain ⟨t1, t2, t3, t4, t5, t6⟩ := id t
  rw [calc_add_moment, exec_addToMoment]
  simp only [Eval.addToMoment, Cfg.add]
  rw [h, chk_ok_of_in c (by decide), OutE.ok_bind,
    Kairos.adjustAdd_time' c (by unfold InI64; omega) ⟨t1, t2⟩ ⟨t3, t4⟩ ⟨t5, t6⟩, hd]
  show (do let p ← (do let (mo, d) ← dayLoop c m.year (30 + 1) _ 31; _); _) = _
  unfold dayLoop
  rw [show getNumOfDaysInMonth m.year 9223372036854775807 = 30 by unfold getNumOfDaysInMonth; simp, if_pos (by omega)]
  simp only [Cfg.sub, Cfg.add]
  rw [chk_ok_of_in c (by decide), OutE.ok_bind, wrap_over hp (j := 0) (by omega) (by omega) (by omega), OutE.ok_bind,
    dayLoop_low c _ _ _ _ (by omega), OutE.ok_bind]
  simp only
  rw [monthLoop_within c _ (by omega), OutE.ok_bind]
  simp only [OutE.ok_bind]
  rw [build_u32 c (mo := -9223372036854775808 + 0) (d := 31 - 30) (MO := 0) (D := 1) (by decide) rfl,
    build_cases c (by simp only; omega) (by simp only; omega) (by simp only; omega) (by simp only; omega) t,
    if_neg (fun hx => absurd hx.2.2.1 (by simp only; omega))]

example : calculate (std .release) (.moment (at_ 2017 1 31 0 0 0) + .months 9223372036854775806) = .err (.outOfBounds 2017 0 0 0 0 0) :=
  C92_wrapped_months_31 (std .release) (sane_std _) rfl (at_ 2017 1 31 0 0 0) (by decide) rfl _ (by decide)

theorem fix_exact (c : Cfg) {ε : Type} {b k n : Int} (hk : 24 ≤ k) (hk2 : k ≤ 60) (hb : InI64 b) (hn : InI64 (n + b.tdiv k)) :
    (fix c b k n : OutE ε (Int × Int)) = .ok (n + b.tdiv k, b.tmod k) := by
  obtain ⟨h1, h4, h5, -, h2, h3, -⟩ := tdiv_tmod_char b (k := k) (by omega)
  have hi : InI64 (b - b.tmod k) := by
    unfold InI64 at hb ⊢
    rcases Int.le_total 0 b with h | h
    · have := h2 h; omega
    · have := h3 h; omega
  unfold fix
  simp only [Cfg.sub, Cfg.add]
  rw [chk_ok_of_in c hi, OutE.ok_bind, show b - b.tmod k = b.tdiv k * k by omega, tdiv_mul_cancel' (by omega), chk_ok_of_in c hn, OutE.ok_bind]

theorem build_fails (c : Cfg) {p : Parts}
    (h : 60 ≤ asU32 p.s ∨ 60 ≤ asU32 p.mi ∨ 24 ≤ asU32 p.h ∨ 31 < asU32 p.d) : ∃ e, Eval.buildMoment c p = .err e := by
  cases hb : Eval.buildMoment c p with
  | err e => exact ⟨e, rfl⟩
  | panic => exact absurd hb (np_build c p)
  | oof => unfold Eval.buildMoment at hb; split at hb <;> cases hb
  | ok v =>
    obtain ⟨m, -, hm, hv⟩ := buildMoment_ok hb
    obtain ⟨-, -, ⟨h3, h4, h5, h6⟩, ⟨t1, t2, t3, t4, t5, t6⟩, -⟩ := hv.1
    have := Cal.monthLen_bounds (y := m.year) h3 h4
    subst hm
    simp only at *
    omega

/-- **C92, seconds, minutes and hours that do not fit, in the wrapping build**: an error. -/
theorem C92_wrapped_time (c : Cfg) (hp : c.profile = .release) (m : Moment) (hm : m.Valid c) (u : TUnit)
    (hu : u = .second ∨ u = .minute ∨ u = .hour) (n : Int) (hn : InI64 n) (h : 9223372036854775807 < part m u + n) :
    ∃ e, calculate c (.moment m + amt u n) = .err e := by
  obtain ⟨h1, h2, ⟨h3, h4, h5, h6⟩, ⟨t1, t2, t3, t4, t5, t6⟩, -⟩ := hm
  have hb31 := Cal.monthLen_bounds (y := m.year) h3 h4
  unfold InI64 at hn
  rw [calc_add_moment, exec_addToMoment]
  -- the last steps of all three cases
  have fin : ∀ (H MI S : Int), InI64 (m.day + H.tdiv 24) → InI64 H → m.day + H.tdiv 24 ≤ 0 →
      (60 ≤ asU32 S ∨ 60 ≤ asU32 MI ∨ 24 ≤ asU32 (H.tmod 24) ∨ 31 < asU32 (m.day + H.tdiv 24)) →
      ∃ e, (do
        let p ← (do
          let (d, h) ← fix c H 24 m.day
          let (mo, d) ← dayLoop c m.year d.toNat m.month d
          let (y, mo) ← monthLoop c mo.toNat m.year mo
          .ok ⟨y, mo, d, h, MI, S⟩ : Out Parts)
        Eval.buildMoment c p) = .err e := by
    intro H MI S hi hH hd hbad
    rw [fix_exact c (by decide) (by decide) hH hi, OutE.ok_bind]
    simp only
    rw [dayLoop_low c _ _ _ _ (by omega), OutE.ok_bind]
    simp only
    rw [monthLoop_within c _ h4]
    simp only [OutE.ok_bind]
    exact build_fails c hbad
  rcases hu with rfl | rfl | rfl <;> simp only [amt, Eval.addToMoment, Cfg.add, part] at h ⊢
  · obtain ⟨j, hj⟩ : ∃ j, m.second + n = 9223372036854775808 + j := ⟨m.second + n - 9223372036854775808, by omega⟩
    rw [wrap_over hp hj (by omega) (by omega), OutE.ok_bind]
    unfold adjustTimesAdd
    simp only
    have k1 := tdiv_tmod_char (-9223372036854775808 + j) (k := 60) (by omega)
    revert k1
    generalize hS : (-9223372036854775808 + j).tmod 60 = S
    generalize hQ : (-9223372036854775808 + j).tdiv 60 = Q
    intro k1
    rw [fix_exact c (by decide) (by decide) (by unfold InI64; omega) (by rw [hQ]; unfold InI64; omega), OutE.ok_bind]
    simp only
    rw [hS, hQ]
    have k2 := tdiv_tmod_char (m.minute + Q) (k := 60) (by omega)
    revert k2
    generalize hM : (m.minute + Q).tmod 60 = MI
    generalize hR : (m.minute + Q).tdiv 60 = R
    intro k2
    rw [fix_exact c (by decide) (by decide) (by unfold InI64; omega) (by rw [hR]; unfold InI64; omega), OutE.ok_bind]
    simp only
    rw [hM, hR]
    have k3 := tdiv_tmod_char (m.hour + R) (k := 24) (by omega)
    refine fin _ _ _ (by unfold InI64; omega) (by unfold InI64; omega) (by omega) ?_
    unfold asU32
    omega
  · obtain ⟨j, hj⟩ : ∃ j, m.minute + n = 9223372036854775808 + j := ⟨m.minute + n - 9223372036854775808, by omega⟩
    rw [wrap_over hp hj (by omega) (by omega), OutE.ok_bind]
    unfold adjustTimesAdd
    simp only
    rw [fix_within c t5 t6 (by unfold InI64; omega), OutE.ok_bind]
    simp only
    have k2 := tdiv_tmod_char (-9223372036854775808 + j) (k := 60) (by omega)
    revert k2
    generalize hM : (-9223372036854775808 + j).tmod 60 = MI
    generalize hR : (-9223372036854775808 + j).tdiv 60 = R
    intro k2
    rw [fix_exact c (by decide) (by decide) (by unfold InI64; omega) (by rw [hR]; unfold InI64; omega), OutE.ok_bind]
    simp only
    rw [hM, hR]
    have k3 := tdiv_tmod_char (m.hour + R) (k := 24) (by omega)
    refine fin _ _ _ (by unfold InI64; omega) (by unfold InI64; omega) (by omega) ?_
    unfold asU32
    omega
  · obtain ⟨j, hj⟩ : ∃ j, m.hour + n = 9223372036854775808 + j := ⟨m.hour + n - 9223372036854775808, by omega⟩
    rw [wrap_over hp hj (by omega) (by omega), OutE.ok_bind]
    unfold adjustTimesAdd
    simp only
    rw [fix_within c t5 t6 (by unfold InI64; omega), OutE.ok_bind]
    simp only
    rw [fix_within c t3 t4 (by unfold InI64; omega), OutE.ok_bind]
    simp only
    have k3 := tdiv_tmod_char (-9223372036854775808 + j) (k := 24) (by omega)
    refine fin _ _ _ (by unfold InI64; omega) (by unfold InI64; omega) (by omega) ?_
    unfold asU32
    omega

/-- In the wrapping build 2^63 - 1 months after 15 March is 15 February, and 2^63 - 1 days after it 14 March. -/
example : (std .release).profile = .release ∧ (at_ 2017 3 15 12 0 0).Valid (std .release) ∧ InI64 9223372036854775807 ∧
    (at_ 2017 3 15 12 0 0).month + 9223372036854775807 = 9223372036854775808 + 2 ∧
    (at_ 2017 3 15 12 0 0).day + 9223372036854775807 = 9223372036854775808 + 14 ∧
    calculate (std .release) (.moment (at_ 2017 3 15 12 0 0) + .months 9223372036854775807) = .ok (.moment (at_ 2017 2 15 12 0 0)) ∧
    calculate (std .release) (.moment (at_ 2017 3 15 12 0 0) + .days 9223372036854775807) = .ok (.moment (at_ 2017 3 14 12 0 0)) := by
  decide +kernel

example : (at_ 2017 3 31 12 0 30).Valid (std .release) ∧ (at_ 2017 3 31 12 0 30).day = 31 ∧
    (at_ 2017 3 31 12 0 30).month + 9223372036854775804 = 9223372036854775807 ∧
    9223372036854775807 < part (at_ 2017 3 31 12 0 30) .second + 9223372036854775800 := by decide

/-- On a 31st the checked build panics although the month number itself fits. -/
example : calculate (std .debug) (.moment (at_ 2017 3 31 12 0 0) + .months 9223372036854775804) = .panic :=
  (C92_adding_months (std .debug) (sane_std _) _ (by decide +kernel) _).mpr ⟨rfl, .inr ⟨by decide, rfl⟩⟩

end Props
