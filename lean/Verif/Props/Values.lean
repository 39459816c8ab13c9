import Verif.Lemmas.Valid
import Verif.Lemmas.Order
import Verif.Lemmas.Conv
import Verif.Spec.Chain

/-!
# C15, C29–C32, C58, C59: values, accessors, weekdays and months, ordering
-/

namespace Props
open Kairos Spec

/-! ## C15 -/

/-- **C15.** If every moment in the expression is a proper date-time of chrono's range, so is the
resulting moment. -/
theorem C15_results_are_dates (c : Cfg) (t : TT) (m : Moment)
    (ht : AllMoments (Moment.Valid c) t) (h : calculate c t = .ok (.moment m)) : m.Valid c :=
  calculate_inv (P := Moment.Valid c) (fun _ hb => hb.1) ht h

example := C15_results_are_dates (std .debug) (.moment (at_ 2017 1 31 0 0 0) + .months 1) (at_ 2017 3 3 0 0 0) (by simp [AllMoments, TT.hadd_def]; decide)
  (by decide +kernel)

/-- **C15.** An expression that is not itself a plain moment, if it produces a moment, produces a proper
date-time of chrono's range, in whole seconds, whatever the moments in it are. -/
theorem C15_computed (c : Cfg) (t : TT) (m : Moment) (ht : ∀ p, t ≠ .moment p)
    (h : calculate c t = .ok (.moment m)) : m.Valid c ∧ m.nano = 0 :=
  calculate_built (by cases t <;> first | rfl | exact absurd rfl (ht _)) h

/-- Twelve and a half seconds and one second are thirteen seconds. -/
example : calculate (std .debug) (.moment ⟨2016, 1, 31, 7, 8, 12, 500000000⟩ + .seconds 1) =
    .ok (.moment (at_ 2016 1 31 7 8 13)) := by decide +kernel

/-- **C15.** If the moments in an expression are in whole seconds, so is the resulting moment. -/
theorem C15_whole_seconds (c : Cfg) (t : TT) (m : Moment)
    (ht : AllMoments (fun m => m.Valid c ∧ m.nano = 0) t) (h : calculate c t = .ok (.moment m)) :
    m.nano = 0 :=
  (calculate_inv (P := fun m => m.Valid c ∧ m.nano = 0) (fun _ hb => hb) ht h).2

example : AllMoments (Moment.Valid (std .debug))
    (.endOfMonth (.moment ⟨2016, 1, 31, 7, 8, 9, 5⟩ + (.days 29 - .hours 3))) := by
  simp only [AllMoments, TT.hadd_def, TT.hsub_def, and_true, and_self]; decide

/-! ## C29 -/

/-- `get_seconds` … `get_years`, by unit. -/
def get (c : Cfg) : TUnit → TT → Out Int
  | .second => TT.getSeconds c
  | .minute => TT.getMinutes c
  | .hour => TT.getHours c
  | .day => TT.getDays c
  | .month => TT.getMonths c
  | .year => TT.getYears c

/-- All accessors compute `size / size of unit`, truncated, delivered by the machine. -/
theorem get_eq_chk (c : Cfg) (u v : TUnit) (n : Int) (hn : InI64 n) :
    get c v (amt u n) = c.chk ((n * u.secs).tdiv v.secs) := by
  have hle : ∀ k : Int, 0 < k → InI64 (n.tdiv k) := by
    intro k hk
    refine tdiv_in hk hn ?_
    by_cases h : 0 ≤ n
    · have := Int.mul_le_mul_of_nonneg_left (a := 1) (b := k) (c := n) (by omega) h; omega
    · have := Int.mul_le_mul_of_nonpos_left (a := n) (b := k) (c := 1) (by omega) (by omega); omega
  have up : ∀ (k a b : Int) (l : List Int), (∀ k ∈ l, 0 < k) → l.foldr (· * ·) 1 = k → 0 < b → a = k * b →
      (c.mulL n l : Out Int) = c.chk ((n * a).tdiv b) := by
    intro k a b l hl hk hb ha
    rw [mulL_eq_chk c n l hn hl, hk, ha, ← Int.mul_assoc, Int.mul_tdiv_cancel _ (by omega)]
  have down : ∀ (k a b : Int), 0 < k → 0 < a → b = a * k →
      (.ok (n.tdiv k) : Out Int) = c.chk ((n * a).tdiv b) := by
    intro k a b hk ha hb
    rw [hb, Int.mul_comm n a, Int.mul_tdiv_mul_of_pos _ _ ha, chk_ok_of_in c (hle k hk)]
  have same : ∀ a : Int, 0 < a → (.ok n : Out Int) = c.chk ((n * a).tdiv a) := by
    intro a ha
    rw [Int.mul_tdiv_cancel _ (by omega), chk_ok_of_in c hn]
  cases v <;> cases u <;>
    simp only [get, amt, TT.getSeconds, TT.getMinutes, TT.getHours, TT.getDays, TT.getMonths,
      TT.getYears, TUnit.secs] <;>
    first
    | exact same _ (by decide)
    | exact up _ _ _ _ (by decide) rfl (by decide) (by decide)
    | (repeat rw [tdiv_tdiv _ _ _ (by decide)]
       exact down _ _ _ (by decide) (by decide) (by decide))

/-- **C29.** The six accessors on an amount of any unit: the size in seconds divided by the size of
the requested unit, truncated toward zero, whenever that number fits into an `i64`. -/
theorem C29_get (c : Cfg) (u v : TUnit) (n : Int) (hn : InI64 n)
    (h : InI64 ((n * u.secs).tdiv v.secs)) :
    get c v (amt u n) = .ok ((n * u.secs).tdiv v.secs) := by
  rw [get_eq_chk c u v n hn, chk_ok_of_in c h]

example := C29_get (std .debug) .year .second 1000 (by decide) (by decide)

/-- **C29.** Converting to an equal or coarser unit cannot overflow. -/
theorem C29_get_coarser (c : Cfg) (u v : TUnit) (n : Int) (hn : InI64 n) (hu : u.secs ≤ v.secs) :
    get c v (amt u n) = .ok ((n * u.secs).tdiv v.secs) := by
  refine C29_get c u v n hn ?_
  have hp : 0 < u.secs := by cases u <;> decide
  refine tdiv_in (by omega) hn ?_
  by_cases h : 0 ≤ n
  · have h1 := Int.mul_le_mul_of_nonneg_left hu h
    have h2 := Int.mul_nonneg h (Int.le_of_lt hp)
    omega
  · have h1 := Int.mul_le_mul_of_nonpos_left (a := n) (by omega) hu
    have h2 := Int.mul_le_mul_of_nonneg_right (a := n) (b := 0) (c := u.secs) (by omega) (by omega)
    omega

example := C29_get_coarser (std .debug) .second .year (-9223372036854775808) (by decide) (by decide)

/-- **C29.** Otherwise the overflow-checked build panics and the other one wraps. -/
theorem C29_get_overflow (c : Cfg) (u v : TUnit) (n : Int) (hn : InI64 n)
    (h : ¬ InI64 ((n * u.secs).tdiv v.secs)) :
    (c.profile = .debug → get c v (amt u n) = .panic) ∧
    (c.profile = .release → ∃ w, get c v (amt u n) = .ok w ∧ InI64 w ∧
      (18446744073709551616 : Int) ∣ w - (n * u.secs).tdiv v.secs) := by
  rw [get_eq_chk c u v n hn]
  unfold Cfg.chk
  rw [if_neg h]
  refine ⟨fun hp => by rw [hp], fun hp => ?_⟩
  rw [hp]
  refine ⟨_, rfl, wrap64_in _, ?_⟩
  unfold wrap64
  have := Int.bmod_emod (x := (n * u.secs).tdiv v.secs) (m := 18446744073709551616)
  omega

example : get (std .debug) .month (amt .hour 1500) = .ok 2 := by decide
example : get (std .debug) .second (amt .year 9223372036854775807) = .panic := by decide

/-! ## C30 -/

/-- An end-of marker. -/
def isEndMarker : TT → Bool
  | .endOfYear _ | .endOfMonth _ | .endOfDay _ | .endOfHour _ | .endOfMinute _ => true
  | _ => false

/-- **C30.** Every value is of exactly one of five classes. -/
theorem C30_classes (t : TT) :
    [t.isAAmount, t.isMoment, t.isAddition, t.isSubtraction, isEndMarker t].count true = 1 := by
  cases t <;> rfl

/-- **C30.** Which values the predicates hold for. -/
theorem C30_predicates (t : TT) :
    (t.isAAmount = true ↔ ∃ u n, t = amt u n) ∧ (t.isMoment = true ↔ ∃ m, t = .moment m) ∧
    (t.isAddition = true ↔ ∃ a b, t = a + b) ∧ (t.isSubtraction = true ↔ ∃ a b, t = a - b) := by
  refine ⟨⟨fun h => ?_, ?_⟩, ⟨fun h => ?_, ?_⟩, ⟨fun h => ?_, ?_⟩, ⟨fun h => ?_, ?_⟩⟩
  · cases t <;> first
      | (simp [TT.isAAmount] at h; done)
      | exact ⟨.second, _, rfl⟩ | exact ⟨.minute, _, rfl⟩ | exact ⟨.hour, _, rfl⟩
      | exact ⟨.day, _, rfl⟩ | exact ⟨.month, _, rfl⟩ | exact ⟨.year, _, rfl⟩
  · rintro ⟨u, n, rfl⟩; cases u <;> rfl
  · cases t <;> first | (simp [TT.isMoment] at h; done) | exact ⟨_, rfl⟩
  · rintro ⟨m, rfl⟩; rfl
  · cases t <;> first | (simp [TT.isAddition] at h; done) | exact ⟨_, _, rfl⟩
  · rintro ⟨a, b, rfl⟩; rfl
  · cases t <;> first | (simp [TT.isSubtraction] at h; done) | exact ⟨_, _, rfl⟩
  · rintro ⟨a, b, rfl⟩; rfl

/-- **C30.** `get_moment` is `Some` exactly for moments. -/
theorem C30_get_moment (t : TT) (m : Moment) : t.getMoment = some m ↔ t = .moment m := by
  cases t <;> simp [TT.getMoment]

/-- **C30.** The accessors are 0 on everything that is not an amount. -/
theorem C30_get_non_amount (c : Cfg) (t : TT) (h : t.isAAmount = false) (v : TUnit) :
    get c v t = .ok 0 := by
  cases v <;> cases t <;> simp [TT.isAAmount] at h <;> rfl

example (v : TUnit) := C30_get_non_amount (std .debug) (.days 3 + .hours 2) (by decide) v

/-- **C30.** `name()` tells the fourteen kinds of value apart. -/
theorem C30_name (t t' : TT) : t.name = t'.name ↔ t.ctorIdx = t'.ctorIdx := by
  cases t <;> cases t' <;> simp [TT.name, TT.ctorIdx]

/-! ## C31, C32 -/

/-- The day of the week after this one. -/
def nextWeekday : Day → Day
  | .monday => .tuesday
  | .tuesday => .wednesday
  | .wednesday => .thursday
  | .thursday => .friday
  | .friday => .saturday
  | .saturday => .sunday
  | .sunday => .monday

/-- The twelve months in order. -/
def monthNo : Int → Month
  | 1 => .january | 2 => .february | 3 => .march | 4 => .april | 5 => .may | 6 => .june
  | 7 => .july | 8 => .august | 9 => .september | 10 => .october | 11 => .november | _ => .december

theorem into_inj (d d' : Day) : (d.into == d'.into) = decide (d = d') := by
  cases d <;> cases d' <;> rfl

theorem day_of_int (n : Int) (h1 : 0 ≤ n) (h2 : n < 7) : ∃ d : Day, d.into = n := by
  have : n = 0 ∨ n = 1 ∨ n = 2 ∨ n = 3 ∨ n = 4 ∨ n = 5 ∨ n = 6 := by omega
  rcases this with h | h | h | h | h | h | h
  · exact ⟨.monday, h.symm⟩
  · exact ⟨.tuesday, h.symm⟩
  · exact ⟨.wednesday, h.symm⟩
  · exact ⟨.thursday, h.symm⟩
  · exact ⟨.friday, h.symm⟩
  · exact ⟨.saturday, h.symm⟩
  · exact ⟨.sunday, h.symm⟩

/-- **C31.** Exactly one weekday satisfies `is_a` on a moment … -/
theorem C31_one_weekday (m : Moment) :
    ∃ d : Day, ∀ d', (TT.moment m).isA d' = .ok (decide (d' = d)) := by
  obtain ⟨d, hd⟩ := day_of_int m.weekday (by unfold Moment.weekday Cal.weekday; omega)
    (by unfold Moment.weekday Cal.weekday; omega)
  refine ⟨d, fun d' => ?_⟩
  simp only [TT.isA, ← hd, into_inj]
  congr 1; simp [eq_comm]

/-- **C31.** … namely the day of the week: 1 January 2001 was a Monday. -/
theorem C31_weekday (m : Moment) (d : Day) :
    (TT.moment m).isA d = .ok (decide ((Cal.dayNumber m.year m.month m.day - Cal.dayNumber 2001 1 1) % 7 =
      match d with
      | .monday => 0 | .tuesday => 1 | .wednesday => 2 | .thursday => 3 | .friday => 4 | .saturday => 5 | .sunday => 6)) := by
  have h0 : Cal.dayNumber 2001 1 1 = 730486 := by decide
  rw [h0]
  cases d <;> simp only [TT.isA, Moment.weekday, Cal.weekday, Day.into, OutE.ok.injEq] <;>
    exact decide_eq_decide.2 (by omega)

/-- 15 June 2017 was a Thursday. -/
example : (TT.moment (at_ 2017 6 15 8 0 0)).isA .thursday = .ok true := by decide +kernel

/-- **C31.** … and weekdays follow each other from one calendar day to the next. -/
theorem C31_next_day (m m' : Moment) (d : Day) (hm : Cal.ValidDate m.year m.month m.day)
    (hn : (m'.year, m'.month, m'.day) = Cal.nextDay m.year m.month m.day)
    (h : (TT.moment m).isA d = .ok true) : (TT.moment m').isA (nextWeekday d) = .ok true := by
  have hd := Cal.dayNumber_nextDay hm
  rw [← hn] at hd
  simp only [TT.isA, OutE.ok.injEq, beq_iff_eq, Moment.weekday, Cal.weekday] at *
  rw [hd]
  cases d <;> simp only [nextWeekday, Day.into] at * <;> omega

/-- An anchor: 6 November 2017 was a Monday. -/
example : (TT.moment (at_ 2017 11 6 1 2 3)).isA .monday = .ok true := by decide +kernel

/-- **C31.** Exactly one month satisfies `is_in` on an existing moment: the one with its number. -/
theorem C31_one_month (m : Moment) (hm : Cal.ValidDate m.year m.month m.day) (mo : Month) :
    (TT.moment m).isIn mo = .ok (decide (mo = monthNo m.month)) := by
  obtain ⟨h1, h2, -⟩ := hm
  simp only [TT.isIn]
  have : m.month = 1 ∨ m.month = 2 ∨ m.month = 3 ∨ m.month = 4 ∨ m.month = 5 ∨ m.month = 6 ∨
    m.month = 7 ∨ m.month = 8 ∨ m.month = 9 ∨ m.month = 10 ∨ m.month = 11 ∨ m.month = 12 := by omega
  rcases this with h | h | h | h | h | h | h | h | h | h | h | h <;> rw [h] <;> cases mo <;> rfl

example : (TT.moment (at_ 2016 2 29 1 2 3)).isIn .february = .ok true ∧ (TT.moment (at_ 2016 2 29 1 2 3)).isIn .march = .ok false :=
  ⟨C31_one_month _ (by decide) _, C31_one_month _ (by decide) _⟩

/-- **C31.** Anything but a moment is an error that names the kind of value (`C30_name`). -/
theorem C31_not_a_moment (t : TT) (h : ∀ m, t ≠ .moment m) (d : Day) (mo : Month) :
    t.isA d = .err (.cannotCompareDayTo t.name) ∧ t.isIn mo = .err (.cannotCompareMonthTo t.name) := by
  cases t <;> first | exact absurd rfl (h _) | exact ⟨rfl, rfl⟩

example (d : Day) (mo : Month) := C31_not_a_moment (.moment (at_ 2017 2 28 8 30 0) + .hours 2) (by intro m h; cases h) d mo

/-- **C32.** The matchers agree with `is_a` and `is_in` on moments, as do the filters. -/
theorem C32_matchers (m : Moment) (d : Day) (mo : Month) :
    d.matches (.moment m) = (TT.moment m).isA d ∧
    mo.matches (.moment m) = (TT.moment m).isIn mo ∧
    filterMatches d.filter (.moment m) = (TT.moment m).isA d ∧
    filterMatches mo.filter (.moment m) = (TT.moment m).isIn mo := by
  refine ⟨?_, ?_, rfl, rfl⟩
  · simp only [Day.matches, TT.isA, TT.getMoment, Option.map, OutE.ofOption, Bool.beq_comm]
  · simp only [Month.matches, TT.isIn, TT.getMoment, Option.map, OutE.ofOption, Bool.beq_comm]

/-- **C32.** On anything else the matchers are errors that name the kind of value, and the filters say no. -/
theorem C32_not_a_moment (t : TT) (h : ∀ m, t ≠ .moment m) (d : Day) (mo : Month) :
    d.matches t = .err (.argumentErrorNotAMoment t.name) ∧ mo.matches t = .err (.argumentErrorNotAMoment t.name) ∧
    d.filter t = false ∧ mo.filter t = false ∧
    filterMatches d.filter t = .ok false ∧ filterMatches mo.filter t = .ok false := by
  cases t <;> first | exact absurd rfl (h _) | exact ⟨rfl, rfl, rfl, rfl, rfl, rfl⟩

example (d : Day) (mo : Month) := C32_not_a_moment (.moment (at_ 2017 2 28 8 30 0) + .hours 2) (by intro m h; cases h) d mo

/-! ## C58 -/

/-- **C58.** The ordering of values is a total order compatible with equality. -/
theorem C58_total_order :
    (∀ a b : TT, a.cmp b = .eq ↔ a = b) ∧
    (∀ a b : TT, a.cmp b = .gt ↔ b.cmp a = .lt) ∧
    (∀ a b c : TT, a.cmp b = .lt → b.cmp c = .lt → a.cmp c = .lt) := by
  refine ⟨fun a b => TT.cmp_eq, fun a b => ?_, fun a b c => TT.cmp_trans⟩
  rw [TT.cmp_swap a b]
  cases a.cmp b <;> simp [Ordering.swap]

/-- **C58.** On moments it is chronological: by the instant, then by the sub-second part. -/
theorem C58_chronological (c : Cfg) (a b : Moment) (ha : a.Valid c) (hb : b.Valid c) :
    (TT.moment a).cmp (.moment b) = .lt ↔
      a.instant < b.instant ∨ (a.instant = b.instant ∧ a.nano < b.nano) :=
  Moment.cmp_lt_instant ha hb

example : (TT.moment (at_ 2017 12 31 23 59 59)).cmp (.moment (at_ 2018 1 1 0 0 0)) = .lt := by decide
example : (at_ 2017 12 31 23 59 59).Valid (std .debug) ∧ (at_ 2018 1 1 0 0 0).Valid (std .debug) := by decide

/-! ## C59 -/

/-- **C59.** Month lengths and leap years are Gregorian, for every `i32` year. -/
theorem C59_month_lengths (y m : Int) (hy : -2147483648 ≤ y ∧ y ≤ 2147483647) (hm : 1 ≤ m ∧ m ≤ 12) :
    getNumOfDaysInMonth y m = Cal.monthLen y m ∧ isLeapYear y = Cal.isLeap y :=
  ⟨numDays_eq hy.1 hy.2 hm.1 hm.2, isLeapYear_eq y⟩

example : getNumOfDaysInMonth 2100 2 = Cal.monthLen 2100 2 ∧ isLeapYear 2100 = Cal.isLeap 2100 := C59_month_lengths 2100 2 (by decide) (by decide)

/-- **C59.** The same, seen through the API: the day of `end_of_month`. -/
theorem C59_observable (c : Cfg) (hc : Sane c) (m : Moment) (hm : m.Valid c) :
    calculate c (.endOfMonth (.moment m)) =
      .ok (.moment (at_ m.year m.month (Cal.monthLen m.year m.month) 0 0 0)) := by
  unfold Sane at hc
  have := calculate_endOf c .month (.moment m)
  rw [calculate_leaf c (t := .moment m) rfl, OutE.ok_bind] at this
  rw [show TT.endOfMonth (.moment m) = EndKind.app .month (.moment m) from rfl, this]
  obtain ⟨w, hw⟩ := endVal_valid c (by omega) (by omega) .month hm
  obtain ⟨r, rfl, -, -, h1, h2, h3, h4, h5, h6, h7⟩ := endVal_ok c hw
  have b := Cal.monthLen_bounds (y := m.year) hm.2.2.1.1 hm.2.2.1.2.1
  have e : getNumOfDaysInMonth m.year m.month = Cal.monthLen m.year m.month :=
    numDays_eq (by have := hm.1; omega) (by have := hm.2.1; omega) hm.2.2.1.1 hm.2.2.1.2.1
  rw [e, asU32_id (by omega) (by omega)] at h4
  rw [hw]
  obtain ⟨y, mo, d, h, mi, s, n⟩ := r
  simp at h1 h2 h3 h4 h5 h6 h7
  subst h1 h2 h3 h4 h5 h6 h7
  rfl

example : Cal.monthLen 1900 2 = 28 ∧ Cal.monthLen 2000 2 = 29 ∧ Cal.monthLen (-4) 2 = 29 := by decide

end Props
