import Verif.Spec.OwnTests
import Verif.Lemmas.CalExists
import Verif.Lemmas.Pipeline
import Verif.Lemmas.Reference
import Verif.Lemmas.Samples
import Verif.Model.Display
import Verif.Props.Adaptors
import Verif.Props.Adding
import Verif.Props.Subtracting
import Verif.Props.Evaluation

/-!
# C154: the crate's tests that read the clock, whenever they are run
-/

namespace Props
open Kairos Spec

variable {σ : Type}

private theorem room {c : Cfg} {m : Moment} (hm : m.Valid c) (hy : m.year < c.maxYear) :
    m.instant + 365 * 86400 < Cal.instant (c.maxYear + 1) 1 1 0 0 0 := by
  have h := instant_lt_of_year hm.2.2.1 hm.2.2.2.1 (Y := c.maxYear - 1) (by omega)
  have e : c.maxYear - 1 + 1 = c.maxYear := by omega
  rw [e] at h
  have j1 := jan_first c.maxYear
  have j2 := jan_first (c.maxYear - 1)
  rw [e] at j2
  have y1 : 365 ≤ Cal.yearLen c.maxYear := by unfold Cal.yearLen; split <;> omega
  have y2 : Cal.daysBeforeYear c.maxYear = Cal.daysBeforeYear (c.maxYear - 1) + Cal.yearLen (c.maxYear - 1) := by
    have : Cal.dayNumber c.maxYear 1 1 = Cal.daysBeforeYear c.maxYear + 1 := by
      unfold Cal.dayNumber Cal.daysBeforeMonth; simp
    omega
  unfold Moment.instant at *
  unfold Cal.instant at *
  omega

/-- The items of `until`, one step of `u` apart, as long as they are in range. -/
private theorem until_item {c : Cfg} (hc : Sane c) {m e : Moment} (hm : m.Valid c) (he : e.Valid c) (hz : e.nano = 0) {u : TUnit}
    (hu : u = .second ∨ u = .minute ∨ u = .hour ∨ u = .day) {it : Iter} (hit : Iter.build m (amt u 1) = .ok it) (k : Nat)
    (hk : m.instant + k * u.secs < Cal.instant (c.maxYear + 1) 1 1 0 0 0) :
    (m.instant + k * u.secs < e.instant ∧ ∃ r, nth (untilNext c (Iter.next c) e) k it = some (.ok (.moment r))) ∨
    (e.instant ≤ m.instant + k * u.secs ∧ nth (untilNext c (Iter.next c) e) k it = none) := by
  have hs : 1 * u.secs ≤ 30 * 86400 := by rcases hu with rfl | rfl | rfl | rfl <;> decide
  rcases C34_kth_item c hc m hm u hu 1 (by omega) hs it hit k with ⟨r, h1, h2, h3, h4⟩ | ⟨h1, -⟩
  · have h := (C41_until c (Iter.next c) e it k).1 r h1 h2 he
    have hr : 0 ≤ r.nano := h2.2.2.2.2.1
    rw [Int.one_mul] at h3
    by_cases hlt : m.instant + k * u.secs < e.instant
    · left
      rw [if_pos (by left; omega)] at h
      exact ⟨hlt, r, h⟩
    · right
      rw [if_neg (by omega)] at h
      exact ⟨by omega, h⟩
  · rw [Int.one_mul] at h1; omega

private theorem collects_of {nx : σ → σ × Item} {s : σ} (N : Nat) (h : ∀ k, k < N → ∃ o, nth nx k s = some o)
    (hN : nth nx N s = none) : ∃ v, Collects nx s v ∧ v.length = N ∧ ∀ o ∈ v, ∃ k, k < N ∧ nth nx k s = some o := by
  refine ⟨(List.range N).map fun k => (nth nx k s).getD .panic, ⟨?_, by simpa using hN⟩, by simp, ?_⟩
  · intro k hk
    obtain ⟨o, ho⟩ := h k (by simpa using hk)
    simp [ho]
  · intro o ho
    obtain ⟨k, hk, rfl⟩ := List.mem_map.1 ho
    obtain ⟨o, ho⟩ := h k (by simpa using hk)
    exact ⟨k, by simpa using hk, by rw [ho]; rfl⟩

private theorem daily_eq (m : Moment) : Ext.daily (.moment m) 1 = Iter.build m (amt .day 1) := rfl
private theorem hourly_eq (m : Moment) : Ext.hourly (.moment m) 1 = Iter.build m (amt .hour 1) := rfl

/-- **C154 refuted.** On the first of March `test_until` fails: there is no day before, says the calculation. -/
theorem C154_refuted (p : Profile) (now' : Moment) : ¬ TestUntil (std p) (at_ 2017 3 1 12 0 0) now' := by
  rintro ⟨y, it, h, -⟩
  have : ∃ e, calculate (std p) (.moment (at_ 2017 3 1 12 0 0) - .days 1) = .err e :=
    ⟨.outOfBounds 2017 2 12 12 0 0, by cases p <;> decide +kernel⟩
  obtain ⟨e, he⟩ := this
  rw [he] at h
  cases h

/-- **C154, exactly when `test_until` passes (partial).** If the clock does not go back between the two readings, the test passes unless it is
run on the first of March, May, July, October or December: the days after a month of less than 31 days. -/
theorem C154_until_iff_partial (c : Cfg) (hc : Sane c) (now now' : Moment) (hn : now.Valid c) (hn' : now'.Valid c)
    (hle : now.instant ≤ now'.instant) (hy : c.minYear < now.year) :
    TestUntil c now now' ↔ ¬ (now.day = 1 ∧ (now.month = 3 ∨ now.month = 5 ∨ now.month = 7 ∨ now.month = 10 ∨ now.month = 12)) := by
  have hv := hn.2.2.1
  obtain ⟨v1, v2, v3, v4⟩ := hv
  obtain ⟨Y, M, hM, hp, hYM⟩ : ∃ Y M, (1 ≤ M ∧ M ≤ 12) ∧ Cal.monthIndex Y M = Cal.monthIndex now.year now.month - 1 ∧
      ((now.month = 1 ∧ Y = now.year - 1 ∧ M = 12) ∨ (1 < now.month ∧ Y = now.year ∧ M = now.month - 1)) := by
    by_cases h1 : now.month = 1
    · exact ⟨now.year - 1, 12, by omega, by unfold Cal.monthIndex; omega, .inl ⟨h1, rfl, rfl⟩⟩
    · exact ⟨now.year, now.month - 1, by omega, by unfold Cal.monthIndex; omega, .inr ⟨by omega, rfl, rfl⟩⟩
  have hlen : Cal.monthLen Y M < 31 ↔ now.month = 3 ∨ now.month = 5 ∨ now.month = 7 ∨ now.month = 10 ∨ now.month = 12 := by
    have hc : M = 1 ∨ M = 2 ∨ M = 3 ∨ M = 4 ∨ M = 5 ∨ M = 6 ∨ M = 7 ∨ M = 8 ∨ M = 9 ∨ M = 10 ∨ M = 11 ∨ M = 12 := by omega
    rcases hc with rfl | rfl | rfl | rfl | rfl | rfl | rfl | rfl | rfl | rfl | rfl | rfl <;> simp [Cal.monthLen] <;>
      (try split) <;> omega
  have key : ∀ y : Moment, y.Valid c → y.nano = 0 → y.instant < now.instant →
      calculate c (.moment now - .days 1) = .ok (.moment y) → TestUntil c now now' := by
    intro y h1 h2 h3 h4
    refine ⟨y, _, h4, rfl, fun k hk => absurd hk (by simp), ?_⟩
    have := until_item hc hn' h1 h2 (u := .day) (by simp) (daily_eq now').symm 0 (by simpa using moment_lt_end hn')
    rcases this with ⟨h, -⟩ | ⟨-, h⟩
    · simp at h; omega
    · exact h
  have hd := C21_days_partial c hc now hn 1 (by omega) (by omega) Y M hM hp
  have hidx : ∀ y : Moment, y.hour = now.hour → y.minute = now.minute → y.second = now.second → y.Valid c →
      Cal.dayNumber y.year y.month y.day < Cal.dayNumber now.year now.month now.day → y.instant < now.instant := by
    intro y h1 h2 h3 _ h5
    unfold Moment.instant Cal.instant; rw [h1, h2, h3]; omega
  rcases hd with ⟨h1, h2⟩ | ⟨h1, h2, h3, h4, h5⟩ | ⟨h1, h2, Y', M', D', H', MI', S', h3⟩
  · have hval : Moment.Valid c { now with day := now.day - 1, nano := 0 } :=
      ⟨hn.1, hn.2.1, ⟨v1, v2, by show 1 ≤ now.day - 1; omega, by show now.day - 1 ≤ Cal.monthLen now.year now.month; omega⟩, hn.2.2.2.1, by simp, by simp⟩
    refine ⟨fun _ => by omega, fun _ => key _ hval rfl (hidx _ rfl rfl rfl hval ?_) h2⟩
    show Cal.dayNumber now.year now.month (now.day - 1) < _
    unfold Cal.dayNumber; omega
  · have hday : now.day = 1 := by omega
    have hval : Moment.Valid c { now with year := Y, month := M, day := 31 + now.day - 1, nano := 0 } :=
      ⟨h4, by show Y ≤ _; have := hn.2.1; omega, ⟨hM.1, hM.2, by show 1 ≤ 31 + now.day - 1; omega, h3⟩, hn.2.2.2.1, by simp, by simp⟩
    refine ⟨fun _ => ?_, fun _ => key _ hval rfl (hidx _ rfl rfl rfl hval ?_) h5⟩
    · rintro ⟨-, h⟩
      have := hlen.2 h
      omega
    · refine (Cal.dayNumber_lt_iff hval.2.2.1 hn.2.2.1).2 ?_
      show Y < now.year ∨ _
      rcases hYM with ⟨-, h, -⟩ | ⟨-, h, h'⟩
      · left; omega
      · right; subst h; exact ⟨rfl, .inl (by show M < _; omega)⟩
  · refine ⟨?_, fun h => ?_⟩
    · rintro ⟨y, it, h, -⟩
      rw [h3] at h; cases h
    · exfalso
      apply h
      have hday : now.day = 1 := by omega
      refine ⟨hday, hlen.1 ?_⟩
      rcases h2 with h2 | h2 | h2 <;> omega

/-- **C154, exactly when `test_until_1` passes (partial).** If the clock does not go back between the two readings, and less than a day passes. -/
theorem C154_until_1_iff_partial (c : Cfg) (hc : Sane c) (now now' : Moment) (hn : now.Valid c) (hn' : now'.Valid c)
    (hy : now.year < c.maxYear) (hy' : now'.year < c.maxYear) :
    TestUntil1 c now now' ↔ now.instant ≤ now'.instant ∧ now'.instant < now.instant + 86400 := by
  have r1 := room hn hy
  have r2 := room hn' hy'
  obtain ⟨e, e1, e2, e3⟩ := moment_exists hn (now.instant + 86400) (by omega) (by omega)
  have he : calculate c (.moment now + .days 1) = .ok (.moment e) :=
    C16_up_to_30_days_partial c hc now e hn e1 e2 .day (by simp) 1 (by omega) (by decide) (by rw [e3]; rfl)
  have i0 := until_item hc hn' e1 e2 (u := .day) (by simp) (daily_eq now').symm 0 (by simp [TUnit.secs]; omega)
  have i1 := until_item hc hn' e1 e2 (u := .day) (by simp) (daily_eq now').symm 1 (by simp [TUnit.secs]; omega)
  simp only [TUnit.secs, e3] at i0 i1
  constructor
  · rintro ⟨e', it, v, h1, h2, ⟨h3, h4⟩, h5⟩
    rw [he] at h1; cases h1
    cases h2
    have h0 := h3 0 (by omega)
    rw [h5] at h4
    rcases i0 with ⟨a, -⟩ | ⟨a, b⟩
    · rcases i1 with ⟨-, r, b⟩ | ⟨b, -⟩
      · rw [h4] at b; cases b
      · omega
    · rw [h0] at b; cases b
  · rintro ⟨h1, h2⟩
    have hN : nth (untilNext c (Iter.next c) e) 1 ⟨.moment now', .days 1, false⟩ = none := by
      rcases i1 with ⟨a, -⟩ | ⟨-, b⟩
      · omega
      · exact b
    obtain ⟨v, hv, hl, -⟩ := collects_of 1 (fun k hk => by
      obtain rfl : k = 0 := by omega
      rcases i0 with ⟨-, r, b⟩ | ⟨a, -⟩
      · exact ⟨_, b⟩
      · omega) hN
    exact ⟨e, ⟨.moment now', .days 1, false⟩, v, he, rfl, hv, hl⟩

/-- **C154, exactly when `test_until_2` passes (partial).** If the clock does not go back between the two readings, and less than an hour
passes. -/
theorem C154_until_2_iff_partial (c : Cfg) (hc : Sane c) (now now' : Moment) (hn : now.Valid c) (hn' : now'.Valid c)
    (hy : now.year < c.maxYear) (hy' : now'.year < c.maxYear) :
    TestUntil2 c now now' ↔ now.instant ≤ now'.instant ∧ now'.instant < now.instant + 3600 := by
  have r1 := room hn hy
  have r2 := room hn' hy'
  obtain ⟨e, e1, e2, e3⟩ := moment_exists hn (now.instant + 172800) (by omega) (by omega)
  have he : calculate c (.moment now + .days 2) = .ok (.moment e) :=
    C16_up_to_30_days_partial c hc now e hn e1 e2 .day (by simp) 2 (by omega) (by decide) (by rw [e3]; rfl)
  have i := fun (k : Nat) (hk : k ≤ 48) =>
    until_item hc hn' e1 e2 (u := .hour) (by simp) (hourly_eq now').symm k (by simp [TUnit.secs]; omega)
  simp only [TUnit.secs, e3] at i
  constructor
  · rintro ⟨e', it, v, h1, h2, ⟨h3, h4⟩, h5⟩
    rw [he] at h1; cases h1
    cases h2
    have h47 := h3 47 (by omega)
    rw [h5] at h4
    rcases i 47 (by omega) with ⟨a, -⟩ | ⟨a, b⟩
    · rcases i 48 (by omega) with ⟨-, r, b⟩ | ⟨b, -⟩
      · rw [h4] at b; cases b
      · omega
    · rw [h47] at b; cases b
  · rintro ⟨h1, h2⟩
    have hN : nth (untilNext c (Iter.next c) e) 48 ⟨.moment now', .hours 1, false⟩ = none := by
      rcases i 48 (by omega) with ⟨a, -⟩ | ⟨-, b⟩
      · omega
      · exact b
    obtain ⟨v, hv, hl, -⟩ := collects_of 48 (fun k hk => by
      rcases i k (by omega) with ⟨-, r, b⟩ | ⟨a, -⟩
      · exact ⟨_, b⟩
      · omega) hN
    exact ⟨e, ⟨.moment now', .hours 1, false⟩, v, he, rfl, hv, hl⟩

/-! ### filters -/

private theorem nth_take (nx : σ → σ × Item) (n k : Nat) (s : σ) :
    nth (takeNext nx) k (n, s) = if k < n then nth nx k s else none := by
  induction k generalizing n s with
  | zero => cases n <;> simp [nth, takeNext]
  | succ k ih =>
    cases n with
    | zero =>
      show nth (takeNext nx) k (0, s) = _
      rw [ih]; simp
    | succ n =>
      show nth (takeNext nx) k (n, (nx s).1) = _
      rw [ih]
      simp [nth]

/-- The next `n` items are dates. -/
private def Dated (nx : σ → σ × Item) (n : Nat) (s : σ) : Prop := ∀ k, k < n → ∃ m, nth nx k s = some (.ok (.moment m))

private theorem filter_take {nx : σ → σ × Item} {M : TT → Out Bool} {p : Moment → Bool} (hM : ∀ m, M (.moment m) = .ok (p m))
    (n r : Nat) (hr : n < r) (s : σ) (hs : Dated nx n s) :
    (filterNext (takeNext nx) M r (n, s)).2 = none ∨
    ∃ j s' m, j < n ∧ filterNext (takeNext nx) M r (n, s) = ((j, s'), some (.ok (.moment m))) ∧ p m = true ∧ Dated nx j s' := by
  induction n generalizing r s with
  | zero =>
    obtain ⟨r, rfl⟩ : ∃ j, r = j + 1 := ⟨r - 1, by omega⟩
    left; rfl
  | succ n ih =>
    obtain ⟨r, rfl⟩ : ∃ j, r = j + 1 := ⟨r - 1, by omega⟩
    obtain ⟨m, hm⟩ := hs 0 (by omega)
    have hs' : Dated nx n (nx s).1 := fun k hk => hs (k + 1) (by omega)
    have e : takeNext nx (n + 1, s) = ((n, (nx s).1), some (.ok (.moment m))) := by
      show ((n, (nx s).1), (nx s).2) = _
      rw [show (nx s).2 = some (.ok (.moment m)) from hm]
    unfold filterNext
    simp only [e, hM]
    cases hp : p m with
    | true => right; exact ⟨n, _, m, by omega, rfl, hp, hs'⟩
    | false =>
      rcases ih r (by omega) _ hs' with h | ⟨j, s', m', h1, h2⟩
      · left; exact h
      · right; exact ⟨j, s', m', by omega, h2⟩

private theorem without_filter {nx : σ → σ × Item} {M : TT → Out Bool} {p : Moment → Bool} (hM : ∀ m, M (.moment m) = .ok (p m))
    (r : Nat) (n : Nat) : n < r → ∀ r', n < r' → ∀ s, Dated nx n s →
      (withoutNext (filterNext (takeNext nx) M r) M r' (n, s)).2 = none := by
  induction n using Nat.strongRecOn with
  | ind n ih =>
    intro hr r' hr' s hs
    obtain ⟨r', rfl⟩ : ∃ j, r' = j + 1 := ⟨r' - 1, by omega⟩
    unfold withoutNext
    rcases filter_take hM n r hr s hs with h | ⟨j, s', m, h1, h2, h3, h4⟩
    · rcases hx : filterNext (takeNext nx) M r (n, s) with ⟨t, x⟩
      rw [hx] at h
      obtain rfl : x = none := h
      rfl
    · rw [h2]
      simp only [hM, h3]
      exact ih j h1 (by omega) r' (by omega) s' h4

/-- **C154, `test_compile_skip` always passes (partial).** -/
theorem C154_compile_skip_partial (c : Cfg) (hc : Sane c) (now : Moment) (hn : now.Valid c) (hy : now.year < c.maxYear) :
    TestCompileSkip c now := by
  refine ⟨_, rfl, 21, fun r hr => ⟨fun k hk => absurd hk (by simp), ?_⟩⟩
  refine without_filter (p := (Test.day .monday).passes) (fun m => Test.matcher_eq (.day .monday) m) r 20 (by omega) r (by omega) _
    fun k hk => ?_
  have r1 := room hn hy
  rcases C34_kth_item c hc now hn .day (by simp) 1 (by omega) (by decide) _ (daily_eq now).symm k with ⟨m, h, -⟩ | ⟨h, -⟩
  · exact ⟨m, h⟩
  · simp only [TUnit.secs] at h
    omega

/-- **C154, `test_compile` always passes (partial).** -/
theorem C154_compile_partial (c : Cfg) (hc : Sane c) (now : Moment) (hn : now.Valid c) : TestCompile c now := by
  refine ⟨_, rfl, ?_⟩
  obtain ⟨B, hB⟩ := C44_filters_answer_partial c hc now hn .day 1 (by omega) (by decide) _ (daily_eq now).symm
    (filterMatches fun t => Day.filter .monday t || Month.filter .january t) (fun t => .inl ⟨_, rfl⟩)
  refine ⟨B, fun r hr => ?_⟩
  have key := fun q => (hB r hr q).1
  obtain ⟨v, h1, -, h3⟩ := collects_of (nx := takeNext (filterNext (Iter.next c)
      (filterMatches fun t => Day.filter .monday t || Month.filter .january t) r)) (s := (12, _)) 12
    (fun k hk => by
      rw [nth_take, if_pos hk]
      rcases key k with ⟨t, h⟩ | ⟨e, h⟩
      · exact ⟨_, h⟩
      · exact ⟨_, h⟩) (by rw [nth_take, if_neg (by omega)])
  refine ⟨v, h1, fun o ho => ?_⟩
  obtain ⟨k, hk, h⟩ := h3 o ho
  rw [nth_take, if_pos hk] at h
  rcases key k with ⟨t, h'⟩ | ⟨e, h'⟩
  · rw [h] at h'; injection h' with h'; exact .inl ⟨t, h'⟩
  · rw [h] at h'; injection h' with h'; exact .inr ⟨e, h'⟩

/-! ### texts -/

private theorem exact_today (iso : Parser.Iso) : Parser.exactDateParser iso (text! "today + 5min + 12min") =
    .done (text! " + 5min + 12min") .today := by
  have h : Nom.complete (Nom.map (Parser.tok "today") fun _ => (Parser.ExactDate.today)) (text! "today + 5min + 12min") =
      .done (text! " + 5min + 12min") .today := by decide +kernel
  unfold Parser.exactDateParser Nom.altComplete
  rw [List.map_cons, Nom.alt, h]

/-- What "5min + 12min" is read as. -/
private def mins : Parser.AmountExpr := .cons ⟨5, .minute⟩ .plus (.single ⟨12, .minute⟩)

private theorem date_today (iso : Parser.Iso) : Parser.date iso "today + 5min + 12min".toList = .done [] ⟨.today, some (.plus, mins)⟩ := by
  have h : Parser.date noIso "today + 5min + 12min".toList = .done [] ⟨.today, some (.plus, mins)⟩ := by decide +kernel
  rw [show "today + 5min + 12min".toList = text! "today + 5min + 12min" from by decide +kernel] at h ⊢
  unfold Parser.date at h ⊢
  rw [Nom.bind, exact_today] at h ⊢
  exact h

private theorem timetype_today (iso : Parser.Iso) :
    Parser.timetype iso "today + 5min + 12min".toList = .done [] (.date ⟨.today, some (.plus, mins)⟩) := by
  unfold Parser.timetype
  rw [Nom.alt, Nom.bind, date_today]
  rfl

/-- **C154, the tests of "today + 5min + 12min" always pass (partial).** -/
theorem C154_today_partial (c : Cfg) (hc : Sane c) (iso : Parser.Iso) (now : Moment) (hn : now.Valid c) (hy : now.year < c.maxYear) :
    TestToday c iso now := by
  have hv : ∃ v, calculate c (.moment now + (.minutes 5 + .minutes 12)) = .ok v := by
    rw [(C08_right_operand_first c now (.minutes 5 + .minutes 12) rfl).1]
    have r1 := room hn hy
    obtain ⟨e, e1, e2, e3⟩ := moment_exists hn (now.instant + 17 * 60) (by omega) (by omega)
    have he : calculate c (.moment now + .minutes 17) = .ok (.moment e) :=
      C16_up_to_30_days_partial c hc now e hn e1 e2 .minute (by simp) 17 (by omega) (by decide) (by rw [e3]; rfl)
    have ha : calculate c (.minutes 5 + .minutes 12) = .ok (.minutes 17) := by
      obtain ⟨p, a, b⟩ := c
      cases p <;> rfl
    rw [ha]
    exact ⟨_, he⟩
  obtain ⟨v, hv⟩ := hv
  have ht : Parser.PDate.intoTimetype c now ⟨.today, some (.plus, mins)⟩ = .ok (.moment now + (.minutes 5 + .minutes 12)) := by
    rfl
  exact ⟨⟨[], _, _, v, date_today iso, ht, hv⟩, ⟨[], _, _, v, timetype_today iso, ht, hv⟩⟩

/-! ### cases -/

/-- The day after it passes, on 1 January too, and not on 1 December. -/
example : TestUntil (std .debug) (at_ 2017 3 2 12 0 0) (at_ 2017 3 2 12 0 1) :=
  (C154_until_iff_partial (std .debug) (by decide) _ _ (by decide) (by decide) (by decide) (by decide)).2 (by decide)
example : TestUntil (std .release) (at_ 2017 1 1 0 0 0) (at_ 2017 1 1 0 0 0) :=
  (C154_until_iff_partial (std .release) (by decide) _ _ (by decide) (by decide) (by decide) (by decide)).2 (by decide)
example : ¬ TestUntil (std .debug) (at_ 2026 12 1 23 59 59) (at_ 2026 12 2 0 0 0) := fun h =>
  (C154_until_iff_partial (std .debug) (by decide) _ _ (by decide) (by decide) (by decide) (by decide)).1 h (by decide)

/-- Around New Year, with the second changing between the readings; and if an hour passes. -/
example : TestUntil1 (std .debug) ⟨2016, 12, 31, 23, 59, 59, 999999999⟩ (at_ 2017 1 1 0 0 0) :=
  (C154_until_1_iff_partial (std .debug) (by decide) _ _ (by decide) (by decide) (by decide) (by decide)).2 (by decide)
example : TestUntil2 (std .debug) ⟨2016, 12, 31, 23, 59, 59, 999999999⟩ (at_ 2017 1 1 0 0 0) :=
  (C154_until_2_iff_partial (std .debug) (by decide) _ _ (by decide) (by decide) (by decide) (by decide)).2 (by decide)
example : ¬ TestUntil2 (std .debug) (at_ 2017 6 15 12 0 0) (at_ 2017 6 15 13 0 0) := fun h =>
  absurd ((C154_until_2_iff_partial (std .debug) (by decide) _ _ (by decide) (by decide) (by decide) (by decide)).1 h) (by decide)

example := C154_compile_skip_partial (std .debug) (by decide) (at_ 2017 2 28 9 0 0) (by decide) (by decide)
example := C154_compile_partial (std .debug) (by decide) (at_ 2017 2 28 9 0 0) (by decide)
example := C154_today_partial (std .debug) (by decide) noIso (at_ 2017 2 28 9 0 0) (by decide) (by decide)

end Props
