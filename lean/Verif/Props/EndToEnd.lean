import Verif.Props.ParserDates
import Verif.Props.Adaptors

/-!
# C73: from the text of an iterator to its items
-/

namespace Props
open Kairos Kairos.Parser Spec

/-- A step of a fixed length is that many seconds, minutes, hours or days. -/
theorem fixed_step {unit : TimeUnit} (hu : unit ≠ .month ∧ unit ≠ .year) {n : Int} (hn : 0 ≤ n) :
    ∃ u k, unitAmount unit n = amt u k ∧ (u = .second ∨ u = .minute ∨ u = .hour ∨ u = .day) ∧ 0 ≤ k ∧
      k * u.secs = n * unitSecs unit := by
  cases unit with
  | second => exact ⟨.second, n, rfl, by simp, hn, rfl⟩
  | minute => exact ⟨.minute, n, rfl, by simp, hn, rfl⟩
  | hour => exact ⟨.hour, n, rfl, by simp, hn, rfl⟩
  | day => exact ⟨.day, n, rfl, by simp, hn, rfl⟩
  | week => exact ⟨.day, 7 * n, rfl, by simp, by omega, by simp only [TUnit.secs, unitSecs]; omega⟩
  | month => exact absurd rfl hu.1
  | year => exact absurd rfl hu.2

theorem step_nonneg {unit : TimeUnit} {n : Int} {st : List Char} (h : StepText unit n st) : 0 ≤ n := by
  cases h with
  | alias => decide
  | every => exact Int.natCast_nonneg _

theorem iterText_nonneg {iso : Iso} {d : PDate} {unit : TimeUnit} {n : Int} {u : Option UntilSpec} {t : List Char}
    (h : IterText iso d unit n u t) : 0 ≤ n ∧ ∀ k, u = some (.times k) → 0 ≤ k ∧ k ≤ 9223372036854775807 := by
  cases h with
  | mk _ _ _ _ _ hs _ hu _ =>
    refine ⟨step_nonneg hs, ?_⟩
    rintro k rfl
    cases hu with
    | times _ _ hmax => exact ⟨Int.natCast_nonneg _, by omega⟩

/-- The step is short enough for the seconds in a week count to fit. -/
theorem weeks_fit {unit : TimeUnit} {n : Int} (hn : 0 ≤ n) (hmax : n * unitSecs unit ≤ 30 * 86400) :
    unit = .week → InI64 (7 * n) := by
  rintro rfl
  simp only [unitSecs] at hmax
  unfold InI64
  omega

/-- **C73 (times).** `<date> every <n> <unit> <N> times`, with a step of at most 30 days: `parse` returns an iterator whose item at position `k < N` is
exactly `k` steps after the date (or an OutOfBounds error, if that is past chrono's last year), and which ends after `N`
items. -/
theorem C73_times (c : Cfg) (hc : Sane c) (iso : Iso) (now now' : Moment) (d : PDate) (unit : TimeUnit) (n N : Int)
    (t : List Char) (h : IterText iso d unit n (some (.times N)) t) (hu : unit ≠ .month ∧ unit ≠ .year)
    (hmax : n * unitSecs unit ≤ 30 * 86400) (v : TT) (m : Moment) (hv : dateMeans c now d = .value v)
    (hcalc : calculate c v = .ok (.moment m)) (hm : m.Valid c) :
    ∃ ui, parse c iso now now' t = .ok (.iterator (.ok ui)) ∧ ∀ k : Nat,
      (N ≤ k → nth (UserIterator.next c) k ui = none) ∧
      (k < N →
        (∃ r, nth (UserIterator.next c) k ui = some (.ok (.moment r)) ∧ r.Valid c ∧
          r.instant = m.instant + k * (n * unitSecs unit) ∧ r.nano = if k = 0 then m.nano else 0) ∨
        (Cal.instant (c.maxYear + 1) 1 1 0 0 0 ≤ m.instant + k * (n * unitSecs unit) ∧
          ∃ Y M D H MI S, nth (UserIterator.next c) k ui = some (.err (.outOfBounds Y M D H MI S)))) := by
  obtain ⟨hn, hN⟩ := iterText_nonneg h
  have hN := hN N rfl
  refine ⟨_, (C54_iterator_text c iso now now' d unit n _ t h (weeks_fit hn hmax) v m hv hcalc).2.1 N rfl, ?_⟩
  intro k
  rw [(C45_user_iterator c _ N m k).2.1, (C40_times_partial c _ _ N hN.1 hN.2 k).1]
  constructor
  · intro hk; rw [if_neg (by omega)]
  · intro hk
    rw [if_pos hk]
    obtain ⟨u, j, e, hu', hj, hs⟩ := fixed_step hu hn
    rw [e, ← hs]
    rcases C34_kth_item c hc m hm u hu' j hj (by omega) _ ((C33_build m (amt u j)).1 ⟨u, j, rfl⟩) k with
      ⟨r, h1, h2, h3, h4⟩ | h1
    · exact .inl ⟨r, h1, h2, h3, h4⟩
    · exact .inr h1

example := C73_times (std .debug) (sane_std _) noIso (at_ 2017 2 28 8 30 0) (at_ 2017 2 28 8 30 0) _ _ _ _ _ sample_every (by decide) (by decide)
  (.moment (at_ 2017 2 28 8 30 0) + .days 1) (at_ 2017 3 1 8 30 0) rfl (by decide +kernel) (by decide)

/-- **C73 (no bound).** Without a bound the item at every position is that many steps after the date, until the end of chrono's range. -/
theorem C73_unbounded (c : Cfg) (hc : Sane c) (iso : Iso) (now now' : Moment) (d : PDate) (unit : TimeUnit) (n : Int)
    (t : List Char) (h : IterText iso d unit n none t) (hu : unit ≠ .month ∧ unit ≠ .year)
    (hmax : n * unitSecs unit ≤ 30 * 86400) (v : TT) (m : Moment) (hv : dateMeans c now d = .value v)
    (hcalc : calculate c v = .ok (.moment m)) (hm : m.Valid c) :
    ∃ ui, parse c iso now now' t = .ok (.iterator (.ok ui)) ∧ ∀ k : Nat,
      (∃ r, nth (UserIterator.next c) k ui = some (.ok (.moment r)) ∧ r.Valid c ∧
        r.instant = m.instant + k * (n * unitSecs unit) ∧ r.nano = if k = 0 then m.nano else 0) ∨
      (Cal.instant (c.maxYear + 1) 1 1 0 0 0 ≤ m.instant + k * (n * unitSecs unit) ∧
        ∃ Y M D H MI S, nth (UserIterator.next c) k ui = some (.err (.outOfBounds Y M D H MI S))) := by
  obtain ⟨hn, -⟩ := iterText_nonneg h
  refine ⟨_, (C54_iterator_text c iso now now' d unit n _ t h (weeks_fit hn hmax) v m hv hcalc).1 rfl, ?_⟩
  intro k
  rw [(C45_user_iterator c _ 0 m k).1]
  obtain ⟨u, j, e, hu', hj, hs⟩ := fixed_step hu hn
  rw [e, ← hs]
  rcases C34_kth_item c hc m hm u hu' j hj (by omega) _ ((C33_build m (amt u j)).1 ⟨u, j, rfl⟩) k with
    ⟨r, h1, h2, h3, h4⟩ | h1
  · exact .inl ⟨r, h1, h2, h3, h4⟩
  · exact .inr h1

example := C73_unbounded (std .debug) (sane_std _) noIso (at_ 2017 2 28 8 30 0) (at_ 2017 2 28 8 30 0) _ _ _ _ sample_daily (by decide) (by decide)
  (.moment (at_ 2017 2 28 8 30 0)) (at_ 2017 2 28 8 30 0) rfl (by decide +kernel) (by decide)

/-- **C73 (until).** `<date> every <n> <unit> until <date>`, with a step of at most 30 days and a second date on a full second: the item at position `k` is
`k` steps after the first date if that is before the second date; otherwise it is the end (or an OutOfBounds error, if
that is past chrono's last year). -/
theorem C73_until (c : Cfg) (hc : Sane c) (iso : Iso) (now now' : Moment) (d : PDate) (unit : TimeUnit) (n : Int) (e : ExactDate)
    (t : List Char) (h : IterText iso d unit n (some (.exact e)) t) (hu : unit ≠ .month ∧ unit ≠ .year)
    (hmax : n * unitSecs unit ≤ 30 * 86400) (v w : TT) (m ending : Moment) (hv : dateMeans c now d = .value v)
    (hcalc : calculate c v = .ok (.moment m)) (hm : m.Valid c) (hw : exactMeans c now' e = .value w)
    (hend : calculate c w = .ok (.moment ending)) (he : ending.Valid c) (hz : ending.nano = 0) :
    ∃ ui, parse c iso now now' t = .ok (.iterator (.ok ui)) ∧ ∀ k : Nat,
      (m.instant + k * (n * unitSecs unit) < ending.instant →
        ∃ r, nth (UserIterator.next c) k ui = some (.ok (.moment r)) ∧ r.Valid c ∧
          r.instant = m.instant + k * (n * unitSecs unit) ∧ r.nano = if k = 0 then m.nano else 0) ∧
      (ending.instant ≤ m.instant + k * (n * unitSecs unit) →
        nth (UserIterator.next c) k ui = none ∨
        (Cal.instant (c.maxYear + 1) 1 1 0 0 0 ≤ m.instant + k * (n * unitSecs unit) ∧
          ∃ Y M D H MI S, nth (UserIterator.next c) k ui = some (.err (.outOfBounds Y M D H MI S)))) := by
  obtain ⟨hn, -⟩ := iterText_nonneg h
  refine ⟨_, (C54_iterator_text c iso now now' d unit n _ t h (weeks_fit hn hmax) v m hv hcalc).2.2 e w ending rfl hw hend, ?_⟩
  intro k
  rw [(C45_user_iterator c _ 0 ending k).2.2]
  obtain ⟨u, j, e, hu', hj, hs⟩ := fixed_step hu hn
  rw [e, ← hs]
  rcases C34_kth_item c hc m hm u hu' j hj (by omega) _ ((C33_build m (amt u j)).1 ⟨u, j, rfl⟩) k with
    ⟨r, h1, h2, h3, h4⟩ | ⟨h1, Y, M, D, H, MI, S, h2⟩
  · rw [(C41_until c _ ending _ k).1 r h1 h2 he]
    have hr := h2.2.2.2.2.1
    constructor
    · intro hlt
      rw [if_pos (by omega)]
      exact ⟨r, rfl, h2, h3, h4⟩
    · intro hge
      rw [if_neg (by omega)]
      exact .inl rfl
  · constructor
    · intro hlt
      have := moment_lt_end he
      omega
    · intro hge
      exact .inr ⟨h1, Y, M, D, H, MI, S, (C41_until c _ ending _ k).2.1 _ h2⟩

example := C73_until (std .debug) (sane_std _) noIso (at_ 2017 2 28 8 30 0) (at_ 2017 2 28 8 30 0) _ _ _ _ _ sample_week_until (by decide) (by decide)
  (.moment (at_ 2017 2 28 8 30 0)) (.moment (at_ 2017 2 28 8 30 0) + .days 1) (at_ 2017 2 28 8 30 0) (at_ 2017 3 1 8 30 0) rfl (by decide +kernel) (by decide)
  rfl (by decide +kernel) (by decide) rfl

/-- **C73 (months).** `<date> every <n> months <N> times`, from a day up to the 28th: the item at position `k < N` is the same day and time, `k * n` months
on; after `N` items the iterator ends. -/
theorem C73_months (c : Cfg) (hc : Sane c) (iso : Iso) (now now' : Moment) (d : PDate) (n N : Int)
    (t : List Char) (h : IterText iso d .month n (some (.times N)) t) (hmax : n ≤ 24000000000) (v : TT) (m : Moment)
    (hv : dateMeans c now d = .value v) (hcalc : calculate c v = .ok (.moment m)) (hm : m.Valid c) (hd : m.day ≤ 28) :
    ∃ ui, parse c iso now now' t = .ok (.iterator (.ok ui)) ∧ ∀ k : Nat,
      (N ≤ k → nth (UserIterator.next c) k ui = none) ∧
      (k < N → ∃ Y M : Int, 1 ≤ M ∧ M ≤ 12 ∧ Cal.monthIndex Y M = Cal.monthIndex m.year m.month + k * n ∧
        ((Y ≤ c.maxYear ∧ ∃ r, nth (UserIterator.next c) k ui = some (.ok (.moment r)) ∧ r.year = Y ∧ r.month = M ∧
            r.day = m.day ∧ r.hour = m.hour ∧ r.minute = m.minute ∧ r.second = m.second ∧
            r.nano = if k = 0 then m.nano else 0) ∨
         (c.maxYear < Y ∧ ∃ Y' M' D H MI S,
            nth (UserIterator.next c) k ui = some (.err (.outOfBounds Y' M' D H MI S))))) := by
  obtain ⟨hn, hN⟩ := iterText_nonneg h
  have hN := hN N rfl
  refine ⟨_, (C54_iterator_text c iso now now' d .month n _ t h (by simp) v m hv hcalc).2.1 N rfl, ?_⟩
  intro k
  rw [(C45_user_iterator c _ N m k).2.1, (C40_times_partial c _ _ N hN.1 hN.2 k).1]
  constructor
  · intro hk; rw [if_neg (by omega)]
  · intro hk
    rw [if_pos hk]
    obtain ⟨Y, M, h1, h2, h3, h4⟩ := C35_monthly c hc m hm hd n hn hmax _ ((C33_build m (.months n)).1 ⟨.month, n, rfl⟩) k
    refine ⟨Y, M, h1, h2, h3, ?_⟩
    rcases h4 with ⟨hY, h4⟩ | h4
    · exact .inl ⟨hY, _, h4, rfl, rfl, rfl, rfl, rfl, rfl, rfl⟩
    · exact .inr h4

example := C73_months (std .debug) (sane_std _) noIso (at_ 2017 2 28 8 30 0) (at_ 2017 2 28 8 30 0) _ _ _ _ sample_month_times (by decide)
  (.moment (at_ 2017 2 28 8 30 0)) (at_ 2017 2 28 8 30 0) rfl (by decide +kernel) (by decide) (by decide)

/-- **C73 (years).** `<date> every <n> years <N> times`, not from 29 February: the item at position `k < N` is the same date and time, `k * n` years on;
after `N` items the iterator ends. -/
theorem C73_years (c : Cfg) (hc : Sane c) (iso : Iso) (now now' : Moment) (d : PDate) (n N : Int)
    (t : List Char) (h : IterText iso d .year n (some (.times N)) t) (hmax : n ≤ 2000000000) (v : TT) (m : Moment)
    (hv : dateMeans c now d = .value v) (hcalc : calculate c v = .ok (.moment m)) (hm : m.Valid c)
    (hd : ¬ (m.month = 2 ∧ m.day = 29)) :
    ∃ ui, parse c iso now now' t = .ok (.iterator (.ok ui)) ∧ ∀ k : Nat,
      (N ≤ k → nth (UserIterator.next c) k ui = none) ∧
      (k < N →
        (m.year + k * n ≤ c.maxYear ∧ ∃ r, nth (UserIterator.next c) k ui = some (.ok (.moment r)) ∧
          r.year = m.year + k * n ∧ r.month = m.month ∧ r.day = m.day ∧ r.hour = m.hour ∧ r.minute = m.minute ∧
          r.second = m.second ∧ r.nano = if k = 0 then m.nano else 0) ∨
        (c.maxYear < m.year + k * n ∧ ∃ Y' M' D H MI S,
          nth (UserIterator.next c) k ui = some (.err (.outOfBounds Y' M' D H MI S)))) := by
  obtain ⟨hn, hN⟩ := iterText_nonneg h
  have hN := hN N rfl
  refine ⟨_, (C54_iterator_text c iso now now' d .year n _ t h (by simp) v m hv hcalc).2.1 N rfl, ?_⟩
  intro k
  rw [(C45_user_iterator c _ N m k).2.1, (C40_times_partial c _ _ N hN.1 hN.2 k).1]
  constructor
  · intro hk; rw [if_neg (by omega)]
  · intro hk
    rw [if_pos hk]
    rcases C35_yearly c hc m hm hd n (by omega) _ ((C33_build m (.years n)).1 ⟨.year, n, rfl⟩) k with ⟨-, h2, h3⟩ | ⟨h1, h2⟩
    · exact .inl ⟨h2, _, h3, rfl, rfl, rfl, rfl, rfl, rfl, rfl⟩
    · refine .inr ⟨?_, h2⟩
      have : 0 ≤ (k : Int) * n := Int.mul_nonneg (Int.natCast_nonneg _) hn
      have := hm.1
      omega

/-- `"today + 2 days every 3 hours 5 times"` meets the hypotheses of `C73_times` … -/
example : ∃ d, IterText noIso d .hour 3 (some (.times 5)) "today + 2 days every 3 hours 5 times".toList ∧
    (3 : Int) * unitSecs .hour ≤ 30 * 86400 ∧
    ∃ v, dateMeans (std .debug) (at_ 2016 2 28 8 0 0) d = .value v ∧
      calculate (std .debug) v = .ok (.moment (at_ 2016 3 1 8 0 0)) := by
  obtain ⟨t, h1, h2⟩ := C62_only_the_grammar "2 days".toList [] (.single ⟨2, .day⟩) (by decide +kernel)
  rw [List.append_nil] at h2
  have hE : ExprText (.single ⟨2, .day⟩) "2 days".toList := h2 ▸ h1
  refine ⟨⟨.today, some (.plus, .single ⟨2, .day⟩)⟩,
    IterText.mk (b0 := []) (dt := "today".toList) (b1 := " ".toList)
      (st := "every 3 hours".toList) (b2 := " ".toList) (ut := "5 times".toList) (by decide) (ExactText.today _)
      (OffsetText.some (b := " ".toList) (b' := " ".toList) (t := "2 days".toList) (by decide) (by decide) hE) (by decide) (by decide)
      (StepText.every (b := " ".toList) (ds := "3".toList) (b' := " ".toList) (unit := .hour) (name := "hours")
        (by decide) (by decide) (by decide) (by decide) (by decide))
      (by decide) (BoundText.times (ds := "5".toList) (b := " ".toList) (by decide) (by decide) (by decide)) (by decide),
    by decide, _, rfl, by decide +kernel⟩

/-- … and its items. -/
example : ∃ ui, parse (std .debug) noIso (at_ 2016 2 28 8 0 0) (at_ 2016 2 28 8 0 0) "today + 2 days every 3 hours 5 times".toList =
      .ok (.iterator (.ok ui)) ∧
    items (UserIterator.next (std .debug)) 7 ui = [some (.ok (.moment (at_ 2016 3 1 8 0 0))),
      some (.ok (.moment (at_ 2016 3 1 11 0 0))), some (.ok (.moment (at_ 2016 3 1 14 0 0))),
      some (.ok (.moment (at_ 2016 3 1 17 0 0))), some (.ok (.moment (at_ 2016 3 1 20 0 0))), none, none] :=
  ⟨.timesIter (timesNew ⟨.moment (at_ 2016 3 1 8 0 0), .hours 3, false⟩ 5), by decide +kernel⟩

end Props
