import Verif.Model.Main
import Verif.Props.EndToEnd
import Verif.Spec.Text
import Verif.Lemmas.ShortNumbers

/-!
# C74, C75: the command line program
-/

namespace Props
open Kairos Kairos.Parser Kairos.Main Spec

/-! ## C74 -/

/-- A line that shows a value. -/
def ValueLine (l : Line) : Prop := (∃ n label, l = .amount n label) ∨ (∃ m, l = .moment m)

theorem pretty_leaf {t : TT} (h : t.isLeaf) : ValueLine (prettyPrint t) := by
  cases t <;> simp [TT.isLeaf, TT.isAAmount, TT.isMoment] at h <;> simp [ValueLine, prettyPrint]

/-- A state in which the next item, if it is a value, is evaluated. -/
def Iter.Printable (it : Iter) : Prop := it.hadFirst = true ∨ it.base.isLeaf

theorem iter_printable {c : Cfg} {it : Iter} (h : Iter.Printable it) :
    Iter.Printable (it.next c).1 ∧ ∀ t, (it.next c).2 = some (.ok t) → t.isLeaf := by
  unfold Iter.next
  cases hf : it.hadFirst with
  | false =>
    simp only [Bool.not_false, if_true]
    refine ⟨.inl rfl, ?_⟩
    rintro t h'
    simp only [Option.some.injEq, OutE.ok.injEq] at h'
    subst h'
    rcases h with h | h
    · rw [hf] at h; cases h
    · exact h
  | true =>
    simp only [Bool.not_true, Bool.false_eq_true, if_false]
    unfold Iter.skip Iter.recalculate
    simp only
    cases hc : calculate c (it.base + it.increment) with
    | ok v =>
      refine ⟨.inl hf, ?_⟩
      rintro t h'
      simp only [OutE.ok_bind, Option.some.injEq, OutE.ok.injEq] at h'
      subst h'
      exact calculate_isLeaf hc
    | err e => exact ⟨.inl hf, by simp⟩
    | panic => exact ⟨.inl hf, by simp⟩
    | oof => exact ⟨.inl hf, by simp⟩

/-- The same for a parsed iterator. -/
def UserPrintable : UserIterator → Prop
  | .iterator it => Iter.Printable it
  | .timesIter s => Iter.Printable s.inner
  | .untilIterator it _ => Iter.Printable it

theorem user_printable {c : Cfg} {ui : UserIterator} (h : UserPrintable ui) :
    UserPrintable (ui.next c).1 ∧ ∀ t, (ui.next c).2 = some (.ok t) → t.isLeaf := by
  cases ui with
  | iterator it => exact iter_printable h
  | timesIter s =>
    have hp := iter_printable (c := c) h
    simp only [UserIterator.next, timesNext]
    split
    · exact ⟨h, by simp⟩
    · cases (c.add s.count 1 : Out Int) with
      | ok n => exact hp
      | err e => exact ⟨h, by simp⟩
      | panic => exact ⟨h, by simp⟩
      | oof => exact ⟨h, by simp⟩
  | untilIterator it e =>
    have hp := iter_printable (c := c) h
    simp only [UserIterator.next, untilNext]
    generalize Iter.next c it = p at hp
    obtain ⟨it', r⟩ := p
    cases r with
    | none => exact ⟨hp.1, by simp⟩
    | some o =>
      cases o with
      | ok tt =>
        simp only
        cases hc : calculate c tt with
        | ok v =>
          simp only
          cases hv : v.getMoment with
          | none => exact ⟨hp.1, by simp⟩
          | some m =>
            simp only
            split
            · refine ⟨hp.1, ?_⟩
              rintro t h'
              simp only [Option.some.injEq, OutE.ok.injEq] at h'
              subst h'
              exact calculate_isLeaf hc
            · exact ⟨hp.1, by simp⟩
        | err e => exact ⟨hp.1, by simp⟩
        | panic => exact ⟨hp.1, by simp⟩
        | oof => exact ⟨hp.1, by simp⟩
      | err e => exact ⟨hp.1, by simp⟩
      | panic => exact ⟨hp.1, by simp⟩
      | oof => exact ⟨hp.1, by simp⟩

theorem printItems_lines {c : Cfg} (rounds : Nat) {ui : UserIterator} (h : UserPrintable ui) :
    ∀ l ∈ (printItems c rounds ui).lines, ValueLine l ∨ ∃ e, l = .errorCalculating e := by
  induction rounds generalizing ui with
  | zero => intro l hl; cases hl
  | succ rounds ih =>
    have hp := user_printable (c := c) h
    unfold printItems
    generalize ui.next c = p at hp
    obtain ⟨ui', r⟩ := p
    cases r with
    | none => intro l hl; cases hl
    | some o =>
      cases o with
      | ok t =>
        intro l hl
        simp only [List.mem_cons] at hl
        rcases hl with rfl | hl
        · exact .inl (pretty_leaf (hp.2 t rfl))
        · exact ih hp.1 l hl
      | err e => intro l hl; simp only [List.mem_singleton] at hl; exact .inr ⟨e, hl⟩
      | panic => intro l hl; cases hl
      | oof => intro l hl; cases hl

/-- What `into_user_iterator` returns is printable. -/
theorem into_printable {c : Cfg} {now now' : Moment} {p : PIterator} {ui : UserIterator}
    (h : p.intoUserIterator c now now' = .ok ui) : UserPrintable ui := by
  have bd : ∀ m t i, Iter.build m t = .ok i → Iter.Printable i := by
    intro m t i hb
    unfold Iter.build at hb
    split at hb <;> cases hb
    exact .inr rfl
  unfold PIterator.intoUserIterator at h
  obtain ⟨step, -, h⟩ := bind_ok_inv h
  split at h
  · obtain ⟨v, -, h⟩ := bind_ok_inv h
    obtain ⟨m, -, h⟩ := bind_ok_inv h
    obtain ⟨w, -, h⟩ := bind_ok_inv h
    obtain ⟨m', -, h⟩ := bind_ok_inv h
    obtain ⟨i, h3, h⟩ := bind_ok_inv h
    cases h
    exact bd _ _ _ h3
  · obtain ⟨v, -, h⟩ := bind_ok_inv h
    obtain ⟨m, -, h⟩ := bind_ok_inv h
    obtain ⟨i, h3, h⟩ := bind_ok_inv h
    cases h
    exact bd _ _ _ h3
  · obtain ⟨v, -, h⟩ := bind_ok_inv h
    obtain ⟨m, -, h⟩ := bind_ok_inv h
    obtain ⟨i, h3, h⟩ := bind_ok_inv h
    cases h
    exact bd _ _ _ h3

theorem parsed_printable {c : Cfg} {iso : Iso} {now now' : Moment} {s : List Char} {ui : UserIterator}
    (h : parse c iso now now' s = .ok (.iterator (.ok ui))) : UserPrintable ui := by
  rcases parse_cases c iso now now' s with ⟨r, it, hit, e⟩ | ⟨-, r, t, ht, e⟩ | ⟨-, -, e⟩
  · rw [e] at h
    cases hx : it.intoUserIterator c now now' <;> rw [hx] at h <;> cases h
    exact into_printable hx
  · rw [e] at h
    cases hx : t.intoTimetype c now <;> rw [hx] at h <;> cases h
  · rw [e] at h; cases h

/-- **C74.** The program can print everything it computes: it never prints `Cannot pretty-print`, whatever its arguments. -/
theorem C74_everything_is_printable (c : Cfg) (iso : Iso) (now now' : Moment) (rounds : Nat) (args : List (List Char))
    (t : TT) : Line.cannotPrettyPrint t ∉ (Main.main c iso now now' rounds args).lines := by
  have hv : ∀ t', ¬ (ValueLine (.cannotPrettyPrint t') ∨ ∃ e, (Line.cannotPrettyPrint t') = .errorCalculating e) := by
    rintro t' ((⟨n, l, h⟩ | ⟨m, h⟩) | ⟨e, h⟩) <;> cases h
  unfold Main.main
  cases hp : parse c iso now now' (commandLine args) with
  | ok p =>
    cases p with
    | iterator r =>
      cases r with
      | ok ui => exact fun h => hv t (printItems_lines rounds (parsed_printable hp) _ h)
      | error e => simp
    | timeType v =>
      simp only
      cases hc : calculate c v with
      | ok r =>
        simp only [List.mem_singleton]
        intro h
        exact hv t (.inl (h ▸ pretty_leaf (calculate_isLeaf hc)))
      | err e => simp
      | panic => simp
      | oof => simp
  | err e => simp
  | panic => simp
  | oof => simp

/-- **C74.** The program prints the items of an iterator in order, one line each, up to the first end or error: at the end it finishes; an error is
printed, nothing after it, and the exit code is 1. -/
theorem C74_prints_the_items (c : Cfg) (ui : UserIterator) (ts : List TT) (rounds : Nat) (hr : ts.length < rounds)
    (hi : ∀ k t, ts[k]? = some t → nth (UserIterator.next c) k ui = some (.ok t)) :
    (nth (UserIterator.next c) ts.length ui = none → printItems c rounds ui = ⟨ts.map prettyPrint, .finished⟩) ∧
    (∀ e, nth (UserIterator.next c) ts.length ui = some (.err e) →
      printItems c rounds ui = ⟨ts.map prettyPrint ++ [.errorCalculating e], .exit1⟩) ∧
    (nth (UserIterator.next c) ts.length ui = some .panic →
      printItems c rounds ui = ⟨ts.map prettyPrint, .panicked⟩) := by
  induction ts generalizing rounds ui with
  | nil =>
    obtain ⟨r, rfl⟩ : ∃ r, rounds = r + 1 := ⟨rounds - 1, by simp at hr; omega⟩
    simp only [List.length_nil, nth]
    unfold printItems
    generalize ui.next c = p
    obtain ⟨ui', x⟩ := p
    refine ⟨?_, ?_, ?_⟩
    · rintro h; simp only at h; subst h; rfl
    · rintro e h; simp only at h; subst h; rfl
    · rintro h; simp only at h; subst h; rfl
  | cons t ts ih =>
    obtain ⟨r, rfl⟩ : ∃ r, rounds = r + 1 := ⟨rounds - 1, by simp at hr; omega⟩
    have h0 := hi 0 t (by simp)
    have ih := ih (ui.next c).1 r (by simp at hr; omega) (fun k t' hk => by
      have := hi (k + 1) t' (by simpa using hk)
      exact this)
    simp only [List.length_cons, nth] at *
    unfold printItems
    generalize ui.next c = p at *
    obtain ⟨ui', x⟩ := p
    simp only at h0 ih ⊢
    subst h0
    simp only
    refine ⟨fun h => ?_, fun e h => ?_, fun h => ?_⟩
    · rw [ih.1 h]; rfl
    · rw [ih.2.1 e h]; rfl
    · rw [ih.2.2 h]; rfl

example := C74_prints_the_items (std .debug) (.timesIter (timesNew ⟨.moment (at_ 2017 1 31 0 0 0), .days 1, false⟩ 2))
  [.moment (at_ 2017 1 31 0 0 0), .moment (at_ 2017 2 1 0 0 0)] 5 (by decide)
  (by
    intro k t h
    match k, h with
    | 0, h => cases h; decide +kernel
    | 1, h => cases h; decide +kernel)

/-- **C74.** `<date> every <n> <unit> <N> times` with a step of at most 30 days, as long as the dates stay in chrono's range: the program prints
exactly the `N` dates, each a step after the one before, and finishes. -/
theorem C74_times (c : Cfg) (hc : Sane c) (iso : Iso) (now now' : Moment) (args : List (List Char)) (d : PDate) (unit : TimeUnit)
    (n N : Int) (h : IterText iso d unit n (some (.times N)) (commandLine args)) (hu : unit ≠ .month ∧ unit ≠ .year)
    (hmax : n * unitSecs unit ≤ 30 * 86400) (v : TT) (m : Moment) (hv : dateMeans c now d = .value v)
    (hcalc : calculate c v = .ok (.moment m)) (hm : m.Valid c)
    (hrange : m.instant + N * (n * unitSecs unit) < Cal.instant (c.maxYear + 1) 1 1 0 0 0) (rounds : Nat) (hr : N < rounds) :
    ∃ ms : List Moment, (ms.length : Int) = N ∧
      Main.main c iso now now' rounds args = ⟨ms.map .moment, .finished⟩ ∧
      ∀ (k : Nat) r, ms[k]? = some r → r.Valid c ∧ r.instant = m.instant + k * (n * unitSecs unit) ∧
        r.nano = if k = 0 then m.nano else 0 := by
  obtain ⟨ui, hp, hk⟩ := C73_times c hc iso now now' d unit n N _ h hu hmax v m hv hcalc hm
  obtain ⟨hn, hN⟩ := iterText_nonneg h
  have hN := hN N rfl
  have hsec : 0 ≤ n * unitSecs unit := Int.mul_nonneg hn (by cases unit <;> decide)
  have item : ∀ k : Nat, (k : Int) < N → ∃ r, nth (UserIterator.next c) k ui = some (.ok (.moment r)) ∧ r.Valid c ∧
      r.instant = m.instant + k * (n * unitSecs unit) ∧ r.nano = if k = 0 then m.nano else 0 := by
    intro k hlt
    rcases (hk k).2 hlt with h1 | ⟨h1, -⟩
    · exact h1
    · exfalso
      have : (k : Int) * (n * unitSecs unit) ≤ N * (n * unitSecs unit) := Int.mul_le_mul_of_nonneg_right (by omega) hsec
      omega
  obtain ⟨L, hL⟩ : ∃ L : Nat, (L : Int) = N := ⟨N.toNat, by omega⟩
  have build : ∀ j : Nat, (j : Int) ≤ N → ∃ ms : List Moment, ms.length = j ∧ ∀ (k : Nat) r, ms[k]? = some r →
      nth (UserIterator.next c) k ui = some (.ok (.moment r)) ∧ r.Valid c ∧
      r.instant = m.instant + k * (n * unitSecs unit) ∧ r.nano = if k = 0 then m.nano else 0 := by
    intro j
    induction j with
    | zero => intro _; exact ⟨[], rfl, by simp⟩
    | succ j ih =>
      intro hj
      obtain ⟨ms, hl, hms⟩ := ih (by omega)
      obtain ⟨r, hr⟩ := item j (by omega)
      refine ⟨ms ++ [r], by simp [hl], ?_⟩
      intro k r' hk'
      rw [List.getElem?_append] at hk'
      split at hk'
      · exact hms k r' hk'
      · rename_i hge
        have : k = j := by
          have hsome := List.getElem?_eq_some_iff.1 hk'
          obtain ⟨hlt, -⟩ := hsome
          simp at hlt
          omega
        subst this
        rw [hl, Nat.sub_self] at hk'
        simp only [List.getElem?_cons_zero, Option.some.injEq] at hk'
        subst hk'
        exact hr
  obtain ⟨ms, hl, hms⟩ := build L (by omega)
  refine ⟨ms, by omega, ?_, fun k r h => (hms k r h).2⟩
  have := (C74_prints_the_items c ui (ms.map .moment) rounds (by rw [List.length_map]; omega) (fun k t hk => by
    rw [List.getElem?_map, Option.map_eq_some_iff] at hk
    obtain ⟨r, h1, rfl⟩ := hk
    exact (hms k r h1).1)).1 ((hk _).1 (by rw [List.length_map]; omega))
  unfold Main.main
  rw [hp]
  simp only
  rw [this, List.map_map]
  rfl

/-- `kairos-example today every 6 hours 3 times` -/
example : Main.main (std .debug) noIso (at_ 2017 1 31 12 0 0) (at_ 2017 1 31 12 0 0) 10
    ["today".toList, "every".toList, "6".toList, "hours".toList, "3".toList, "times".toList] =
    ⟨[.moment (at_ 2017 1 31 12 0 0), .moment (at_ 2017 1 31 18 0 0), .moment (at_ 2017 2 1 0 0 0)], .finished⟩ := by
  decide +kernel

/-- At the end of chrono's range (that the error shows the hour as day is C28). -/
example : Main.main (std .debug) noIso (at_ 262141 6 1 0 0 0) (at_ 262141 6 1 0 0 0) 10 ["today yearly".toList] =
    ⟨[.moment (at_ 262141 6 1 0 0 0), .moment (at_ 262142 6 1 0 0 0), .moment (at_ 262143 6 1 0 0 0),
      .errorCalculating (.outOfBounds 262144 6 0 0 0 0)], .exit1⟩ := by
  decide +kernel

theorem iter_next_ne_oof (c : Cfg) (it : Iter) : (it.next c).2 ≠ some .oof := by
  unfold Iter.next Iter.skip Iter.recalculate
  split
  · simp
  · have := calculate_ne_oof c (it.base + it.increment)
    simp only
    cases hc : calculate c (it.base + it.increment) with
    | oof => exact absurd hc this
    | _ => simp

/-- **C74.** An iterator with a bound of `N` times makes the program end after at most `N + 1` rounds, whatever the step. -/
theorem C74_times_ends (c : Cfg) (iso : Iso) (now now' : Moment) (args : List (List Char)) (it : Iter) (N : Nat)
    (hN : N ≤ 9223372036854775807)
    (hp : parse c iso now now' (commandLine args) = .ok (.iterator (.ok (.timesIter (timesNew it N)))))
    (rounds : Nat) (hr : N < rounds) :
    (Main.main c iso now now' rounds args).ending ≠ .running := by
  unfold Main.main
  rw [hp]
  simp only
  have key : ∀ j k : Nat, k + j = N → ∀ rounds, j < rounds →
      (printItems c rounds (.timesIter (after (timesNext c (Iter.next c)) k (timesNew it N)))).ending ≠ .running := by
    intro j
    induction j with
    | zero =>
      intro k hk rounds hr
      obtain ⟨r, rfl⟩ : ∃ r, rounds = r + 1 := ⟨rounds - 1, by omega⟩
      have h0 := (C40_times_partial c (Iter.next c) it N (by omega) (by omega) k).1
      rw [if_neg (by omega), nth_eq] at h0
      unfold printItems UserIterator.next
      simp only [h0]
      simp
    | succ j ih =>
      intro k hk rounds hr
      obtain ⟨r, rfl⟩ : ∃ r, rounds = r + 1 := ⟨rounds - 1, by omega⟩
      have h0 := (C40_times_partial c (Iter.next c) it N (by omega) (by omega) k).1
      rw [if_pos (by omega), nth_eq] at h0
      have hno : nth (Iter.next c) k it ≠ some .oof := by
        rw [nth_eq]; exact iter_next_ne_oof _ _
      have ih := ih (k + 1) (by omega) r (by omega)
      rw [after_succ'] at ih
      unfold printItems UserIterator.next
      simp only
      revert h0 ih
      generalize timesNext c (Iter.next c) (after (timesNext c (Iter.next c)) k (timesNew it N)) = p
      obtain ⟨s', x⟩ := p
      intro h0 ih
      simp only at h0 ih ⊢
      subst h0
      cases hx : nth (Iter.next c) k it with
      | none => simp
      | some o =>
        cases o with
        | ok t => exact ih
        | err e => simp
        | panic => simp
        | oof => exact absurd hx hno
  exact key N 0 (by omega) rounds hr

example := C74_times_ends (std .debug) noIso (at_ 2017 1 1 0 0 0) (at_ 2017 1 1 0 0 0) ["today daily".toList, "7 times".toList]
  ⟨.moment (at_ 2017 1 1 0 0 0), .days 1, false⟩ 7 (by decide) (by decide +kernel) 8 (by decide)

/-- **C74 (no bound).** Without a bound and with a step of at least a second (and at most 4.29 billion years), the program prints dates until the
range of chrono is left: then it prints the error and exits with code 1. -/
theorem C74_unbounded_exits (c : Cfg) (hc : Sane c) (iso : Iso) (now now' : Moment) (args : List (List Char)) (d : PDate)
    (unit : TimeUnit) (n : Int) (h : IterText iso d unit n none (commandLine args)) (hn : 0 < n)
    (hmax : n * unitSecs unit ≤ 133500000000000000) (v : TT) (m : Moment) (hv : dateMeans c now d = .value v)
    (hcalc : calculate c v = .ok (.moment m)) (hm : m.Valid c) :
    ∃ B, ∀ rounds, B ≤ rounds → (Main.main c iso now now' rounds args).ending = .exit1 := by
  have hw : unit = .week → InI64 (7 * n) := by
    rintro rfl
    simp only [unitSecs] at hmax
    unfold InI64; omega
  have hp := (C54_iterator_text c iso now now' d unit n _ _ h hw v m hv hcalc).1 rfl
  obtain ⟨u, j, e, hj, hs⟩ : ∃ u j, unitAmount unit n = amt u j ∧ 0 < j ∧ j * u.secs = n * unitSecs unit := by
    cases unit with
    | month => exact ⟨.month, n, rfl, hn, rfl⟩
    | year => exact ⟨.year, n, rfl, hn, rfl⟩
    | week => exact ⟨.day, 7 * n, rfl, by omega, by simp only [TUnit.secs, unitSecs]; omega⟩
    | second => exact ⟨.second, n, rfl, hn, rfl⟩
    | minute => exact ⟨.minute, n, rfl, hn, rfl⟩
    | hour => exact ⟨.hour, n, rfl, hn, rfl⟩
    | day => exact ⟨.day, n, rfl, hn, rfl⟩
  rw [e] at hp
  have fwd := fun k => forward_run c hc m hm u j hj (by omega) k
  obtain ⟨K, hK⟩ : ∃ K : Nat, Cal.instant (c.maxYear + 1) 1 1 0 0 0 - m.instant ≤ K :=
    ⟨(Cal.instant (c.maxYear + 1) 1 1 0 0 0 - m.instant).toNat, by omega⟩
  refine ⟨K + 1, fun rounds hr => ?_⟩
  unfold Main.main
  rw [hp]
  simp only
  have key : ∀ r k : Nat, K < k + r →
      (printItems c r (.iterator (after (Iter.next c) k ⟨.moment m, amt u j, false⟩))).ending = .exit1 ∨
      (∃ i, i < k ∧ ∃ e, nth (Iter.next c) i ⟨.moment m, amt u j, false⟩ = some (.err e)) := by
    intro r
    induction r with
    | zero =>
      intro k hk
      right
      refine ⟨K, by omega, ?_⟩
      rcases fwd K with ⟨r, h1, h2, -⟩ | ⟨Y, M, D, H, MI, S, -, h1⟩
      · have := moment_lt_end h1
        omega
      · exact ⟨_, h1⟩
    | succ r ih =>
      intro k hk
      have hk0 := fwd k
      rw [nth_eq] at hk0
      have ih := ih (k + 1) (by omega)
      rw [after_succ'] at ih
      unfold printItems UserIterator.next
      simp only
      rcases hk0 with ⟨r', -, -, -, h1⟩ | ⟨Y, M, D, H, MI, S, -, h1⟩
      · revert h1 ih
        have hnth := nth_eq (Iter.next c) k ⟨.moment m, amt u j, false⟩
        revert hnth
        generalize Iter.next c (after (Iter.next c) k ⟨.moment m, amt u j, false⟩) = p
        obtain ⟨s', x⟩ := p
        intro hnth ih h1
        simp only at h1 ih hnth ⊢
        subst h1
        simp only
        rcases ih with ih | ⟨i, hi, e, he⟩
        · exact .inl ih
        · right
          refine ⟨i, ?_, e, he⟩
          by_cases hik : i = k
          · subst hik; rw [hnth] at he; cases he
          · omega
      · left
        revert h1
        generalize Iter.next c (after (Iter.next c) k ⟨.moment m, amt u j, false⟩) = p
        obtain ⟨s', x⟩ := p
        intro h1
        simp only at h1
        subst h1
        rfl
  rcases key rounds 0 (by omega) with h | ⟨i, hi, -⟩
  · exact h
  · omega

example := C74_unbounded_exits (std .debug) (sane_std _) noIso (at_ 2017 2 28 8 30 0) (at_ 2017 2 28 8 30 0) ["today".toList, "daily".toList] ⟨.today, none⟩ .day 1
  (by rw [show commandLine ["today".toList, "daily".toList] = "today daily".toList by decide +kernel]; exact sample_daily) (by decide) (by decide)
  (.moment (at_ 2017 2 28 8 30 0)) (at_ 2017 2 28 8 30 0) rfl (by decide +kernel) (by decide)

theorem printItems_ends {c : Cfg} (K : Nat) (ui : UserIterator) (h : ∀ t, nth (UserIterator.next c) K ui ≠ some (.ok t))
    (ho : ∀ k, nth (UserIterator.next c) k ui ≠ some .oof) (rounds : Nat) (hr : K < rounds) :
    (printItems c rounds ui).ending ≠ .running := by
  induction rounds generalizing K ui with
  | zero => omega
  | succ r ih =>
    have h0 := ho 0
    simp only [nth] at h0
    unfold printItems
    have ih := fun (hK : 0 < K) => ih (K - 1) (ui.next c).1
      (fun t => by
        have := h t
        rw [show K = K - 1 + 1 by omega, nth] at this
        exact this)
      (fun k => ho (k + 1)) (by omega)
    have hz : K = 0 → ∀ t, (ui.next c).2 ≠ some (.ok t) := by rintro rfl; exact h
    revert h0 ih hz
    generalize ui.next c = p
    obtain ⟨ui', x⟩ := p
    intro h0 ih hz
    simp only at h0 ih hz
    cases x with
    | none => simp
    | some o =>
      cases o with
      | ok t =>
        by_cases hK : 0 < K
        · exact ih hK
        · exact absurd rfl (hz (by omega) t)
      | err e => simp
      | panic => simp
      | oof => exact absurd rfl h0

/-- **C74 (until).** With an `until` date and a step of at least a second (and at most 4.29 billion years), the program ends. -/
theorem C74_until_ends (c : Cfg) (hc : Sane c) (iso : Iso) (now now' : Moment) (args : List (List Char)) (d : PDate) (e : ExactDate)
    (unit : TimeUnit) (n : Int) (h : IterText iso d unit n (some (.exact e)) (commandLine args)) (hn : 0 < n)
    (hmax : n * unitSecs unit ≤ 133500000000000000) (v w : TT) (m ending : Moment) (hv : dateMeans c now d = .value v)
    (hcalc : calculate c v = .ok (.moment m)) (hm : m.Valid c) (hw : exactMeans c now' e = .value w)
    (hend : calculate c w = .ok (.moment ending)) (he : ending.Valid c) :
    ∃ B, ∀ rounds, B ≤ rounds → (Main.main c iso now now' rounds args).ending ≠ .running := by
  have hwk : unit = .week → InI64 (7 * n) := by
    rintro rfl
    simp only [unitSecs] at hmax
    unfold InI64; omega
  have hp := (C54_iterator_text c iso now now' d unit n _ _ h hwk v m hv hcalc).2.2 e w ending rfl hw hend
  obtain ⟨u, j, e, hj, hs⟩ : ∃ u j, unitAmount unit n = amt u j ∧ 0 < j ∧ j * u.secs = n * unitSecs unit := by
    cases unit with
    | month => exact ⟨.month, n, rfl, hn, rfl⟩
    | year => exact ⟨.year, n, rfl, hn, rfl⟩
    | week => exact ⟨.day, 7 * n, rfl, by omega, by simp only [TUnit.secs, unitSecs]; omega⟩
    | second => exact ⟨.second, n, rfl, hn, rfl⟩
    | minute => exact ⟨.minute, n, rfl, hn, rfl⟩
    | hour => exact ⟨.hour, n, rfl, hn, rfl⟩
    | day => exact ⟨.day, n, rfl, hn, rfl⟩
  rw [e] at hp
  obtain ⟨K, hK⟩ : ∃ K : Nat, ending.instant - m.instant < K := ⟨(ending.instant - m.instant).toNat + 1, by omega⟩
  refine ⟨K + 1, fun rounds hr => ?_⟩
  unfold Main.main
  rw [hp]
  refine printItems_ends K _ ?_ ?_ rounds (by omega)
  · intro t
    rw [(C45_user_iterator c _ 0 ending K).2.2]
    rcases C42_until_ends_partial c hc m hm u j hj (by omega) _ ((C33_build m (amt u j)).1 ⟨u, j, rfl⟩) ending he K hK with
      h | ⟨_, _, _, _, _, _, h⟩ <;> rw [h] <;> simp
  · intro k
    rw [(C45_user_iterator c _ 0 ending k).2.2, nth_eq]
    generalize after (untilNext c (Iter.next c) ending) k ⟨.moment m, amt u j, false⟩ = st
    have hno := iter_next_ne_oof c st
    unfold untilNext
    revert hno
    generalize Iter.next c st = p
    obtain ⟨s', x⟩ := p
    intro hno
    cases x with
    | none => simp
    | some o =>
      cases o with
      | ok t =>
        simp only
        have := calculate_ne_oof c t
        cases hx : calculate c t with
        | ok v =>
          simp only
          cases v.getMoment with
          | none => simp
          | some m => simp only; split <;> simp
        | oof => exact absurd hx this
        | _ => simp
      | oof => exact absurd rfl hno
      | _ => simp

example : IterText noIso ⟨.today, none⟩ .day 1 none (commandLine ["today".toList, "daily".toList]) ∧
    IterText noIso ⟨.today, none⟩ .day 1 (some (.exact .tomorrow))
      (commandLine ["today".toList, "daily".toList, "until tomorrow".toList]) ∧
    parse (std .debug) noIso (at_ 2017 1 1 0 0 0) (at_ 2017 1 1 0 0 0) (commandLine ["today daily".toList, "7 times".toList]) =
      .ok (.iterator (.ok (.timesIter (timesNew ⟨.moment (at_ 2017 1 1 0 0 0), .days 1, false⟩ 7)))) := by
  refine ⟨?_, ?_, by decide +kernel⟩
  · rw [show commandLine ["today".toList, "daily".toList] = "today daily".toList by decide +kernel]
    exact IterText.mk (b0 := []) (dt := "today".toList) (ot := []) (b1 := " ".toList) (st := "daily".toList) (b2 := []) (ut := [])
      (by decide) (ExactText.today _) .none (by decide) (by decide) (StepText.alias .day) (by decide) .none (by decide)
  · rw [show commandLine ["today".toList, "daily".toList, "until tomorrow".toList] = "today daily until tomorrow".toList by decide +kernel]
    exact IterText.mk (b0 := []) (dt := "today".toList) (ot := []) (b1 := " ".toList) (st := "daily".toList)
      (b2 := " ".toList) (ut := "until tomorrow".toList) (by decide) (ExactText.today _) .none (by decide) (by decide)
      (StepText.alias .day) (by decide)
      (.untilDate (b := " ".toList) (t := "tomorrow".toList) (by decide) (ExactText.tomorrow _)) (by decide)

/-! ## C75 -/

theorem fold_args (acc : List Char) (args : List (List Char)) :
    args.foldl (fun acc obj => acc ++ ' ' :: obj) acc = acc ++ args.flatMap (fun a => ' ' :: a) := by
  induction args generalizing acc with
  | nil => simp
  | cons a args ih => simp [ih]

/-- **C75.** It makes no difference whether the shell splits the text at a blank: `a b` as one argument or as two. -/
theorem C75_splitting (xs ys : List (List Char)) (a b : List Char) :
    commandLine (xs ++ [a ++ ' ' :: b] ++ ys) = commandLine (xs ++ [a, b] ++ ys) := by
  unfold commandLine
  rw [fold_args, fold_args]
  simp

theorem dropWhile_head {p : Char → Bool} {l : List Char} {ch : Char} (h : (l.dropWhile p).head? = some ch) : p ch = false := by
  induction l with
  | nil => cases h
  | cons x xs ih =>
    rw [List.dropWhile_cons] at h
    split at h
    · exact ih h
    · simp only [List.head?_cons, Option.some.injEq] at h
      subst h
      simpa using ‹¬ p x = true›

theorem isWhiteSpace_iff (ch : Char) : isWhiteSpace ch = true ↔ WhiteSpace ch := by
  simp only [isWhiteSpace, WhiteSpace, whiteSpace, Bool.or_eq_true, Bool.and_eq_true, decide_eq_true_eq, beq_iff_eq, List.mem_cons,
    List.not_mem_nil, or_false]
  omega

theorem isWhiteSpace_false (ch : Char) : isWhiteSpace ch = false ↔ ¬ WhiteSpace ch := by
  rw [← isWhiteSpace_iff]; simp

theorem trimmed (args : List (List Char)) :
    (∀ ch, (commandLine args).head? = some ch → isWhiteSpace ch = false) ∧
    (∀ ch, (commandLine args).getLast? = some ch → isWhiteSpace ch = false) := by
  unfold commandLine trim
  generalize args.foldl (fun acc obj => acc ++ ' ' :: obj) [] = s
  constructor
  · intro ch h
    rw [List.head?_reverse] at h
    -- the last character of what is left after dropping at the end is the first one before dropping
    have hsuf : (s.dropWhile isWhiteSpace).reverse.dropWhile isWhiteSpace <:+ (s.dropWhile isWhiteSpace).reverse :=
      List.dropWhile_suffix _
    obtain ⟨p, hp⟩ := hsuf
    have hne : (s.dropWhile isWhiteSpace).reverse.dropWhile isWhiteSpace ≠ [] := by
      intro h0; rw [h0] at h; cases h
    have : (s.dropWhile isWhiteSpace).reverse.getLast? = some ch := by
      rw [← hp, List.getLast?_append, h]; rfl
    rw [List.getLast?_reverse] at this
    exact dropWhile_head this
  · intro ch h
    rw [List.getLast?_reverse] at h
    exact dropWhile_head h

theorem trimmed_single (s : List Char) (h1 : ∀ ch, s.head? = some ch → isWhiteSpace ch = false)
    (h2 : ∀ ch, s.getLast? = some ch → isWhiteSpace ch = false) : commandLine [s] = s := by
  unfold commandLine trim
  have drop : ∀ l : List Char, (∀ ch, l.head? = some ch → isWhiteSpace ch = false) → l.dropWhile isWhiteSpace = l := by
    intro l hl
    cases l with
    | nil => rfl
    | cons x xs => rw [List.dropWhile_cons, hl x rfl]; rfl
  simp only [List.foldl_cons, List.foldl_nil, List.nil_append]
  have e1 : (' ' :: s).dropWhile isWhiteSpace = s := by
    rw [List.dropWhile_cons, show isWhiteSpace ' ' = true by decide]
    exact drop s h1
  rw [e1, drop s.reverse (by rw [List.head?_reverse]; exact h2), List.reverse_reverse]

/-- **C75.** The text handed to the parser is the arguments, with a blank before each, without white space at the ends: it neither starts nor
ends with white space, and nothing but white space is missing. -/
theorem C75_trimmed (args : List (List Char)) :
    (∀ ch, (commandLine args).head? = some ch → ¬ WhiteSpace ch) ∧ (∀ ch, (commandLine args).getLast? = some ch → ¬ WhiteSpace ch) ∧
    ∃ p q : List Char, (∀ ch ∈ p ++ q, WhiteSpace ch) ∧ args.flatMap (fun a => ' ' :: a) = p ++ commandLine args ++ q := by
  refine ⟨fun ch h => (isWhiteSpace_false ch).mp ((trimmed args).1 ch h), fun ch h => (isWhiteSpace_false ch).mp ((trimmed args).2 ch h), ?_⟩
  unfold commandLine trim
  rw [fold_args, List.nil_append]
  generalize args.flatMap (fun a => ' ' :: a) = s
  refine ⟨s.takeWhile isWhiteSpace, ((s.dropWhile isWhiteSpace).reverse.takeWhile isWhiteSpace).reverse, ?_, ?_⟩
  · intro ch h
    rw [List.mem_append, List.mem_reverse] at h
    rcases h with h | h <;> exact (isWhiteSpace_iff ch).mp (List.all_eq_true.mp List.all_takeWhile _ h)
  · rw [List.append_assoc, ← List.reverse_append, List.takeWhile_append_dropWhile, List.reverse_reverse, List.takeWhile_append_dropWhile]

/-- **C75.** A text without white space at its ends, given as one argument, is handed to the parser as it is. -/
theorem C75_single (s : List Char) (h1 : ∀ ch, s.head? = some ch → ¬ WhiteSpace ch)
    (h2 : ∀ ch, s.getLast? = some ch → ¬ WhiteSpace ch) : commandLine [s] = s :=
  trimmed_single s (fun ch h => (isWhiteSpace_false ch).mpr (h1 ch h)) (fun ch h => (isWhiteSpace_false ch).mpr (h2 ch h))

example := C75_single "today + 5 days".toList (by decide) (by decide)
example : commandLine ["  today ".toList, "".toList, "+".toList, "5 days\n".toList] = "today   + 5 days".toList := by decide +kernel

end Props
