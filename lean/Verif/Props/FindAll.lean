import Verif.Lemmas.FilterAll
import Verif.Props.Counts
import Verif.Spec.Tick

/-!
# C122: a filtered iterator finds everything

`TickAt` (Spec/Tick.lean) says what an iterator with steps of a fixed length visits: the moments at a whole number of steps after the start.
-/

namespace Props
open Kairos Spec

/-- An iterator that goes forward: moments up to some position, one and the same error from there on. -/
theorem forward_ends (c : Cfg) (hc : Sane c) (m : Moment) (hm : m.Valid c) (u : TUnit) (n : Int) (hn : 0 < n)
    (hmax : n * u.secs ≤ 133500000000000000) (it : Iter) (hit : Iter.build m (amt u n) = .ok it) :
    ∃ (L : Nat) (Y M D H MI S : Int), (∀ k : Nat, k < L → ∃ r : Moment, nth (Iter.next c) k it = some (.ok (.moment r)) ∧ r.Valid c) ∧
      (∀ k, L ≤ k → nth (Iter.next c) k it = some (.err (.outOfBounds Y M D H MI S))) := by
  have hit' : it = ⟨.moment m, amt u n, false⟩ := by
    rw [(C33_build m (amt u n)).1 ⟨_, _, rfl⟩] at hit; cases hit; rfl
  have fwd := fun k => forward_run c hc m hm u n hn hmax k
  rw [← hit'] at fwd
  have ham : (amt u n).isAAmount = true := by cases u <;> rfl
  obtain ⟨P, hP⟩ : ∃ P : Nat → Bool, P = fun k => match nth (Iter.next c) k it with
    | some (.ok _) => false
    | _ => true := ⟨_, rfl⟩
  generalize hK : (Cal.instant (c.maxYear + 1) 1 1 0 0 0 - m.instant).toNat = K
  have hPK : P (0 + K) = true := by
    rw [hP, Nat.zero_add]
    simp only
    rcases fwd K with ⟨r, v, hi, -, -⟩ | ⟨Y, M, D, H, MI, S, -, h⟩
    · have := moment_lt_end v; omega
    · rw [h]
  obtain ⟨-, -, hl, hlt⟩ := firstFrom_spec hPK
  generalize firstFrom P K 0 = L at hl hlt
  rcases fwd L with ⟨r, v, hi, -, h⟩ | ⟨Y, M, D, H, MI, S, -, h⟩
  · rw [hP] at hl; simp only [h] at hl; cases hl
  · refine ⟨L, Y, M, D, H, MI, S, fun k hk => ?_, fun k hk => ?_⟩
    · rcases fwd k with ⟨r, v, hi, -, h'⟩ | ⟨Y, M, D, H, MI, S, -, h'⟩
      · exact ⟨r, h', v⟩
      · have := hlt k (by omega) hk
        rw [hP] at this; simp only [h'] at this; cases this
    · rw [hit'] at h ⊢
      exact built_err_forever ham h k hk

/-- **C122 (every).** Any iterator with a positive step (seconds to years, up to 4.29 billion years), filtered by any test that decides every date: each
item is an item of the unfiltered iterator that passes the test, or an OutOfBounds error, for good; the items come in order of time; and no item of the
unfiltered iterator that passes the test is left out. (`fuel`: how many dates a single call may skip; from `B` on it makes no difference.) -/
theorem C122_every (c : Cfg) (hc : Sane c) (m : Moment) (hm : m.Valid c) (u : TUnit) (n : Int) (hn : 0 < n)
    (hmax : n * u.secs ≤ 133500000000000000) (it : Iter) (hit : Iter.build m (amt u n) = .ok it) (test : TT → Out Bool) (p : Moment → Bool)
    (hp : ∀ r : Moment, test (.moment r) = .ok (p r)) :
    ∃ B : Nat, ∀ fuel, B ≤ fuel →
      (∀ q : Nat, (∃ (r : Moment) (k : Nat), nth (filterNext (Iter.next c) test fuel) q it = some (.ok (.moment r)) ∧ r.Valid c ∧
          nth (Iter.next c) k it = some (.ok (.moment r)) ∧ p r = true) ∨
        ∃ Y M D H MI S, ∀ q', q ≤ q' → nth (filterNext (Iter.next c) test fuel) q' it = some (.err (.outOfBounds Y M D H MI S))) ∧
      (∀ (q q' : Nat) (r r' : Moment), q < q' → nth (filterNext (Iter.next c) test fuel) q it = some (.ok (.moment r)) →
        nth (filterNext (Iter.next c) test fuel) q' it = some (.ok (.moment r')) → r.instant < r'.instant) ∧
      (∀ (k : Nat) (r : Moment), nth (Iter.next c) k it = some (.ok (.moment r)) → p r = true →
        ∃ q, q ≤ k ∧ nth (filterNext (Iter.next c) test fuel) q it = some (.ok (.moment r))) := by
  obtain ⟨L, Y, M, D, H, MI, S, hok, herr⟩ := forward_ends c hc m hm u n hn hmax it hit
  have inc := (C36_strictly_forward_partial c hc m hm u n hn hmax it hit).2
  refine ⟨L + 1, fun fuel hf => ?_⟩
  obtain ⟨P, hP⟩ : ∃ P : Nat → Bool, P = fun k => match nth (Iter.next c) k it with
    | some (.ok (.moment r)) => p r
    | _ => false := ⟨_, rfl⟩
  have hPr : ∀ k r, nth (Iter.next c) k it = some (.ok (.moment r)) → P k = p r := by
    intro k r h; rw [hP]; simp only [h]
  obtain ⟨pos, f1, f2, f3, f4⟩ := filter_all (nx := Iter.next c) (M := test) (s := it) (P := P) (L := L) (fuel := fuel) (by omega)
    (fun k hk => by
      obtain ⟨r, g1, -⟩ := hok k hk
      exact ⟨_, g1, by rw [hp, hPr k r g1]⟩) herr
  have mono : ∀ q d, pos q < pos (q + (d + 1)) := by
    intro q d
    induction d with
    | zero => exact f2 q
    | succ d ih => have := f2 (q + (d + 1)); rw [show q + (d + 1 + 1) = q + (d + 1) + 1 by omega]; omega
  refine ⟨fun q => ?_, fun q q' r r' hq h h' => ?_, fun k r h hpr => ?_⟩
  · by_cases hl : pos q < L
    · left
      obtain ⟨r, g1, g2⟩ := hok _ hl
      exact ⟨r, pos q, by rw [f1 q, g1], g2, g1, by rw [← hPr _ r g1]; exact f3 q hl⟩
    · right
      refine ⟨Y, M, D, H, MI, S, fun q' hq => ?_⟩
      have : pos q ≤ pos q' := by
        by_cases h : q' = q
        · rw [h]; exact Nat.le_refl _
        · have := mono q (q' - q - 1)
          rw [show q + (q' - q - 1 + 1) = q' by omega] at this
          omega
      rw [f1 q', herr _ (by omega)]
  · have lt := mono q (q' - q - 1)
    rw [show q + (q' - q - 1 + 1) = q' by omega] at lt
    rw [f1 q] at h
    rw [f1 q'] at h'
    obtain ⟨_, _, e1, e2, hlt⟩ := inc _ _ _ _ lt h h'
    cases e1; cases e2
    exact hlt
  · have hl : k < L := by
      by_cases hl : k < L
      · exact hl
      · rw [herr k (by omega)] at h; cases h
    obtain ⟨q, h1, h2⟩ := f4 k hl (by rw [hPr k r h]; exact hpr)
    exact ⟨q, h1, by rw [f1 q, h2, h]⟩

example := C122_every (std .debug) (sane_std _) (at_ 2017 1 1 10 30 0) (by decide) .day 1 (by decide) (by decide)
  ⟨.moment (at_ 2017 1 1 10 30 0), .days 1, false⟩ rfl Day.monday.matches (fun r => Day.monday.into == r.weekday) (fun _ => rfl)

/-- **C122 (without).** The same with a filter that leaves out the dates that pass the test: no other date is left out. -/
theorem C122_without (c : Cfg) (hc : Sane c) (m : Moment) (hm : m.Valid c) (u : TUnit) (n : Int) (hn : 0 < n)
    (hmax : n * u.secs ≤ 133500000000000000) (it : Iter) (hit : Iter.build m (amt u n) = .ok it) (test : TT → Out Bool) (p : Moment → Bool)
    (hp : ∀ r : Moment, test (.moment r) = .ok (p r)) :
    ∃ B : Nat, ∀ fuel, B ≤ fuel →
      (∀ q : Nat, (∃ (r : Moment) (k : Nat), nth (withoutNext (Iter.next c) test fuel) q it = some (.ok (.moment r)) ∧ r.Valid c ∧
          nth (Iter.next c) k it = some (.ok (.moment r)) ∧ p r = false) ∨
        ∃ Y M D H MI S, ∀ q', q ≤ q' → nth (withoutNext (Iter.next c) test fuel) q' it = some (.err (.outOfBounds Y M D H MI S))) ∧
      (∀ (q q' : Nat) (r r' : Moment), q < q' → nth (withoutNext (Iter.next c) test fuel) q it = some (.ok (.moment r)) →
        nth (withoutNext (Iter.next c) test fuel) q' it = some (.ok (.moment r')) → r.instant < r'.instant) ∧
      (∀ (k : Nat) (r : Moment), nth (Iter.next c) k it = some (.ok (.moment r)) → p r = false →
        ∃ q, q ≤ k ∧ nth (withoutNext (Iter.next c) test fuel) q it = some (.ok (.moment r))) := by
  obtain ⟨B, h⟩ := C122_every c hc m hm u n hn hmax it hit (negated test) (fun r => !p r) (fun r => by simp only [negated, hp])
  refine ⟨B, fun fuel hf => ?_⟩
  have e : withoutNext (Iter.next c) test fuel = filterNext (Iter.next c) (negated test) fuel :=
    funext fun s => without_eq_filter _ _ _ s
  rw [e]
  simpa using h fuel hf

example := C122_without (std .debug) (sane_std _) (at_ 2017 1 31 10 30 0) (by decide) .month 1 (by decide) (by decide)
  ⟨.moment (at_ 2017 1 31 10 30 0), .months 1, false⟩ rfl Day.monday.matches (fun r => Day.monday.into == r.weekday) (fun _ => rfl)

/-- **C122 (the dates visited).** With steps of seconds, minutes, hours or days (up to 30 days) the items of the unfiltered iterator are the date-times of
chrono's range at a whole number of steps after the start (`TickAt`); these are the dates a filter finds. -/
theorem C122_visited (c : Cfg) (hc : Sane c) (m : Moment) (hm : m.Valid c) (u : TUnit)
    (hu : u = .second ∨ u = .minute ∨ u = .hour ∨ u = .day) (n : Int) (hn : 0 < n) (hmax : n * u.secs ≤ 30 * 86400) (it : Iter)
    (hit : Iter.build m (amt u n) = .ok it) (k : Nat) (r : Moment) :
    nth (Iter.next c) k it = some (.ok (.moment r)) ↔ r.Valid c ∧ TickAt m (n * u.secs) k r := by
  have hk := C34_kth_item c hc m hm u hu n (by omega) hmax it hit k
  constructor
  · intro h
    rcases hk with ⟨r', g1, g2, g3, g4⟩ | ⟨-, _, _, _, _, _, _, g⟩
    · rw [g1] at h; cases h; exact ⟨g2, g3, g4⟩
    · rw [g] at h; cases h
  · rintro ⟨v, t1, t2⟩
    rcases hk with ⟨r', g1, g2, g3, g4⟩ | ⟨g1, -⟩
    · have hrr : r' = r := by
        obtain ⟨e1, e2, e3, e4, e5, e6⟩ := Cal.instant_inj g2.2.2.1 v.2.2.1 g2.2.2.2.1 v.2.2.2.1
          (show r'.instant = r.instant by rw [g3, t1])
        have e7 : r'.nano = r.nano := by rw [g4, t2]
        cases r'; cases r; simp only at *; simp [*]
      rw [g1, hrr]
    · have := moment_lt_end v; omega

/-- Every Friday the 13th, day by day from January 2026 on: the test decides every date; 13 February 2026, 43 steps after the start, passes it and is
found. -/
example : let test : TT → Out Bool := fun t => match Day.matches .friday t with
      | .ok b => .ok (b && decide (t.getMoment.map (·.day) = some 13))
      | e => e
    let p : Moment → Bool := fun r => (Day.into .friday == r.weekday) && decide (r.day = 13)
    (∀ r : Moment, test (.moment r) = .ok (p r)) ∧ (at_ 2026 1 1 0 0 0).Valid (std .debug) ∧
    Iter.build (at_ 2026 1 1 0 0 0) (amt .day 1) = .ok ⟨.moment (at_ 2026 1 1 0 0 0), .days 1, false⟩ ∧
    (at_ 2026 2 13 0 0 0).Valid (std .debug) ∧ TickAt (at_ 2026 1 1 0 0 0) (1 * TUnit.secs .day) 43 (at_ 2026 2 13 0 0 0) ∧
    p (at_ 2026 2 13 0 0 0) = true ∧
    items (filterNext (Iter.next (std .debug)) test 400) 3 ⟨.moment (at_ 2026 1 1 0 0 0), .days 1, false⟩ =
      [some (.ok (.moment (at_ 2026 2 13 0 0 0))), some (.ok (.moment (at_ 2026 3 13 0 0 0))),
        some (.ok (.moment (at_ 2026 11 13 0 0 0)))] := by
  refine ⟨fun r => ?_, by decide +kernel, rfl, by decide +kernel, by decide +kernel, by decide +kernel, by decide +kernel⟩
  simp [Day.matches, TT.getMoment, OutE.ofOption]

end Props
