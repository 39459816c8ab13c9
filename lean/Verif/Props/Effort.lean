import Verif.Model.IterTraced
import Verif.Lemmas.Kinds
import Verif.Props.Work

/-!
# C151: how much work a call of `next` is

`Traced.next c depth it` is `it.next` with the calls of the evaluation functions that are made for it (`Model/IterTraced.lean`), nested at most
`depth` deep. `after (Iter.next c) k it` is the iterator after `k` calls.
-/

namespace Props
open Kairos Spec

/-- Writing down the calls does not change what `next` does. -/
theorem C151_result (c : Cfg) (it : Iter) (depth : Nat) (hd : 2 * (it.base + it.increment).size ≤ depth) :
    (Traced.next c depth it).1 = it.next c := by
  have h := C138_result c (it.base + it.increment) depth (by omega)
  cases hf : it.hadFirst with
  | false => simp [Traced.next, Iter.next, hf]
  | true =>
    simp only [Traced.next, Iter.next, hf, Bool.not_true, Bool.false_eq_true, if_false, Traced.out_call, h, Iter.skip, Iter.recalculate]
    cases hc : calculate c (it.base + it.increment) <;> rfl

/-- The fourth call on an iterator by days that started on 27 February 2024. -/
example : Traced.next (std .debug) 10 (after (Iter.next (std .debug)) 3 ⟨.moment (at_ 2024 2 27 0 0 0), .days 1, false⟩) =
    ((⟨.moment (at_ 2024 3 1 0 0 0), .days 1, true⟩, some (.ok (.moment (at_ 2024 3 1 0 0 0)))),
      [.calculate (.moment (at_ 2024 2 29 0 0 0) + .days 1), .add (.moment (at_ 2024 2 29 0 0 0)) (.days 1),
        .addToMoment (at_ 2024 2 29 0 0 0) (.days 1)]) := by decide +kernel
example : 2 * ((TT.moment (at_ 2024 2 29 0 0 0)) + .days 1).size ≤ 10 := by decide

/-- `base` plus the step, `j` times, as it stands, not added up. -/
def piled (base step : TT) : Nat → TT
  | 0 => base
  | j + 1 => piled base step j + step

theorem moment_step {c : Cfg} {m : Moment} {u : TUnit} {n : Int} {v : TT} (h : calculate c (.moment m + amt u n) = .ok v) :
    ∃ m', v = .moment m' := by
  have := fits_moment_add (c := c) m u n
  rw [calculate_add] at h
  rw [h] at this
  cases v <;> simp_all [Fits]

theorem next_states {c : Cfg} {m : Moment} {u : TUnit} {n : Int} {it : Iter} (hit : Iter.build m (amt u n) = .ok it) :
    ∀ k, (∀ i, i ≤ k → ∃ t, nth (Iter.next c) i it = some (.ok t)) → ∃ m', after (Iter.next c) (k + 1) it = live m' (amt u n)
  | 0, _ => by
    rw [Iter.build, amt_isAAmount] at hit
    cases hit
    exact ⟨m, rfl⟩
  | k + 1, h => by
    obtain ⟨m', hm'⟩ := next_states hit k fun i hi => h i (by omega)
    obtain ⟨t, ht⟩ := h (k + 1) (by omega)
    rw [nth_eq, hm'] at ht
    rw [after_succ', hm']
    cases hc : calculate c (.moment m' + amt u n) with
    | ok v =>
      obtain ⟨r, rfl⟩ := moment_step hc
      exact ⟨r, by rw [next_live_ok hc]⟩
    | err e => rw [next_live_err hc] at ht; cases ht
    | panic => simp only [Iter.next, live, Iter.skip, Iter.recalculate, hc] at ht; cases ht
    | oof => simp only [Iter.next, live, Iter.skip, Iter.recalculate, hc] at ht; cases ht

theorem quiet (c : Cfg) (m : Moment) (u : TUnit) (n : Int) (d : Nat) : (Traced.run c (d + 1) (.addToMoment m (amt u n))).made = [] := by
  cases u <;> simp only [amt, Traced.run, Traced.body, Traced.addToMoment, Traced.made_bind, Traced.made_silent, List.nil_append,
    Traced.after_nil]

theorem bind_err {x : Traced.Run TT} {e : ErrorKind} (h : x.out = .err e) (f : TT → Traced.Run TT) :
    (x >>= f).made = x.made ∧ (x >>= f).out = .err e := by
  rw [Traced.made_bind, Traced.out_bind, h]
  exact ⟨List.append_nil _, rfl⟩

theorem piled_calls (c : Cfg) (m : Moment) (u : TUnit) (n : Int) (e : ErrorKind) (h : calculate c (.moment m + amt u n) = .err e) (d : Nat)
    (hd : 6 ≤ d) : ∀ j, (Traced.run c (d + j) (.add (piled (.moment m) (amt u n) j) (amt u n))).made.length = j + 1 ∧
      (Traced.run c (d + j) (.add (piled (.moment m) (amt u n) j) (amt u n))).out = .err e
  | 0 => by
    constructor
    · obtain ⟨q, rfl⟩ : ∃ q, d = q + 2 := ⟨d - 2, by omega⟩
      have := quiet c m u n q
      show (Traced.add (Traced.run c (q + 1)) (.moment m) (amt u n)).made.length = 1
      simp only [Traced.add, Traced.made_call, this]
      rfl
    · show Traced.outs (Traced.run c d) _ = _
      rw [Traced.run_out, ← h, calculate_add]
      exact Traced.run_exec c d _ (by cases u <;> simp [Call.work, piled, amt, TT.size] <;> omega)
  | j + 1 => by
    have ih := piled_calls c m u n e h d hd j
    have h1 : (Traced.call (Traced.run c (d + j)) (.add (piled (.moment m) (amt u n) j) (amt u n))).out = .err e := ih.2
    have h2 : Traced.run c (d + (j + 1)) (.add (piled (.moment m) (amt u n) (j + 1)) (amt u n)) =
        (Traced.call (Traced.run c (d + j)) (.add (piled (.moment m) (amt u n) j) (amt u n)) >>= fun bx =>
          Traced.call (Traced.run c (d + j)) (.add bx (amt u n))) := by cases u <;> rfl
    rw [h2, (bind_err h1 _).1, (bind_err h1 _).2, Traced.made_call, List.length_cons, ih.1]
    exact ⟨rfl, rfl⟩

/-- As long as no call has failed, a call of `next` makes three calls of the evaluation functions, however many items came before; the first
makes none, for it returns the start as it is. -/
theorem C151_each_item (c : Cfg) (m : Moment) (u : TUnit) (n : Int) (it : Iter) (hit : Iter.build m (amt u n) = .ok it)
    (k : Nat) (h : ∀ i, i < k → ∃ t, nth (Iter.next c) i it = some (.ok t)) (depth : Nat) (hd : 6 ≤ depth) :
    (Traced.next c depth (after (Iter.next c) k it)).1 = (after (Iter.next c) k it).next c ∧
    (Traced.next c depth (after (Iter.next c) k it)).2.length = if k = 0 then 0 else 3 := by
  cases k with
  | zero =>
    rw [Iter.build, amt_isAAmount] at hit
    cases hit
    exact ⟨rfl, rfl⟩
  | succ k =>
    obtain ⟨m', hm'⟩ := next_states hit k fun i hi => h i (by omega)
    rw [hm']
    refine ⟨C151_result c _ depth ?_, ?_⟩
    · cases u <;> exact hd
    · obtain ⟨d, rfl⟩ : ∃ d, depth = d + 3 := ⟨depth - 3, by omega⟩
      have : (Traced.call (Traced.run c (d + 3)) (.calculate (.moment m' + amt u n))).made.length = 3 := by
        have := quiet c m' u n d
        rw [Traced.made_call]
        show (_ :: (Traced.call (Traced.run c (d + 2)) (.add (.moment m') (amt u n))).made).length = 3
        rw [Traced.made_call]
        show (_ :: _ :: (Traced.call (Traced.run c (d + 1)) (.addToMoment m' (amt u n))).made).length = 3
        rw [Traced.made_call, this]
        rfl
      simp only [Traced.next, live, Bool.not_true, Bool.false_eq_true, if_false]
      rw [if_neg (by omega)]
      split <;> exact this

/-- The hundredth item of an iterator by weeks takes the three calls of the second. -/
example : (∀ i, i < 99 → ∃ t, nth (Iter.next (std .debug)) i ⟨.moment (at_ 2024 2 27 0 0 0), .days 7, false⟩ = some (.ok t)) ∧
    (Traced.next (std .debug) 6 (after (Iter.next (std .debug)) 99 ⟨.moment (at_ 2024 2 27 0 0 0), .days 7, false⟩)).2.length = 3 := by
  have h : ∀ i, i < 99 → ((nth (Iter.next (std .debug)) i ⟨.moment (at_ 2024 2 27 0 0 0), .days 7, false⟩).any fun r =>
      match r with | .ok _ => true | _ => false) = true := by decide +kernel
  refine ⟨fun i hi => ?_, by decide +kernel⟩
  have := h i hi
  generalize nth (Iter.next (std .debug)) i ⟨.moment (at_ 2024 2 27 0 0 0), .days 7, false⟩ = x at this
  match x, this with
  | some (.ok t), _ => exact ⟨t, rfl⟩

theorem piled_state {c : Cfg} {m : Moment} {u : TUnit} {n : Int} {e : ErrorKind} (h : calculate c (.moment m + amt u n) = .err e) :
    ∀ j, after (Iter.next c) j (live m (amt u n)) = ⟨piled (.moment m) (amt u n) j, amt u n, true⟩ ∧
      calculate c (piled (.moment m) (amt u n) (j + 1)) = .err e
  | 0 => ⟨rfl, h⟩
  | j + 1 => by
    obtain ⟨h1, h2⟩ := piled_state h j
    constructor
    · rw [after_succ', h1]
      have : calculate c (piled (.moment m) (amt u n) j + amt u n) = .err e := h2
      simp only [Iter.next, Iter.skip, Iter.recalculate, this]
      rfl
    · exact (add_failing (amt_isAAmount u n) (.inl ⟨_, _, rfl⟩) h2).1

/-- After a failure it is different: every further call takes one more call of the evaluation functions than the one before, for it goes
through all the additions since the failure again (and gives the same error). -/
theorem C151_after_failure (c : Cfg) (m : Moment) (u : TUnit) (n : Int) (it : Iter) (hit : Iter.build m (amt u n) = .ok it)
    (k : Nat) (h : ∀ i, i < k → ∃ t, nth (Iter.next c) i it = some (.ok t)) (e : ErrorKind) (he : nth (Iter.next c) k it = some (.err e))
    (j depth : Nat) (hd : 4 * j + 7 ≤ depth) :
    nth (Iter.next c) (k + j) it = some (.err e) ∧
    (Traced.next c depth (after (Iter.next c) (k + j) it)).1 = (after (Iter.next c) (k + j) it).next c ∧
    (Traced.next c depth (after (Iter.next c) (k + j) it)).2.length = j + 3 := by
  cases k with
  | zero =>
    rw [Iter.build, amt_isAAmount] at hit
    cases hit
    cases he
  | succ k =>
    obtain ⟨m', hm'⟩ := next_states hit k fun i hi => h i (by omega)
    have hc : calculate c (.moment m' + amt u n) = .err e := by
      rw [nth_eq, hm'] at he
      cases hc : calculate c (.moment m' + amt u n) with
      | err e' => rw [next_live_err hc] at he; cases he; rfl
      | _ => simp only [Iter.next, live, Iter.skip, Iter.recalculate, hc] at he; cases he
    obtain ⟨h1, h2⟩ := piled_state hc j
    have h3 : calculate c (piled (.moment m') (amt u n) j + amt u n) = .err e := h2
    rw [nth_eq, after_add, hm', h1]
    refine ⟨by simp only [Iter.next, Iter.skip, Iter.recalculate, h3]; rfl, C151_result c _ depth ?_, ?_⟩
    · have hs : ∀ j, (piled (.moment m') (amt u n) j).size = 2 * j + 1 := by
        intro j
        induction j with
        | zero => rfl
        | succ j ih =>
          have : (piled (.moment m') (amt u n) (j + 1)).size = (piled (.moment m') (amt u n) j).size + (amt u n).size + 1 := rfl
          have h1 : (amt u n).size = 1 := by cases u <;> rfl
          omega
      have := hs (j + 1)
      have : (piled (.moment m') (amt u n) j + amt u n).size = 2 * (j + 1) + 1 := this
      show 2 * (piled (.moment m') (amt u n) j + amt u n).size ≤ depth
      omega
    · obtain ⟨d, rfl, hd'⟩ : ∃ d, depth = d + j + 1 ∧ 6 ≤ d := ⟨depth - j - 1, by omega, by omega⟩
      have := (piled_calls c m' u n e hc d hd' j).1
      have h4 : (Traced.call (Traced.run c (d + j + 1)) (.calculate (piled (.moment m') (amt u n) j + amt u n))).made.length = j + 3 := by
        rw [Traced.made_call]
        show (_ :: (Traced.call (Traced.run c (d + j)) (.add (piled (.moment m') (amt u n) j) (amt u n))).made).length = j + 3
        rw [Traced.made_call, List.length_cons, List.length_cons, this]
      simp only [Traced.next, Bool.not_true, Bool.false_eq_true, if_false]
      split <;> exact h4

/-- An iterator by years that starts in chrono's last year fails at its second call; five calls later it takes eight calls. -/
example : let it : Iter := ⟨.moment (at_ 262143 5 1 0 0 0), .years 1, false⟩
    nth (Iter.next (std .debug)) 0 it = some (.ok (.moment (at_ 262143 5 1 0 0 0))) ∧
    nth (Iter.next (std .debug)) 1 it = some (.err (.outOfBounds 262144 5 0 0 0 0)) ∧
    (Traced.next (std .debug) 27 (after (Iter.next (std .debug)) 6 it)).2.length = 8 := by decide +kernel

end Props
