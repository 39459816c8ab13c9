import Verif.Lemmas.CalExists
import Verif.Spec.Sequence

/-! Runs of the plain iterator. -/

namespace Kairos
open Spec
variable {c : Cfg}

theorem after_succ' {σ : Type} (nx : σ → σ × Item) (k : Nat) (s : σ) :
    after nx (k + 1) s = (nx (after nx k s)).1 := by
  induction k generalizing s with
  | zero => rfl
  | succ k ih => rw [after, ih]; rfl

theorem nth_eq {σ : Type} (nx : σ → σ × Item) (k : Nat) (s : σ) : nth nx k s = (nx (after nx k s)).2 := by
  induction k generalizing s with
  | zero => rfl
  | succ k ih => rw [nth, ih]; rfl

theorem nth_add {σ : Type} (nx : σ → σ × Item) (j k : Nat) (s : σ) : nth nx (j + k) s = nth nx k (after nx j s) := by
  induction j generalizing s with
  | zero => simp [after]
  | succ j ih => rw [Nat.add_right_comm, nth, ih]; rfl

theorem after_add {σ : Type} (nx : σ → σ × Item) (j k : Nat) (s : σ) : after nx (j + k) s = after nx k (after nx j s) := by
  induction j generalizing s with
  | zero => simp [after]
  | succ j ih => rw [Nat.add_right_comm, after, ih]; rfl

/-- A started iterator at moment `m`. -/
def live (m : Moment) (inc : TT) : Iter := ⟨.moment m, inc, true⟩

theorem next_fresh (b inc : TT) : Iter.next c ⟨b, inc, false⟩ = (⟨b, inc, true⟩, some (.ok b)) := rfl

theorem next_live_ok {m m' : Moment} {inc : TT} (h : calculate c (.moment m + inc) = .ok (.moment m')) :
    Iter.next c (live m inc) = (live m' inc, some (.ok (.moment m'))) := by
  simp only [Iter.next, live, Iter.skip, Iter.recalculate, h]
  rfl

theorem next_live_err {m : Moment} {inc : TT} {e : ErrorKind} (h : calculate c (.moment m + inc) = .err e) :
    Iter.next c (live m inc) = (⟨.moment m + inc, inc, true⟩, some (.err e)) := by
  simp only [Iter.next, live, Iter.skip, Iter.recalculate, h]
  rfl

/-- A state in which an evaluation has failed with `e`. -/
structure Latched (c : Cfg) (e : ErrorKind) (it : Iter) : Prop where
  started : it.hadFirst = true
  amount : it.increment.isAAmount = true
  node : (∃ a b, it.base = .addition a b) ∨ (∃ a b, it.base = .subtraction a b)
  fails : calculate c it.base = .err e

theorem amount_cases {t : TT} (h : t.isAAmount = true) : ∃ u n, t = amt u n := by
  cases t <;> simp [TT.isAAmount] at h
  · exact ⟨.second, _, rfl⟩
  · exact ⟨.minute, _, rfl⟩
  · exact ⟨.hour, _, rfl⟩
  · exact ⟨.day, _, rfl⟩
  · exact ⟨.month, _, rfl⟩
  · exact ⟨.year, _, rfl⟩

theorem amt_isAAmount (u : TUnit) (n : Int) : (amt u n).isAAmount = true := by cases u <;> rfl

/-- An operation on a failing left operand fails the same way. -/
theorem add_failing {b inc : TT} {e : ErrorKind} (hi : inc.isAAmount = true)
    (hn : (∃ x y, b = .addition x y) ∨ (∃ x y, b = .subtraction x y)) (h : calculate c b = .err e) :
    calculate c (b + inc) = .err e ∧ calculate c (b - inc) = .err e := by
  rcases hn with ⟨x, y, rfl⟩ | ⟨x, y, rfl⟩
  · have h' : exec c (.add x y) = .err e := by rw [← calculate_add]; exact h
    constructor
    · rw [calculate_add, exec_add]
      cases inc <;> simp [TT.isAAmount] at hi <;> simp only [Eval.add, h', OutE.err_bind]
    · rw [calculate_sub, exec_sub]
      cases inc <;> simp [TT.isAAmount] at hi <;> simp only [Eval.sub, h', OutE.err_bind]
  · have h' : exec c (.sub x y) = .err e := by rw [← calculate_sub]; exact h
    constructor
    · rw [calculate_add, exec_add]
      cases inc <;> simp [TT.isAAmount] at hi <;> simp only [Eval.add, h', OutE.err_bind]
    · rw [calculate_sub, exec_sub]
      cases inc <;> simp [TT.isAAmount] at hi <;> simp only [Eval.sub, h', OutE.err_bind]

theorem Latched.skip {e : ErrorKind} {it : Iter} (h : Latched c e it) :
    Latched c e (it.skip c).1 ∧ (it.skip c).2 = .err e := by
  have := (add_failing h.amount h.node h.fails).1
  simp only [Iter.skip, Iter.recalculate, this]
  exact ⟨⟨h.started, h.amount, .inl ⟨_, _, rfl⟩, this⟩, trivial⟩

theorem Latched.rollback {e : ErrorKind} {it : Iter} (h : Latched c e it) :
    Latched c e (it.rollback c).1 ∧ (it.rollback c).2 = .err e := by
  have := (add_failing h.amount h.node h.fails).2
  simp only [Iter.rollback, Iter.recalculate, this]
  exact ⟨⟨h.started, h.amount, .inr ⟨_, _, rfl⟩, this⟩, trivial⟩

theorem Latched.next {e : ErrorKind} {it : Iter} (h : Latched c e it) :
    Latched c e (it.next c).1 ∧ (it.next c).2 = some (.err e) := by
  obtain ⟨h1, h2⟩ := h.skip
  unfold Iter.next
  rw [h.started]
  simp only [Bool.not_true, Bool.false_eq_true, if_false]
  exact ⟨h1, by rw [h2]; rfl⟩

theorem Latched.after {e : ErrorKind} {it : Iter} (h : Latched c e it) (k : Nat) :
    Latched c e (after (Iter.next c) k it) := by
  induction k generalizing it with
  | zero => exact h
  | succ k ih => exact ih h.next.1

theorem Latched.nth {e : ErrorKind} {it : Iter} (h : Latched c e it) (k : Nat) :
    nth (Iter.next c) k it = some (.err e) := by
  rw [nth_eq]; exact (h.after k).next.2

theorem latched_of_err {m : Moment} {inc : TT} {e : ErrorKind} (hi : inc.isAAmount = true)
    (h : calculate c (.moment m + inc) = .err e) : Latched c e (Iter.next c (live m inc)).1 := by
  rw [next_live_err h]
  exact ⟨rfl, hi, .inl ⟨_, _, rfl⟩, h⟩

theorem latched_of_next {it : Iter} {e : ErrorKind} (hs : it.hadFirst = true) (ha : it.increment.isAAmount = true)
    (h : (it.next c).2 = some (.err e)) : Latched c e (it.next c).1 := by
  unfold Iter.next at h ⊢
  rw [hs] at h ⊢
  simp only [Bool.not_true, Bool.false_eq_true, if_false, Iter.skip, Iter.recalculate] at h ⊢
  cases hr : calculate c (it.base + it.increment) with
  | ok x => rw [hr] at h; simp at h
  | err e' =>
    rw [hr] at h
    simp at h
    subst h
    exact ⟨hs, ha, .inl ⟨_, _, rfl⟩, hr⟩
  | panic => rw [hr] at h; simp at h
  | oof => rw [hr] at h; simp at h

/-- General shape of a run: as long as `good` describes the state, each step stays good or fails for
ever with an error described by `bad`. -/
theorem run_shape {inc : TT} (hi : inc.isAAmount = true) (good : Nat → Moment → Prop) (bad : Nat → ErrorKind → Prop)
    (step : ∀ k m, good k m → (∃ m', calculate c (.moment m + inc) = .ok (.moment m') ∧ good (k + 1) m') ∨
      (∃ e, calculate c (.moment m + inc) = .err e ∧ bad (k + 1) e))
    (mono : ∀ k e, bad k e → bad (k + 1) e)
    (m : Moment) (h0 : good 0 m) (k : Nat) :
    (∃ m', good k m' ∧ after (Iter.next c) (k + 1) ⟨.moment m, inc, false⟩ = live m' inc ∧
        nth (Iter.next c) k ⟨.moment m, inc, false⟩ = some (.ok (.moment m'))) ∨
    (∃ e, bad k e ∧ Latched c e (after (Iter.next c) (k + 1) ⟨.moment m, inc, false⟩) ∧
        nth (Iter.next c) k ⟨.moment m, inc, false⟩ = some (.err e)) := by
  induction k with
  | zero => exact .inl ⟨m, h0, rfl, rfl⟩
  | succ k ih =>
    rw [after_succ', nth_eq]
    rcases ih with ⟨m', g, ha, -⟩ | ⟨e, b, ha, -⟩
    · rw [ha]
      rcases step k m' g with ⟨m'', hs, g'⟩ | ⟨e, hs, b⟩
      · rw [next_live_ok hs]; exact .inl ⟨m'', g', rfl, rfl⟩
      · refine .inr ⟨e, b, latched_of_err hi hs, ?_⟩
        rw [next_live_err hs]
    · exact .inr ⟨e, mono k e b, ha.next.1, ha.next.2⟩

end Kairos
