import Verif.Spec.Moves
import Verif.Props.Ending
import Verif.Props.Adaptors

/-!
# C152: every call of `next`, `skip` and `rollback`, in any order
-/

namespace Props
open Kairos Spec

private theorem failing {c : Cfg} {b inc : TT} {r : Out TT} (hr : ∀ v, r ≠ .ok v) (hi : inc.isAAmount = true)
    (hn : (∃ x y, b = .addition x y) ∨ (∃ x y, b = .subtraction x y)) (h : calculate c b = r) (o : Op) :
    calculate c (o.app b inc) = r := by
  rcases hn with ⟨x, y, rfl⟩ | ⟨x, y, rfl⟩
  · have h' : exec c (.add x y) = r := by rw [← calculate_add]; exact h
    cases o
    · show calculate c (_ + inc) = r
      rw [calculate_add, exec_add]
      cases inc <;> simp [TT.isAAmount] at hi <;> simp only [Eval.add, h'] <;> cases r <;> first | rfl | exact absurd rfl (hr _)
    · show calculate c (_ - inc) = r
      rw [calculate_sub, exec_sub]
      cases inc <;> simp [TT.isAAmount] at hi <;> simp only [Eval.sub, h'] <;> cases r <;> first | rfl | exact absurd rfl (hr _)
  · have h' : exec c (.sub x y) = r := by rw [← calculate_sub]; exact h
    cases o
    · show calculate c (_ + inc) = r
      rw [calculate_add, exec_add]
      cases inc <;> simp [TT.isAAmount] at hi <;> simp only [Eval.add, h'] <;> cases r <;> first | rfl | exact absurd rfl (hr _)
    · show calculate c (_ - inc) = r
      rw [calculate_sub, exec_sub]
      cases inc <;> simp [TT.isAAmount] at hi <;> simp only [Eval.sub, h'] <;> cases r <;> first | rfl | exact absurd rfl (hr _)

/-- The iterator and the cursor are at the same place. -/
structure Alike (c : Cfg) (u : TUnit) (n : Int) (it : Iter) (p : Cursor) : Prop where
  base : it.base = p.held
  step : it.increment = amt u n
  started : it.hadFirst = p.started
  place : (∃ m : Moment, m.Valid c ∧ p.place = .value (.moment m) ∧ p.held = .moment m) ∨
    ((∀ v, p.place ≠ .value v) ∧ Says p.place (calculate c p.held) ∧
      ((∃ x y, p.held = .addition x y) ∨ ∃ x y, p.held = .subtraction x y))

private theorem app_step {c : Cfg} (hc : Sane c) {m : Moment} (hm : m.Valid c) {u : TUnit} {n : Int} (hn : InI64 n) (o : Op) :
    Says (oneStep c (o.app (.moment m) (amt u n))) (calculate c (o.app (.moment m) (amt u n))) ∧
    (∀ v, calculate c (o.app (.moment m) (amt u n)) = .ok v → ∃ r : Moment, v = .moment r ∧ r.Valid c) := by
  have hl : (amt u n).isLeaf := by cases u <;> trivial
  have ha : AllMoments (Moment.Valid c) (amt u n) := by cases u <;> trivial
  have hf : AmountsFit (amt u n) := by cases u <;> exact hn
  have h := C135_sum_and_difference c hc (.moment m) (amt u n) rfl hl ⟨hm, ha⟩ ⟨trivial, hf⟩
  have key : ∀ v, calculate c (o.app (.moment m) (amt u n)) = .ok v → ∃ r : Moment, v = .moment r := by
    intro v hv
    cases o
    · have f := fits_moment_add (c := c) m u n
      rw [← calculate_add, show calculate c (.moment m + amt u n) = .ok v from hv] at f
      simp only [Fits] at f
      rcases f with f | ⟨r, f⟩ | ⟨y, mo, d, h, mi, s, f⟩
      · cases f
      · cases f; exact ⟨r, rfl⟩
      · cases f
    · have f := fits_moment_sub (c := c) m u n
      rw [← calculate_sub, show calculate c (.moment m - amt u n) = .ok v from hv] at f
      simp only [Fits] at f
      rcases f with f | ⟨r, f⟩ | ⟨y, mo, d, h, mi, s, f⟩
      · cases f
      · cases f; exact ⟨r, rfl⟩
      · cases f
  refine ⟨by cases o; exact h.1; exact h.2, fun v hv => ?_⟩
  obtain ⟨r, rfl⟩ := key v hv
  exact ⟨r, rfl, C15_results_are_dates c _ r (by cases o <;> exact ⟨hm, ha⟩) hv⟩

/-- A step with what `recalculate` returns. -/
private theorem move_alike {c : Cfg} (hc : Sane c) {u : TUnit} {n : Int} (hn : InI64 n) {it : Iter} {p : Cursor} (h : Alike c u n it p)
    (o : Op) :
    Alike c u n (Iter.recalculate c { it with base := o.app it.base it.increment }).1 (p.move c (amt u n) o) ∧
    (∀ f : TT → Option TT, ((Iter.recalculate c { it with base := o.app it.base it.increment }).2 >>= fun _ =>
      (.ok (f (Iter.recalculate c { it with base := o.app it.base it.increment }).1.base) : Out (Option TT))) =
        (p.move c (amt u n) o).place.reply f) := by
  have hnode : (∃ x y, o.app p.held (amt u n) = .addition x y) ∨ ∃ x y, o.app p.held (amt u n) = .subtraction x y := by
    cases o
    · exact .inl ⟨_, _, rfl⟩
    · exact .inr ⟨_, _, rfl⟩
  rw [h.base, h.step]
  rcases h.place with ⟨m, hm, hp, hh⟩ | ⟨hb, hs, hx⟩
  · obtain ⟨h1, h2⟩ := app_step hc hm (u := u) hn o
    rw [hh] at hnode ⊢
    cases ha : oneStep c (o.app (.moment m) (amt u n)) with
    | value v =>
      rw [ha] at h1
      have h1 : calculate c (o.app (.moment m) (amt u n)) = .ok v := h1
      obtain ⟨r, rfl, hr⟩ := h2 v h1
      have hmv : p.move c (amt u n) o = ⟨p.started, .value (.moment r), .moment r⟩ := by
        simp only [Cursor.move, hp, Answer.andThen, ha]
      rw [hmv]
      simp only [Iter.recalculate, h1]
      exact ⟨⟨rfl, rfl, h.started, .inl ⟨r, hr, rfl, rfl⟩⟩, fun f => rfl⟩
    | refused e =>
      rw [ha] at h1
      have h1 : calculate c (o.app (.moment m) (amt u n)) = .err e := h1
      have hmv : p.move c (amt u n) o = ⟨p.started, .refused e, o.app (.moment m) (amt u n)⟩ := by
        simp only [Cursor.move, hp, Answer.andThen, ha, hh]
      rw [hmv]
      simp only [Iter.recalculate, h1]
      exact ⟨⟨rfl, rfl, h.started, .inr ⟨(fun v hv => by cases hv), h1, hnode⟩⟩, fun f => rfl⟩
    | overflow =>
      rw [ha] at h1
      have h1 : calculate c (o.app (.moment m) (amt u n)) = .panic := h1
      have hmv : p.move c (amt u n) o = ⟨p.started, .overflow, o.app (.moment m) (amt u n)⟩ := by
        simp only [Cursor.move, hp, Answer.andThen, ha, hh]
      rw [hmv]
      simp only [Iter.recalculate, h1]
      exact ⟨⟨rfl, rfl, h.started, .inr ⟨(fun v hv => by cases hv), h1, hnode⟩⟩, fun f => rfl⟩
  · cases hp : p.place with
    | value v => exact absurd hp (hb v)
    | refused e =>
      rw [hp] at hs
      have h1 : calculate c (o.app p.held (amt u n)) = .err e :=
        failing (fun v hv => by cases hv) (amt_isAAmount u n) hx hs o
      have hmv : p.move c (amt u n) o = ⟨p.started, .refused e, o.app p.held (amt u n)⟩ := by
        simp only [Cursor.move, hp, Answer.andThen]
      rw [hmv]
      simp only [Iter.recalculate, h1]
      exact ⟨⟨rfl, rfl, h.started, .inr ⟨(fun v hv => by cases hv), h1, hnode⟩⟩, fun f => rfl⟩
    | overflow =>
      rw [hp] at hs
      have h1 : calculate c (o.app p.held (amt u n)) = .panic :=
        failing (fun v hv => by cases hv) (amt_isAAmount u n) hx hs o
      have hmv : p.move c (amt u n) o = ⟨p.started, .overflow, o.app p.held (amt u n)⟩ := by
        simp only [Cursor.move, hp, Answer.andThen]
      rw [hmv]
      simp only [Iter.recalculate, h1]
      exact ⟨⟨rfl, rfl, h.started, .inr ⟨(fun v hv => by cases hv), h1, hnode⟩⟩, fun f => rfl⟩

theorem call_alike {c : Cfg} (hc : Sane c) {u : TUnit} {n : Int} (hn : InI64 n) {it : Iter} {p : Cursor} (h : Alike c u n it p)
    (op : IterOp) :
    Alike c u n (op.call c it).1 (p.call c (amt u n) op).1 ∧ (op.call c it).2 = (p.call c (amt u n) op).2 := by
  cases op with
  | next =>
    by_cases hs : p.started = true
    · obtain ⟨h1, h2⟩ := move_alike hc hn h .plus
      have hf : it.hadFirst = true := h.started.trans hs
      simp only [Cursor.call, hs, if_true, IterOp.call, Iter.next, hf, Bool.not_true, Bool.false_eq_true, if_false]
      refine ⟨h1, ?_⟩
      rw [← h2 some]
      show ((Iter.recalculate c { it with base := Op.plus.app it.base it.increment }).2 >>= fun _ => _) >>= _ = _
      cases (Iter.recalculate c { it with base := Op.plus.app it.base it.increment }).2 <;> rfl
    · have hs : p.started = false := by cases hp : p.started <;> simp_all
      have hf : it.hadFirst = false := h.started.trans hs
      simp only [Cursor.call, hs, IterOp.call, Iter.next, hf, Bool.not_false, Bool.false_eq_true, if_false, if_true]
      exact ⟨⟨h.base, h.step, rfl, h.place⟩, by rw [h.base]; rfl⟩
  | skip =>
    obtain ⟨h1, h2⟩ := move_alike hc hn h .plus
    exact ⟨h1, h2 fun _ => none⟩
  | rollback =>
    obtain ⟨h1, h2⟩ := move_alike hc hn h .minus
    exact ⟨h1, h2 fun _ => none⟩

theorem alike_begin {c : Cfg} {m : Moment} (hm : m.Valid c) {u : TUnit} {n : Int} {it : Iter} (hit : Iter.build m (amt u n) = .ok it) :
    Alike c u n it (Cursor.begin m) := by
  rw [Iter.build, amt_isAAmount] at hit
  cases hit
  exact ⟨rfl, rfl, rfl, .inl ⟨m, hm, rfl, rfl⟩⟩

/-- **C152.** What all the calls of `next`, `skip` and `rollback` on an iterator return, in whatever order they are made and however many
of them: what `Spec/Moves.lean` says, where each step forth or back is one addition or subtraction of the step as in
`Spec/Reference.lean`. -/
theorem C152_every_call (c : Cfg) (hc : Sane c) (m : Moment) (hm : m.Valid c) (u : TUnit) (n : Int) (hn : InI64 n) (it : Iter)
    (hit : Iter.build m (amt u n) = .ok it) (ops : List IterOp) :
    callAll c it ops = (Cursor.begin m).calls c (amt u n) ops := by
  have key : ∀ (ops : List IterOp) (it : Iter) (p : Cursor), Alike c u n it p → callAll c it ops = p.calls c (amt u n) ops := by
    intro ops
    induction ops with
    | nil => intros; rfl
    | cons op ops ih =>
      intro it p h
      obtain ⟨h1, h2⟩ := call_alike hc hn h op
      rw [callAll, Cursor.calls, h2, ih _ _ h1]
  exact key ops it _ (alike_begin hm hit)

/-- Months from 31 January 2017: forth to 3 March, back to 3 February, forth again, and so on. -/
example : (Cursor.begin (at_ 2017 1 31 0 0 0)).calls (std .debug) (.months 1) [.next, .next, .rollback, .next, .rollback, .skip] =
    [.ok (some (.moment (at_ 2017 1 31 0 0 0))), .ok (some (.moment (at_ 2017 3 3 0 0 0))), .ok none,
      .ok (some (.moment (at_ 2017 3 3 0 0 0))), .ok none, .ok none] := by decide +kernel

/-- From 1 March one cannot go back a day, and then not forth again. The first `next` after that gives out the expression as it stands. -/
example : (Cursor.begin (at_ 2017 3 1 0 0 0)).calls (std .debug) (.days 1) [.rollback, .skip, .next, .next] =
    [.err (.outOfBounds 2017 2 0 0 0 0), .err (.outOfBounds 2017 2 0 0 0 0),
      .ok (some (.moment (at_ 2017 3 1 0 0 0) - .days 1 + .days 1)), .err (.outOfBounds 2017 2 0 0 0 0)] := by decide +kernel
example := C152_every_call (std .debug) (by decide) (at_ 2017 3 1 0 0 0) (by decide) .day 1 (by decide) _ rfl [.rollback, .skip, .next, .next]

end Props
