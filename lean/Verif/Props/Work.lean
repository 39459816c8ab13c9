import Verif.Lemmas.Traced
import Verif.Props.Cost

/-!
# C138: evaluating an expression takes a number of calls linear in its size

`Traced.run c n (.calculate t)` runs the evaluation of `t`, with calls nested at most `n` deep, and writes down every call that is made
(`Model/Traced.lean`). `Eval.calls R k` lists the calls that the function called by `k` itself makes when calls return what `R` says
(`Model/Calls.lean`).
-/

namespace Props
open Kairos Spec

/-- Writing down the calls does not change the result. -/
theorem C138_result (c : Cfg) (t : TT) (n : Nat) (hn : 2 * t.size - 1 ≤ n) : (Traced.run c n (.calculate t)).out = calculate c t :=
  (congrFun (Traced.run_out c n) _).trans (Traced.run_exec c n (.calculate t) hn)

/-- The calls made for `1 day + 2 days + 5 hours`, in order. -/
example : (Traced.run (std .debug) 9 (.calculate (TT.days 1 + .days 2 + .hours 5))).made =
    [.add (.days 1 + .days 2) (.hours 5), .add (.days 1) (.days 2), .addTo .days 1 (.days 2), .add (.days 3) (.hours 5),
      .addTo .days 3 (.hours 5)] := by decide +kernel
example := C138_result (std .debug) (TT.days 1 + .days 2 + .hours 5) 9 (by decide)

/-- `calculate` makes at most `2 · size - 1` calls in all, itself included, where `size` is the number of amounts,
moments and operators in the expression. -/
theorem C138_linear (c : Cfg) (t : TT) (n : Nat) (hn : 2 * t.size - 1 ≤ n) :
    (Traced.run c n (.calculate t)).made.length + 1 ≤ 2 * t.size - 1 := by
  rw [Traced.made_length c n (.calculate t) hn]
  exact callCount_le c n _

/-- The bound is reached for the end of the day of a moment; one moment and two amounts take six calls of nine. -/
example : (Traced.run (std .debug) 100 (.calculate (.endOfDay (.moment (at_ 2024 2 29 12 0 0))))).made.length + 1 = 3 ∧
    (TT.moment (at_ 2024 2 29 12 0 0) + .days 3 - .hours 5).size = 5 ∧
    (Traced.run (std .debug) 100 (.calculate (TT.moment (at_ 2024 2 29 12 0 0) + .days 3 - .hours 5))).made.length + 1 = 6 := by
  decide +kernel

/-- These are all the calls: the calls made do not depend on how deep they are allowed to nest, from `2 · size - 1` on. -/
theorem C138_finite (c : Cfg) (t : TT) (n : Nat) (hn : 2 * t.size - 1 ≤ n) :
    (Traced.run c n (.calculate t)).made = (Traced.run c (2 * t.size - 1) (.calculate t)).made :=
  Traced.run_stable c n _ (.calculate t) hn (Nat.le_refl _)

example : 2 * (TT.moment (at_ 2024 2 29 12 0 0) + .days 3 - .hours 5).size - 1 ≤ 9 := by decide

/-- The calls written down are, in order and as often as they are made, those of the lists, each followed by the calls made in it. -/
theorem C138_lists (c : Cfg) (R : Call → Traced.Run TT) (k : Call) :
    (Traced.body c R k).made = (Eval.calls (fun q => (R q).out) k).flatMap fun q => q :: (R q).made := Traced.body_made c R k

/-- Nothing is missing from the lists: what a function returns depends only on what the listed calls return. -/
theorem C138_all_calls (c : Cfg) (R R' : Call → Out TT) (k : Call) (h : ∀ q ∈ Eval.calls R k, R' q = R q) :
    Eval.body c R' k = Eval.body c R k := body_calls c R R' k h

/-- `(1 day + 2 days) + m` calls `add` on the two amounts and then on their sum and `m`; whatever else would return
something else does not matter. -/
example : Eval.calls (exec (std .debug)) (.add (.addition (.days 1) (.days 2)) (.hours 5)) =
    [.add (.days 1) (.days 2), .add (.days 3) (.hours 5)] := by decide +kernel

/-- Nor is a call listed that is not made: whichever of them fails or panics, so does the caller. -/
theorem C138_made (c : Cfg) (R : Call → Out TT) (k q : Call) (h : q ∈ Eval.calls R k) (hq : ∀ v, R q ≠ .ok v) :
    Eval.body c R k = R q := by
  have one : ∀ {k' : Call}, q ∈ [k'] → R k' = R q := by
    intro k' e
    rw [List.mem_singleton.mp e]
  have two : ∀ {k' : Call} {f : TT → List Call} {g : TT → Out TT}, q ∈ k' :: (R k').thenCalls f →
      (∀ v, R k' = .ok v → q ∈ f v → g v = R q) → (R k' >>= g) = R q := by
    intro k' f g e hg
    rcases List.mem_cons.mp e with e | e
    · subst e
      cases hr : R q with
      | ok v => exact absurd hr (hq v)
      | _ => rfl
    · cases hr : R k' with
      | ok v => rw [hr] at e; exact hg v hr e
      | _ => rw [hr] at e; exact absurd e (by simp [OutE.thenCalls])
  have last : ∀ {k' : Call} {f : TT → Call}, q ∈ (k' :: (R k').thenCalls fun v => [f v]) →
      (R k' >>= fun v => R (f v)) = R q := fun e => two e fun v _ hv => one hv
  have three : ∀ {k' : Call} {f g : TT → Call},
      q ∈ (k' :: (R k').thenCalls fun v => f v :: (R (f v)).thenCalls fun w => [g w]) →
      (R k' >>= fun v => R (f v) >>= fun w => R (g w)) = R q := fun e => two e fun v _ hv => last hv
  cases k with
  | calculate t => cases t <;> first | exact one h | exact absurd h (by simp [Eval.calls, Eval.callsCalculate])
  | endOf kind t =>
    cases kind <;> refine two h fun v _ hv => ?_ <;>
      cases v <;> first | exact one hv | exact absurd hv (by simp)
  | add a b =>
    have h' : q ∈ Eval.callsAdd R a b := h
    clear h
    show Eval.add R a b = R q
    cases a <;> cases b <;> first | exact one h' | exact last h' | exact three h' | exact absurd h' (by simp [Eval.callsAdd])
  | sub a b =>
    have h' : q ∈ Eval.callsSub R a b := h
    clear h
    show Eval.sub R a b = R q
    cases a <;> cases b <;> first | exact one h' | exact last h' | exact three h' | exact absurd h' (by simp [Eval.callsSub])
  | addTo u n t => cases u <;> cases t <;> first | exact last h | exact absurd h (by simp [Eval.calls, Eval.callsAmount])
  | subFrom u n t => cases u <;> cases t <;> first | exact last h | exact absurd h (by simp [Eval.calls, Eval.callsAmount])
  | addToMoment m t => cases t <;> first | exact last h | exact absurd h (by simp [Eval.calls, Eval.callsAmount])
  | subFromMoment m t => cases t <;> first | exact last h | exact absurd h (by simp [Eval.calls, Eval.callsAmount])

example : Call.add (.days 3) (.endOfDay (.days 1)) ∈
      Eval.calls (exec (std .debug)) (.add (.addition (.days 1) (.days 2)) (.endOfDay (.days 1))) ∧
    exec (std .debug) (.add (.days 3) (.endOfDay (.days 1))) = .err (.cannotAdd (.days 3) (.endOfDay (.days 1))) := by
  decide +kernel

end Props
