import Verif.Model.Traced
import Verif.Lemmas.Calls

/-! The functions that write down their calls return what the others do, and write down the listed calls. -/

namespace Kairos.Traced

theorem out_bind {α β : Type} (x : Run α) (f : α → Run β) : (x >>= f).out = (x.out >>= fun a => (f a).out) := by
  show (Run.bind x f).out = _
  unfold Run.bind
  cases x.out <;> rfl

/-- The calls after a value. -/
def after {α : Type} (x : Out α) (f : α → List Call) : List Call :=
  match x with
  | .ok a => f a
  | _ => []

theorem made_bind {α β : Type} (x : Run α) (f : α → Run β) : (x >>= f).made = x.made ++ after x.out fun a => (f a).made := by
  show (Run.bind x f).made = _
  unfold Run.bind
  cases x.out <;> simp [after]

@[simp] theorem out_ok {α : Type} (a : α) : (Run.ok a).out = .ok a := rfl
@[simp] theorem made_ok {α : Type} (a : α) : (Run.ok a).made = [] := rfl
@[simp] theorem out_err {α : Type} (e : ErrorKind) : (Run.err e : Run α).out = .err e := rfl
@[simp] theorem made_err {α : Type} (e : ErrorKind) : (Run.err e : Run α).made = [] := rfl
@[simp] theorem out_silent {α : Type} (x : Out α) : (Run.silent x).out = x := rfl
@[simp] theorem made_silent {α : Type} (x : Out α) : (Run.silent x).made = [] := rfl
@[simp] theorem out_call (R : Call → Run TT) (k : Call) : (call R k).out = (R k).out := rfl
@[simp] theorem made_call (R : Call → Run TT) (k : Call) : (call R k).made = k :: (R k).made := rfl

theorem after_nil {α : Type} (x : Out α) : after x (fun _ => []) = [] := by cases x <;> rfl

/-- Forgetting the calls. -/
abbrev outs (R : Call → Run TT) : Call → Out TT := fun k => (R k).out

theorem body_out (c : Cfg) (R : Call → Run TT) (k : Call) : (body c R k).out = Eval.body c (outs R) k := by
  cases k with
  | calculate t => cases t <;> rfl
  | endOf kind t =>
    cases kind <;>
      simp only [body, endOfYear, endOfMonth, endOfDay, endOfHour, endOfMinute, Eval.body, Eval.endOfYear, Eval.endOfMonth, Eval.endOfDay,
        Eval.endOfHour, Eval.endOfMinute, out_bind, out_call] <;>
      (refine bind_calls fun v _ => ?_
       cases v <;> first | rfl | skip)
    all_goals
      dsimp only
      split <;> (rename_i h; rw [h]; simp only [out_bind, out_ok, out_err, out_silent])
  | add a b => cases a <;> cases b <;> simp only [body, Eval.body, add, Eval.add, out_bind, out_call, out_err]
  | sub a b => cases a <;> cases b <;> simp only [body, Eval.body, sub, Eval.sub, out_bind, out_call, out_err]
  | addTo u n t =>
    cases u <;> cases t <;>
      simp only [body, Eval.body, addToSeconds, addToMinutes, addToHours, addToDays, addToMonths, addToYears, Eval.addToSeconds,
        Eval.addToMinutes, Eval.addToHours, Eval.addToDays, Eval.addToMonths, Eval.addToYears, out_bind, out_call, out_err, out_ok, out_silent]
  | subFrom u n t =>
    cases u <;> cases t <;>
      simp only [body, Eval.body, subFromSeconds, subFromMinutes, subFromHours, subFromDays, subFromMonths, subFromYears, Eval.subFromSeconds,
        Eval.subFromMinutes, Eval.subFromHours, Eval.subFromDays, Eval.subFromMonths, Eval.subFromYears, out_bind, out_call, out_err, out_ok,
        out_silent]
  | addToMoment m t => cases t <;> simp only [body, Eval.body, addToMoment, Eval.addToMoment, out_bind, out_call, out_err, out_silent]
  | subFromMoment m t => cases t <;> simp only [body, Eval.body, subFromMoment, Eval.subFromMoment, out_bind, out_call, out_err, out_silent]

/-- A call with the calls made in it. -/
abbrev noted (R : Call → Run TT) (q : Call) : List Call := q :: (R q).made

theorem flatMap_then (R : Call → Run TT) (x : Out TT) (f : TT → List Call) :
    (x.thenCalls f).flatMap (noted R) = after x fun v => (f v).flatMap (noted R) := by
  cases x <;> rfl

theorem body_made (c : Cfg) (R : Call → Run TT) (k : Call) : (body c R k).made = (Eval.calls (outs R) k).flatMap (noted R) := by
  cases k with
  | calculate t => cases t <;> simp [body, doCalculate, Eval.calls, Eval.callsCalculate]
  | endOf kind t =>
    cases kind <;>
      simp only [body, endOfYear, endOfMonth, endOfDay, endOfHour, endOfMinute, Eval.calls, Eval.callsEndOf, made_bind, made_call, out_call,
        List.flatMap_cons, flatMap_then] <;>
      (congr 1
       congr 1
       funext v
       cases v <;> simp)
    all_goals
      split <;> simp [made_bind, after_nil]
  | add a b =>
    cases a <;> cases b <;>
      simp [body, add, Eval.calls, Eval.callsAdd, made_bind, flatMap_then]
  | sub a b =>
    cases a <;> cases b <;>
      simp [body, sub, Eval.calls, Eval.callsSub, made_bind, flatMap_then]
  | addTo u n t =>
    cases u <;> cases t <;>
      simp [body, addToSeconds, addToMinutes, addToHours, addToDays, addToMonths, addToYears, Eval.calls, Eval.callsAmount, made_bind,
        flatMap_then, after_nil]
  | subFrom u n t =>
    cases u <;> cases t <;>
      simp [body, subFromSeconds, subFromMinutes, subFromHours, subFromDays, subFromMonths, subFromYears, Eval.calls, Eval.callsAmount,
        made_bind, flatMap_then, after_nil]
  | addToMoment m t => cases t <;> simp [body, addToMoment, Eval.calls, Eval.callsAmount, made_bind, flatMap_then, after_nil]
  | subFromMoment m t => cases t <;> simp [body, subFromMoment, Eval.calls, Eval.callsAmount, made_bind, flatMap_then, after_nil]

theorem run_out (c : Cfg) (n : Nat) : outs (run c n) = Eval.run c n := by
  induction n with
  | zero => rfl
  | succ n ih =>
    funext k
    show (body c (run c n) k).out = Eval.body c (Eval.run c n) k
    rw [body_out, ih]

/-- A listed call needs less than the call it is made in. -/
theorem work_lt (c : Cfg) (k q : Call) (h : q ∈ Eval.calls (exec c) k) : q.work + 1 ≤ k.work := by
  have := calls_work c k
  have : q.work ≤ ((Eval.calls (exec c) k).map Call.work).sum := le_sum_map h
  omega

theorem work_pos (c : Cfg) (k : Call) : 1 ≤ k.work := by
  have := calls_work c k
  omega

/-- Enough depth. -/
theorem run_exec (c : Cfg) (n : Nat) (k : Call) (h : k.work ≤ n) : Eval.run c n k = exec c k := by
  induction n generalizing k with
  | zero => have := work_pos c k; omega
  | succ n ih =>
    rw [exec_unfold]
    show Eval.body c (Eval.run c n) k = _
    exact body_calls c _ _ k fun q hq => ih q (by have := work_lt c k q hq; omega)

theorem then_congr {x y : Out TT} {f g : TT → List Call} (h : y = x) (hf : ∀ v, x = .ok v → g v = f v) :
    y.thenCalls g = x.thenCalls f := by
  subst h
  cases y with
  | ok v => exact hf v rfl
  | _ => rfl

/-- The lists depend on what the listed calls return only. -/
theorem calls_congr (R R' : Call → Out TT) (k : Call) (h : ∀ q ∈ Eval.calls R k, R' q = R q) : Eval.calls R' k = Eval.calls R k := by
  have two : ∀ {k' : Call} {f : TT → Call}, (∀ q ∈ k' :: (R k').thenCalls fun v => [f v], R' q = R q) →
      (k' :: (R' k').thenCalls fun v => [f v]) = k' :: (R k').thenCalls fun v => [f v] := by
    intro k' f h
    rw [h k' (by simp)]
  have three : ∀ {k' : Call} {f g : TT → Call},
      (∀ q ∈ k' :: (R k').thenCalls fun v => f v :: (R (f v)).thenCalls fun w => [g w], R' q = R q) →
      (k' :: (R' k').thenCalls fun v => f v :: (R' (f v)).thenCalls fun w => [g w]) =
        k' :: (R k').thenCalls fun v => f v :: (R (f v)).thenCalls fun w => [g w] := by
    intro k' f g h
    congr 1
    refine then_congr (h k' (by simp)) fun v hv => ?_
    exact two fun q hq => h q (List.mem_cons_of_mem _ (mem_thenCalls hv hq))
  cases k with
  | calculate t => rfl
  | endOf kind t =>
    have h0 := h (.calculate t) (by simp [Eval.calls, Eval.callsEndOf])
    simp only [Eval.calls, Eval.callsEndOf, h0]
  | add a b =>
    have h' : ∀ q ∈ Eval.callsAdd R a b, R' q = R q := h
    show Eval.callsAdd R' a b = Eval.callsAdd R a b
    cases a <;> cases b <;> first | rfl | exact two h' | exact three h'
  | sub a b =>
    have h' : ∀ q ∈ Eval.callsSub R a b, R' q = R q := h
    show Eval.callsSub R' a b = Eval.callsSub R a b
    cases a <;> cases b <;> first | rfl | exact two h' | exact three h'
  | addTo u n t => cases t <;> first | rfl | exact two h
  | subFrom u n t => cases t <;> first | rfl | exact two h
  | addToMoment m t => cases t <;> first | rfl | exact two h
  | subFromMoment m t => cases t <;> first | rfl | exact two h

theorem made_succ (c : Cfg) (n : Nat) (k : Call) (h : k.work ≤ n + 1) :
    (run c (n + 1) k).made = (Eval.calls (exec c) k).flatMap (noted (run c n)) := by
  show (body c (run c n) k).made = _
  rw [body_made, run_out]
  congr 1
  exact calls_congr _ _ k fun q hq => run_exec c n q (by have := work_lt c k q hq; omega)

/-- The calls written down are the calls counted. -/
theorem made_length (c : Cfg) (n : Nat) (k : Call) (h : k.work ≤ n) : (run c n k).made.length + 1 = callCount c n k := by
  induction n generalizing k with
  | zero => have := work_pos c k; omega
  | succ n ih =>
    rw [made_succ c n k h]
    simp only [callCount, List.length_flatMap]
    rw [Nat.add_comm]
    congr 2
    refine List.map_congr_left fun q hq => ?_
    exact ih q (by have := work_lt c k q hq; omega)

/-- More depth changes nothing. -/
theorem run_stable (c : Cfg) (n m : Nat) (k : Call) (hn : k.work ≤ n) (hm : k.work ≤ m) : (run c n k).made = (run c m k).made := by
  induction n generalizing k m with
  | zero => have := work_pos c k; omega
  | succ n ih =>
    cases m with
    | zero => have := work_pos c k; omega
    | succ m =>
      rw [made_succ c n k hn, made_succ c m k hm]
      rw [List.flatMap_def, List.flatMap_def]
      congr 1
      refine List.map_congr_left fun q hq => ?_
      have := work_lt c k q hq
      exact congrArg (q :: ·) (ih m q (by omega) (by omega))

end Kairos.Traced
