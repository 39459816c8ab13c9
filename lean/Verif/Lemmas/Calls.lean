import Verif.Model.Calls
import Verif.Lemmas.Eval

/-! Number of calls the evaluator makes. -/

namespace Kairos

/-- A bound on the number of calls, `k` included. -/
def Call.work : Call → Nat
  | .calculate t => 2 * t.size - 1
  | .endOf _ t => 2 * t.size
  | .add a b | .sub a b => 2 * (a.size + b.size) - 2
  | .addTo _ _ t | .subFrom _ _ t | .addToMoment _ t | .subFromMoment _ t => 2 * t.size - 1

theorem mem_thenCalls {x : Out TT} {f : TT → List Call} {q : Call} {v : TT} (h : x = .ok v) (hq : q ∈ f v) :
    q ∈ x.thenCalls f := by subst h; exact hq

/-- Binding agrees if the calls agree. -/
theorem bind_calls {x : Out TT} {f g : TT → Out TT} (h : ∀ v, x = .ok v → f v = g v) : (x >>= f) = (x >>= g) := by
  cases x <;> simp_all

/-- One call, then another with its value. -/
theorem bind_two {R R' : Call → Out TT} {k : Call} {f : TT → Call}
    (h : ∀ q ∈ k :: (R k).thenCalls fun v => [f v], R' q = R q) :
    (R' k >>= fun v => R' (f v)) = (R k >>= fun v => R (f v)) := by
  rw [h k (by simp)]
  exact bind_calls fun v hv => h _ (List.mem_cons_of_mem _ (mem_thenCalls hv (by simp)))

/-- One call, then two more, each with the value before. -/
theorem bind_three {R R' : Call → Out TT} {k : Call} {f g : TT → Call}
    (h : ∀ q ∈ k :: (R k).thenCalls fun v => f v :: (R (f v)).thenCalls fun w => [g w], R' q = R q) :
    (R' k >>= fun v => R' (f v) >>= fun w => R' (g w)) = (R k >>= fun v => R (f v) >>= fun w => R (g w)) := by
  rw [h k (by simp)]
  exact bind_calls fun v hv => bind_two fun q hq => h q (List.mem_cons_of_mem _ (mem_thenCalls hv hq))

theorem body_calls (c : Cfg) (R R' : Call → Out TT) (k : Call)
    (h : ∀ q ∈ Eval.calls R k, R' q = R q) : Eval.body c R' k = Eval.body c R k := by
  cases k with
  | calculate t =>
    cases t <;> first | rfl | exact h _ (by simp [Eval.calls, Eval.callsCalculate])
  | endOf kind t =>
    have h0 := h (.calculate t) (by simp [Eval.calls, Eval.callsEndOf])
    have h1 : ∀ v, R (.calculate t) = .ok v → ∀ e, (v = .endOfYear e ∨ v = .endOfMonth e ∨ v = .endOfDay e ∨
        v = .endOfHour e ∨ v = .endOfMinute e) → R' (.calculate e) = R (.calculate e) := by
      intro v hv e he
      refine h _ (List.mem_cons_of_mem _ (mem_thenCalls hv ?_))
      rcases he with rfl | rfl | rfl | rfl | rfl <;> simp
    cases kind <;>
      simp only [Eval.body, Eval.endOfYear, Eval.endOfMonth, Eval.endOfDay, Eval.endOfHour, Eval.endOfMinute] <;>
      (rw [h0]
       refine bind_calls ?_
       intro v hv
       cases v <;> first | rfl | exact h1 _ hv _ (by simp))
  | add a b =>
    have h' : ∀ q ∈ Eval.callsAdd R a b, R' q = R q := h
    clear h
    show Eval.add R' a b = Eval.add R a b
    cases a <;> cases b <;>
      first
      | rfl
      | exact h' _ (by simp [Eval.callsAdd])
      | exact bind_two h'
      | exact bind_three h'
  | sub a b =>
    have h' : ∀ q ∈ Eval.callsSub R a b, R' q = R q := h
    clear h
    show Eval.sub R' a b = Eval.sub R a b
    cases a <;> cases b <;>
      first
      | rfl
      | exact h' _ (by simp [Eval.callsSub])
      | exact bind_two h'
      | exact bind_three h'
  | addTo u n t => cases u <;> cases t <;> first | rfl | exact bind_two h
  | subFrom u n t => cases u <;> cases t <;> first | rfl | exact bind_two h
  | addToMoment m t => cases t <;> first | rfl | exact bind_two h
  | subFromMoment m t => cases t <;> first | rfl | exact bind_two h

/-- Discharges the comparison of two bounds. -/
macro "work_arm" : tactic => `(tactic| (
  simp only [Call.work, TT.size] at *
  grind [TT.size_pos]))

/-- Calls made are on smaller arguments, and together they cost less. -/
theorem calls_work (c : Cfg) (k : Call) :
    1 + ((Eval.calls (exec c) k).map Call.work).sum ≤ k.work := by
  have leaf : ∀ {q : Call} {v : TT}, exec c q = .ok v → v.size = 1 := fun h => TT.size_leaf (exec_leaf h)
  have two : ∀ (q : Call) (f : TT → Call) (n : Nat), (∀ v, v.size = 1 → (f v).work ≤ n) →
      ((q :: (exec c q).thenCalls fun v => [f v]).map Call.work).sum ≤ q.work + n := by
    intro q f n hf
    cases hq : exec c q with
    | ok v => simpa [OutE.thenCalls] using hf v (leaf hq)
    | _ => simp [OutE.thenCalls]
  have three : ∀ (q : Call) (f g : TT → Call) (n m : Nat), (∀ v, v.size = 1 → (f v).work ≤ n) →
      (∀ v, v.size = 1 → (g v).work ≤ m) →
      ((q :: (exec c q).thenCalls fun v => f v :: (exec c (f v)).thenCalls fun w => [g w]).map Call.work).sum ≤
        q.work + (n + m) := by
    intro q f g n m hf hg
    cases hq : exec c q with
    | ok v =>
      have h1 := two (f v) g m hg
      have h2 := hf v (leaf hq)
      simp only [OutE.thenCalls, List.map_cons, List.sum_cons] at h1 ⊢
      omega
    | _ => simp [OutE.thenCalls]
  cases k with
  | calculate t =>
    cases t <;> simp [Eval.calls, Eval.callsCalculate] <;> work_arm
  | endOf kind t =>
    have ht := t.size_pos
    have : (Eval.calls (exec c) (.endOf kind t)) = [.calculate t] := by
      simp only [Eval.calls, Eval.callsEndOf]
      cases hq : exec c (.calculate t) with
      | ok v =>
        have := exec_leaf hq
        cases v <;> simp [TT.isLeaf, TT.isAAmount, TT.isMoment] at this <;> rfl
      | _ => rfl
    rw [this]; simp [Call.work]; omega
  | add a b =>
    have ha := a.size_pos
    have hb := b.size_pos
    show 1 + ((Eval.callsAdd (exec c) a b).map Call.work).sum ≤ _
    unfold Eval.callsAdd
    split
    · simp only [List.map_cons, List.map_nil, List.sum_cons, List.sum_nil, Call.work]; omega
    · simp only [List.map_nil, List.sum_nil, Call.work]; omega
    · simp only [List.map_cons, List.map_nil, List.sum_cons, List.sum_nil, Call.work]; omega
    · simp only [List.map_cons, List.map_nil, List.sum_cons, List.sum_nil, Call.work]; omega
    · simp only [List.map_cons, List.map_nil, List.sum_cons, List.sum_nil, Call.work]; omega
    · simp only [List.map_cons, List.map_nil, List.sum_cons, List.sum_nil, Call.work]; omega
    · simp only [List.map_cons, List.map_nil, List.sum_cons, List.sum_nil, Call.work]; omega
    · simp only [List.map_cons, List.map_nil, List.sum_cons, List.sum_nil, Call.work]; omega
    · rename_i x y _
      have hx := x.size_pos
      have hy := y.size_pos
      have := two (.add x y) (fun v => .add v b) (2 * b.size) (fun v hv => by simp only [Call.work, hv]; omega)
      simp only [Call.work, TT.size] at *; omega
    · rename_i x y _ _ _ _ _ _ _ _
      have hx := x.size_pos
      have hy := y.size_pos
      have := two (.add x y) (fun v => .add a v) (2 * a.size) (fun v hv => by simp only [Call.work, hv]; omega)
      simp only [Call.work, TT.size] at *; omega
    · rename_i x y _ _
      have hx := x.size_pos
      have hy := y.size_pos
      have := two (.sub x y) (fun v => .add b v) (2 * b.size) (fun v hv => by simp only [Call.work, hv]; omega)
      simp only [Call.work, TT.size] at *; omega
    · rename_i x y _ _ _ _ _ _ _ _ _
      have hx := x.size_pos
      have hy := y.size_pos
      have := three (.calculate x) (fun v => .add a v) (fun v => .sub v y) (2 * a.size) (2 * y.size)
        (fun v hv => by simp only [Call.work, hv]; omega) (fun v hv => by simp only [Call.work, hv]; omega)
      simp only [Call.work, TT.size] at *; omega
    · simp only [List.map_nil, List.sum_nil, Call.work]; omega
  | sub a b =>
    have ha := a.size_pos
    have hb := b.size_pos
    show 1 + ((Eval.callsSub (exec c) a b).map Call.work).sum ≤ _
    unfold Eval.callsSub
    split
    · simp only [List.map_cons, List.map_nil, List.sum_cons, List.sum_nil, Call.work]; omega
    · simp only [List.map_cons, List.map_nil, List.sum_cons, List.sum_nil, Call.work]; omega
    · simp only [List.map_cons, List.map_nil, List.sum_cons, List.sum_nil, Call.work]; omega
    · simp only [List.map_cons, List.map_nil, List.sum_cons, List.sum_nil, Call.work]; omega
    · simp only [List.map_cons, List.map_nil, List.sum_cons, List.sum_nil, Call.work]; omega
    · simp only [List.map_cons, List.map_nil, List.sum_cons, List.sum_nil, Call.work]; omega
    · simp only [List.map_cons, List.map_nil, List.sum_cons, List.sum_nil, Call.work]; omega
    · rename_i x y
      have hx := x.size_pos
      have hy := y.size_pos
      have := two (.sub x y) (fun v => .sub v b) (2 * b.size) (fun v hv => by simp only [Call.work, hv]; omega)
      simp only [Call.work, TT.size] at *; omega
    · rename_i x y _ _ _ _ _ _ _ _
      have hx := x.size_pos
      have hy := y.size_pos
      have := two (.sub x y) (fun v => .sub a v) (2 * a.size) (fun v hv => by simp only [Call.work, hv]; omega)
      simp only [Call.work, TT.size] at *; omega
    · rename_i x y _
      have hx := x.size_pos
      have hy := y.size_pos
      have := two (.add x y) (fun v => .sub v b) (2 * b.size) (fun v hv => by simp only [Call.work, hv]; omega)
      simp only [Call.work, TT.size] at *; omega
    · rename_i x y _ _ _ _ _ _ _ _ _
      have hx := x.size_pos
      have hy := y.size_pos
      have := three (.calculate x) (fun v => .sub a v) (fun v => .add v y) (2 * a.size) (2 * y.size)
        (fun v hv => by simp only [Call.work, hv]; omega) (fun v hv => by simp only [Call.work, hv]; omega)
      simp only [Call.work, TT.size] at *; omega
    · simp only [List.map_nil, List.sum_nil, Call.work]; omega
  | addTo u n t =>
    cases t
    case addition x y =>
      have hx := x.size_pos
      have hy := y.size_pos
      have := two (.add x y) (.addTo u n) 1 (fun v hv => by simp only [Call.work, hv]; omega)
      simp only [Eval.calls, Eval.callsAmount, Call.work, TT.size] at *; omega
    case subtraction x y =>
      have hx := x.size_pos
      have hy := y.size_pos
      have := two (.sub x y) (.addTo u n) 1 (fun v hv => by simp only [Call.work, hv]; omega)
      simp only [Eval.calls, Eval.callsAmount, Call.work, TT.size] at *; omega
    all_goals simp [Eval.calls, Eval.callsAmount, Call.work, TT.size]; try omega
  | subFrom u n t =>
    cases t
    case addition x y =>
      have hx := x.size_pos
      have hy := y.size_pos
      have := two (.add x y) (.subFrom u n) 1 (fun v hv => by simp only [Call.work, hv]; omega)
      simp only [Eval.calls, Eval.callsAmount, Call.work, TT.size] at *; omega
    case subtraction x y =>
      have hx := x.size_pos
      have hy := y.size_pos
      have := two (.sub x y) (.subFrom u n) 1 (fun v hv => by simp only [Call.work, hv]; omega)
      simp only [Eval.calls, Eval.callsAmount, Call.work, TT.size] at *; omega
    all_goals simp [Eval.calls, Eval.callsAmount, Call.work, TT.size]; try omega
  | addToMoment m t =>
    cases t
    case addition x y =>
      have hx := x.size_pos
      have hy := y.size_pos
      have := two (.add x y) (.addToMoment m) 1 (fun v hv => by simp only [Call.work, hv]; omega)
      simp only [Eval.calls, Eval.callsAmount, Call.work, TT.size] at *; omega
    case subtraction x y =>
      have hx := x.size_pos
      have hy := y.size_pos
      have := two (.sub x y) (.addToMoment m) 1 (fun v hv => by simp only [Call.work, hv]; omega)
      simp only [Eval.calls, Eval.callsAmount, Call.work, TT.size] at *; omega
    all_goals simp [Eval.calls, Eval.callsAmount, Call.work, TT.size]; try omega
  | subFromMoment m t =>
    cases t
    case addition x y =>
      have hx := x.size_pos
      have hy := y.size_pos
      have := two (.add x y) (.subFromMoment m) 1 (fun v hv => by simp only [Call.work, hv]; omega)
      simp only [Eval.calls, Eval.callsAmount, Call.work, TT.size] at *; omega
    case subtraction x y =>
      have hx := x.size_pos
      have hy := y.size_pos
      have := two (.sub x y) (.subFromMoment m) 1 (fun v hv => by simp only [Call.work, hv]; omega)
      simp only [Eval.calls, Eval.callsAmount, Call.work, TT.size] at *; omega
    all_goals simp [Eval.calls, Eval.callsAmount, Call.work, TT.size]; try omega

theorem le_sum_map {α : Type} {f : α → Nat} {l : List α} {a : α} (h : a ∈ l) : f a ≤ (l.map f).sum := by
  induction l with
  | nil => simp at h
  | cons b l ih =>
    simp only [List.map_cons, List.sum_cons]
    rcases List.mem_cons.mp h with rfl | h
    · omega
    · have := ih h; omega

/-- The number of calls is within the bound, however deep one counts. -/
theorem callCount_le (c : Cfg) (n : Nat) (k : Call) : callCount c n k ≤ k.work := by
  induction n generalizing k with
  | zero => exact Nat.zero_le _
  | succ n ih =>
    refine Nat.le_trans ?_ (calls_work c k)
    simp only [callCount]
    refine Nat.add_le_add_left ?_ 1
    induction Eval.calls (exec c) k with
    | nil => simp
    | cons q l ihl => simp only [List.map_cons, List.sum_cons]; exact Nat.add_le_add (ih q) ihl

/-- Counting as deep as the bound counts all. -/
theorem callCount_stable (c : Cfg) (n : Nat) (k : Call) (h : k.work ≤ n) :
    callCount c n k = callCount c k.work k := by
  suffices H : ∀ (w n m : Nat) (k : Call), k.work ≤ w → k.work ≤ n → k.work ≤ m → callCount c n k = callCount c m k from
    H k.work n k.work k (Nat.le_refl _) h (Nat.le_refl _)
  intro w
  induction w with
  | zero => intro n m k hw _ _; have := calls_work c k; omega
  | succ w ih =>
    intro n m k hw hn hm
    have hk := calls_work c k
    have hlt : ∀ q ∈ Eval.calls (exec c) k, q.work + 1 ≤ k.work := by
      intro q hq
      have : q.work ≤ ((Eval.calls (exec c) k).map Call.work).sum := le_sum_map hq
      omega
    cases n with
    | zero => omega
    | succ n =>
      cases m with
      | zero => omega
      | succ m =>
        simp only [callCount]
        congr 2
        refine List.map_congr_left fun q hq => ?_
        have := hlt q hq
        exact ih n m q (by omega) (by omega) (by omega)

end Kairos
