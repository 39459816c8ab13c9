import Verif.Lemmas.AmountExact
import Verif.Lemmas.Operands
import Verif.Spec.Chain

/-!
# C01–C09: the evaluator `calculate`
-/

namespace Props
open Kairos Spec

/-! ## C01 -/

/-- **C01.** For every expression of `s` nodes, evaluation with a call stack of `2 * s + 1` frames
finishes, and any larger stack gives the same outcome: a value, an error or a panic.
(`Eval.run c n` is the evaluator with room for `n` nested calls; `.oof` is running out of it.) -/
theorem C01_calculate_returns (c : Cfg) (t : TT) :
    calculate c t ≠ .oof ∧
    ∀ n, 2 * t.size + 1 ≤ n → Eval.run c n (.calculate t) = calculate c t :=
  ⟨calculate_ne_oof c t, fun n hn => run_eq_exec c n _ (by simp only [Call.depth]; omega)⟩

/-- **C01.** `calculate` satisfies the recursion equations of the Rust functions (so that the
budget is not a change of behaviour). -/
theorem C01_rust_equations (c : Cfg) (k : Call) : exec c k = Eval.body c (exec c) k :=
  exec_unfold c k

example : (TT.days 1 + (TT.hours 2 - TT.minutes 3)).size = 5 := rfl

/-! ## C02, C03 -/

/-- **C02.** A successful result is a plain amount or a plain moment. -/
theorem C02_result_evaluated (c : Cfg) (t v : TT) (h : calculate c t = .ok v) :
    (∃ u n, v = amt u n) ∨ (∃ m, v = .moment m) := by
  have hl := calculate_isLeaf h
  cases v <;> simp [TT.isLeaf, TT.isAAmount, TT.isMoment] at hl
  · exact .inl ⟨.second, _, rfl⟩
  · exact .inl ⟨.minute, _, rfl⟩
  · exact .inl ⟨.hour, _, rfl⟩
  · exact .inl ⟨.day, _, rfl⟩
  · exact .inl ⟨.month, _, rfl⟩
  · exact .inl ⟨.year, _, rfl⟩
  · exact .inr ⟨_, rfl⟩

example : calculate (std .debug) (TT.endOfDay (.moment (at_ 2017 1 31 5 0 0) + .days 1) ) =
    .ok (.moment (at_ 2017 2 1 23 59 59)) := by decide +kernel

/-- **C03.** Calculating a result again returns it unchanged. -/
theorem C03_idempotent (c : Cfg) (t v : TT) (h : calculate c t = .ok v) :
    calculate c v = .ok v :=
  calculate_leaf c (calculate_isLeaf h)

example : calculate (std .release) (TT.days 1 + .hours 2 - .minutes 3) = .ok (.minutes 1557) := by
  decide +kernel

/-! ## C04, C05 -/

theorem getSeconds_amt (c : Cfg) (u : TUnit) (k : Int) (h : InI64 (k * u.secs)) :
    (amt u k).getSeconds c = .ok (k * u.secs) := by
  unfold InI64 at h
  have chk : ∀ x : Int, -9223372036854775808 ≤ x → x ≤ 9223372036854775807 →
      (c.chk x : Out Int) = .ok x := fun x h1 h2 => chk_ok_of_in c ⟨h1, h2⟩
  cases u <;> simp only [amt, TT.getSeconds, Cfg.mulL, Cfg.mul, TUnit.secs] at * <;>
    (repeat (rw [chk _ (by omega) (by omega)]; simp only [OutE.ok_bind])) <;>
    (congr 1; try omega)

/-- **C04.** An expression of amounts only, of any shape: if the overflow-checked build returns a
value, it is an amount in the finest unit occurring, of exactly the arithmetical size; and
`get_seconds` of it is that size in seconds (if that number fits into an `i64`). -/
theorem C04_amount_arithmetic (c : Cfg) (hc : c.profile = .debug) (t : AmtTree) (v : TT)
    (h : calculate c t.toTT = .ok v) :
    (∃ k, v = amt t.finest k ∧ k * t.finest.secs = t.secs) ∧
    (InI64 t.secs → v.getSeconds c = .ok t.secs) := by
  rcases calculate_amt_rep c t with ⟨hp, -⟩ | ⟨k, hk, he⟩
  · rw [hp] at h; cases h
  · rw [hk] at h; cases h
    simp only [Cfg.eqv, hc] at he
    subst he
    refine ⟨⟨_, rfl, cnt_secs t⟩, fun hi => ?_⟩
    rw [← cnt_secs t] at hi ⊢
    exact getSeconds_amt c _ _ hi

example := C04_amount_arithmetic (std .debug) rfl (.minus (.plus (.amt .day 2) (.amt .hour 5)) (.amt .minute 7)) (.minutes 3173) (by decide +kernel)

/-- **C04, wrapping build.** Without overflow checks the amount is right modulo 2^64. -/
theorem C04_amount_arithmetic_release (c : Cfg) (hc : c.profile = .release) (t : AmtTree) :
    ∃ k, calculate c t.toTT = .ok (amt t.finest k) ∧
      (18446744073709551616 : Int) ∣ k * t.finest.secs - t.secs := by
  rcases calculate_amt_rep c t with ⟨-, hp⟩ | ⟨k, hk, he⟩
  · rw [hc] at hp; cases hp
  · refine ⟨k, hk, ?_⟩
    have := eqv_mul t.finest.secs he
    rw [cnt_secs] at this
    simpa only [Cfg.eqv, hc] using this

example := C04_amount_arithmetic_release (std .release) rfl (.minus (.plus (.amt .day 2) (.amt .hour 5)) (.amt .minute 7))

/-- **C05.** An expression of amounts only never evaluates to an error. -/
theorem C05_amounts_never_error (c : Cfg) (t : AmtTree) (e : ErrorKind) :
    calculate c t.toTT ≠ .err e := by
  rcases calculate_amt_rep c t with ⟨hp, -⟩ | ⟨k, hk, -⟩
  · simp [hp]
  · simp [hk]

/-- **C05.** If the absolute sizes of its amounts, in seconds, add up to at most `i64::MAX`, it
evaluates successfully and exactly in both build profiles. -/
theorem C05_amounts_succeed (c : Cfg) (t : AmtTree) (h : t.mag ≤ 9223372036854775807) :
    ∃ k, calculate c t.toTT = .ok (amt t.finest k) ∧ k * t.finest.secs = t.secs ∧
      (amt t.finest k).getSeconds c = .ok t.secs := by
  refine ⟨_, calculate_amt_exact c t h, cnt_secs t, ?_⟩
  have hm := secs_le_mag t
  rw [← cnt_secs t] at hm ⊢
  exact getSeconds_amt c _ _ ⟨by omega, by omega⟩

/-- A non-trivial instance: `2 months - (5 days + 3 hours) + 20 minutes`. -/
example : (AmtTree.plus (.minus (.amt .month 2) (.plus (.amt .day 5) (.amt .hour 3)))
    (.amt .minute 20)).mag ≤ 9223372036854775807 := by decide
example : (AmtTree.plus (.minus (.amt .month 2) (.plus (.amt .day 5) (.amt .hour 3)))
    (.amt .minute 20)).secs = 4742400 := by decide

/-- The bound matters: one more second overflows. -/
example : calculate (std .debug) (AmtTree.plus (.amt .second 9223372036854775807) (.amt .second 1)).toTT
    = .panic := by decide +kernel

/-! ## C06 -/

/-- **C06.** A right operand that is, or evaluates to, a moment is always rejected. -/
theorem C06_no_moment_on_the_right (c : Cfg) (x e : TT) (m : Moment)
    (he : calculate c e = .ok (.moment m)) (v : TT) :
    calculate c (x + e) ≠ .ok v ∧ calculate c (x - e) ≠ .ok v := by
  rw [calculate_add, calculate_sub]
  exact ⟨add_to_moment_value c he x v, sub_from_moment_value c he x v⟩

example (v : TT) := C06_no_moment_on_the_right (std .debug) (.moment (at_ 2017 6 15 0 0 0)) (.endOfYear (.moment (at_ 2017 6 15 0 0 0)))
  (at_ 2017 12 31 0 0 0) (by decide +kernel) v

/-- **C06.** In particular for a plain moment on the right. -/
theorem C06_plain_moment (c : Cfg) (x : TT) (m : Moment) (v : TT) :
    calculate c (x + .moment m) ≠ .ok v ∧ calculate c (x - .moment m) ≠ .ok v :=
  C06_no_moment_on_the_right c x _ m (calculate_leaf c rfl) v

example : calculate (std .debug) (.moment (at_ 2017 1 1 0 0 0) + .days 3) =
    .ok (.moment (at_ 2017 1 4 0 0 0)) := by decide +kernel

/-! ## C07 -/

theorem amt_isEnd (u : TUnit) (n : Int) : (amt u n).isEnd = false := by cases u <;> rfl

theorem calc_plus_then (c : Cfg) (x a : TT) (op : Op) (u : TUnit) (n : Int) :
    calculate c (op.app (x + a) (amt u n)) =
      (do let v ← calculate c (x + a); calculate c (op.app v (amt u n))) := by
  cases op
  · simp only [Op.app, calculate_add]
    rw [exec_add]; cases u <;> rfl
  · simp only [Op.app, calculate_add, calculate_sub]
    rw [exec_sub]; cases u <;> rfl

theorem calc_minus_minus (c : Cfg) (x a b : TT) :
    calculate c ((x - a) - b) = (do let v ← calculate c (x - a); calculate c (v - b)) := by
  simp only [calculate_sub]
  rw [exec_sub]; cases b <;> rfl

theorem calc_minus_plus (c : Cfg) (x a : TT) (u : TUnit) (n : Int) :
    calculate c ((x - a) + amt u n) = (do let v ← calculate c (x - a); calculate c (amt u n + v)) := by
  simp only [calculate_sub, calculate_add]
  rw [exec_add]; cases u <;> rfl

/-- **C07 (partial).** `(m + a) + b`, `(m + a) - b` and `(m - a) - b` evaluate step by step.
Missing: `(m - a) + b`, see `C07_refuted`. (The first operand may be any expression.) -/
theorem C07_chain_partial (c : Cfg) (x a : TT) (u : TUnit) (n : Int) :
    calculate c ((x + a) + amt u n) = (do let v ← calculate c (x + a); calculate c (v + amt u n)) ∧
    calculate c ((x + a) - amt u n) = (do let v ← calculate c (x + a); calculate c (v - amt u n)) ∧
    calculate c ((x - a) - amt u n) = (do let v ← calculate c (x - a); calculate c (v - amt u n)) :=
  ⟨calc_plus_then c x a .plus u n, calc_plus_then c x a .minus u n, calc_minus_minus c x a _⟩

/-- **C07 (partial), any length.** A chain of additions followed by a chain of subtractions of
amounts evaluates like evaluating after every single step. -/
theorem C07_long_chain_partial (c : Cfg) (m : Moment) (as bs : List (TUnit × Int)) :
    calculate c (chain (.moment m) (as.map (fun p => (.plus, amt p.1 p.2)) ++
        bs.map (fun p => (.minus, amt p.1 p.2)))) =
      stepwise c (.moment m) (as.map (fun p => (.plus, amt p.1 p.2)) ++
        bs.map (fun p => (.minus, amt p.1 p.2))) := by
  -- generalise the start of the chain
  have minus : ∀ (bs : List (TUnit × Int)) (x y : TT) (r : Out TT),
      (calculate c x = r) → (x.isMoment ∨ (∃ a b, x = a + b) ∨ (∃ a b, x = a - b)) →
      calculate c (chain x (bs.map (fun p => (.minus, amt p.1 p.2)))) =
      (bs.map (fun p => (Op.minus, amt p.1 p.2))).foldl
        (fun r s => do let v ← r; calculate c (s.1.app v s.2)) r := by
    intro bs
    induction bs with
    | nil => intro x _ r h _; simpa [chain] using h
    | cons b bs ih =>
      intro x _ r h hx
      simp only [List.map_cons, chain, List.foldl_cons]
      refine ih (x - amt b.1 b.2) x _ ?_ (.inr (.inr ⟨_, _, rfl⟩))
      subst h
      rcases hx with hx | ⟨p, q, rfl⟩ | ⟨p, q, rfl⟩
      · rw [calculate_leaf c (t := x) (by simp [TT.isLeaf, hx])]; rfl
      · exact calc_plus_then c p q .minus _ _
      · exact calc_minus_minus c p q _
  have plus : ∀ (as : List (TUnit × Int)) (x : TT) (r : Out TT),
      (calculate c x = r) → (x.isMoment ∨ (∃ a b, x = a + b)) →
      calculate c (chain x (as.map (fun p => (.plus, amt p.1 p.2)) ++
        bs.map (fun p => (.minus, amt p.1 p.2)))) =
      (as.map (fun p => (Op.plus, amt p.1 p.2)) ++ bs.map (fun p => (Op.minus, amt p.1 p.2))).foldl
        (fun r s => do let v ← r; calculate c (s.1.app v s.2)) r := by
    intro as
    induction as with
    | nil =>
      intro x r h hx
      refine minus bs x x r h ?_
      rcases hx with hx | hx
      · exact .inl hx
      · exact .inr (.inl hx)
    | cons b as ih =>
      intro x r h hx
      simp only [List.map_cons, List.cons_append, chain, List.foldl_cons]
      refine ih (x + amt b.1 b.2) _ ?_ (.inr ⟨_, _, rfl⟩)
      subst h
      rcases hx with hx | ⟨p, q, rfl⟩
      · rw [calculate_leaf c (t := x) (by simp [TT.isLeaf, hx])]; rfl
      · exact calc_plus_then c p q .plus _ _
  exact plus as _ _ (calculate_leaf c rfl) (.inl rfl)

example : stepwise (std .debug) (.moment (at_ 2017 1 30 0 0 0))
    [(.plus, .days 3), (.plus, .months 1), (.minus, .hours 5)] =
    .ok (.moment (at_ 2017 3 1 19 0 0)) := by decide +kernel

/-- **C07 refuted.** `(m - a) + b` never succeeds when `m - a` is a moment: the code swaps the
operands. (The README's `today() - weeks(1) + days(2)` has this shape.) -/
theorem C07_refuted (c : Cfg) (m : Moment) (a : TT) (u : TUnit) (n : Int) (v : TT)
    (h : ∀ k w, calculate c (.moment m - a) ≠ .ok (amt k w)) :
    calculate c ((.moment m - a) + amt u n) ≠ .ok v := by
  rw [calc_minus_plus]
  intro hv
  rw [OutE.bind_eq_ok] at hv
  obtain ⟨r, hr, hv⟩ := hv
  rcases C02_result_evaluated c _ r hr with ⟨k, w, rfl⟩ | ⟨m', rfl⟩
  · exact h k w hr
  · exact (C06_plain_moment c _ m' v).1 hv

example (v : TT) := C07_refuted (std .debug) (at_ 2017 6 15 0 0 0) (.days 7) .day 2 v (by
  intro k w h
  rw [show calculate (std .debug) (.moment (at_ 2017 6 15 0 0 0) - .days 7) = .ok (.moment (at_ 2017 6 8 0 0 0)) by decide +kernel] at h
  cases k <;> cases h)

/-- The result of moment arithmetic is a moment. -/
theorem buildMoment_moment {c : Cfg} {p : Parts} {v : TT} (h : Eval.buildMoment c p = .ok v) :
    ∃ m, v = .moment m := by
  unfold Eval.buildMoment at h
  split at h
  · cases h; exact ⟨_, rfl⟩
  · cases h

theorem sub_amt_moment {c : Cfg} {m : Moment} {u : TUnit} {n : Int} {v : TT}
    (h : calculate c (.moment m - amt u n) = .ok v) : ∃ m', v = .moment m' := by
  rw [calculate_sub, exec_sub_moment, exec_subFromMoment] at h
  cases u <;> simp only [amt, Eval.subFromMoment, OutE.bind_eq_ok] at h <;>
    (obtain ⟨_, -, _, -, h⟩ := h; exact buildMoment_moment h)

theorem add_amt_moment {c : Cfg} {m : Moment} {u : TUnit} {n : Int} {v : TT}
    (h : calculate c (.moment m + amt u n) = .ok v) : ∃ m', v = .moment m' := by
  rw [calculate_add, exec_add_moment, exec_addToMoment] at h
  cases u <;> simp only [amt, Eval.addToMoment, OutE.bind_eq_ok] at h <;>
    (obtain ⟨_, -, _, -, h⟩ := h; exact buildMoment_moment h)

/-- **C07 refuted**, for all moments and amounts of any units. -/
theorem C07_refuted_all (c : Cfg) (m : Moment) (u u' : TUnit) (n n' : Int) (v : TT) :
    calculate c ((.moment m - amt u n) + amt u' n') ≠ .ok v := by
  refine C07_refuted c m _ u' n' v fun k w hk => ?_
  obtain ⟨m', h⟩ := sub_amt_moment hk
  cases k <;> cases h

/-- The README example, concretely: doing the two steps one after the other succeeds, the
expression does not. -/
theorem C07_refuted_witness :
    stepwise (std .debug) (.moment (at_ 2017 6 15 0 0 0)) [(.minus, .days 7), (.plus, .days 2)] =
      .ok (.moment (at_ 2017 6 10 0 0 0)) ∧
    calculate (std .debug) (.moment (at_ 2017 6 15 0 0 0) - .days 7 + .days 2) =
      .err (.cannotAdd (.days 2) (.moment (at_ 2017 6 8 0 0 0))) := by decide +kernel

/-! ## C08 -/

theorem toTT_not_end (t : AmtTree) : t.toTT.isEnd = false := by
  cases t with
  | amt u n => exact amt_isEnd u n
  | plus a b => rfl
  | minus a b => rfl

/-- **C08.** `m + e` and `m - e`, `e` an expression of amounts, first evaluate `e` and then add or
subtract that single amount; a panic in `e` is passed on (errors cannot happen, C05). -/
theorem C08_amounts_combined_first (c : Cfg) (m : Moment) (t : AmtTree) :
    calculate c (.moment m + t.toTT) =
      (do let v ← calculate c t.toTT; calculate c (.moment m + v)) ∧
    calculate c (.moment m - t.toTT) =
      (do let v ← calculate c t.toTT; calculate c (.moment m - v)) := by
  constructor
  · simp only [calculate_add]; exact exec_add_leaf c rfl _ (toTT_not_end t)
  · simp only [calculate_sub]; exact exec_sub_leaf c rfl _ (toTT_not_end t)

/-- **C08.** The same for every right operand that is not an end-of marker. -/
theorem C08_right_operand_first (c : Cfg) (m : Moment) (e : TT) (he : e.isEnd = false) :
    calculate c (.moment m + e) = (do let v ← calculate c e; calculate c (.moment m + v)) ∧
    calculate c (.moment m - e) = (do let v ← calculate c e; calculate c (.moment m - v)) := by
  constructor
  · simp only [calculate_add]; exact exec_add_leaf c rfl _ he
  · simp only [calculate_sub]; exact exec_sub_leaf c rfl _ he

example : calculate (std .debug) (.moment (at_ 2017 6 15 0 0 0) + (.days 7 - .hours 2)) =
    .ok (.moment (at_ 2017 6 21 22 0 0)) := by decide +kernel

/-! ## C09 -/

/-- **C09 refuted.** An end-of marker as a direct operand of `+` or `-`, on either side, never
evaluates successfully. -/
theorem C09_refuted (c : Cfg) (e x : TT) (he : e.isEnd) (v : TT) :
    calculate c (e + x) ≠ .ok v ∧ calculate c (x + e) ≠ .ok v ∧
    calculate c (e - x) ≠ .ok v ∧ calculate c (x - e) ≠ .ok v := by
  simp only [calculate_add, calculate_sub]
  exact ⟨add_end_left c he x v, add_end_right c he x v, sub_end_left c he x v, sub_end_right c he x v⟩

example (v : TT) := C09_refuted (std .debug) (.endOfMonth (.moment (at_ 2017 6 15 8 0 0))) (.days 1) rfl v

/-- Concretely: the end of the month can be calculated, and one day can be added to that value, but
the expression `end_of_month + days(1)` is an error. -/
theorem C09_refuted_witness :
    calculate (std .debug) (.endOfMonth (.moment (at_ 2017 6 15 8 0 0))) =
      .ok (.moment (at_ 2017 6 30 0 0 0)) ∧
    calculate (std .debug) (.moment (at_ 2017 6 30 0 0 0) + .days 1) =
      .ok (.moment (at_ 2017 7 1 0 0 0)) ∧
    calculate (std .debug) (.endOfMonth (.moment (at_ 2017 6 15 8 0 0)) + .days 1) =
      .err (.cannotAdd (.days 1) (.endOfMonth (.moment (at_ 2017 6 15 8 0 0)))) := by decide +kernel

/-- **C09 (partial).** What works is the marker as the outermost operation, on any operand that
evaluates: `end_of_*(x)` depends on `x` only through its value. Missing: markers as operands. -/
theorem C09_outermost_partial (c : Cfg) (x v : TT) (h : calculate c x = .ok v) :
    calculate c (.endOfYear x) = calculate c (.endOfYear v) ∧
    calculate c (.endOfMonth x) = calculate c (.endOfMonth v) ∧
    calculate c (.endOfDay x) = calculate c (.endOfDay v) ∧
    calculate c (.endOfHour x) = calculate c (.endOfHour v) ∧
    calculate c (.endOfMinute x) = calculate c (.endOfMinute v) := by
  have hv : exec c (.calculate x) = exec c (.calculate v) := by
    rw [show exec c (.calculate x) = .ok v from h, exec_calculate_leaf c (calculate_isLeaf h)]
  simp only [calculate_eq, Eval.doCalculate, exec_endOf_year, exec_endOf_month, exec_endOf_day,
    exec_endOf_hour, exec_endOf_minute, Eval.endOfYear, Eval.endOfMonth, Eval.endOfDay,
    Eval.endOfHour, Eval.endOfMinute, hv, and_self]

example : (TT.endOfMonth (.moment (at_ 2017 6 15 8 0 0) + .days 20)).isEnd ∧
    calculate (std .debug) (.moment (at_ 2017 6 15 8 0 0) + .days 20) = .ok (.moment (at_ 2017 7 5 8 0 0)) ∧
    calculate (std .debug) (.endOfMonth (.moment (at_ 2017 6 15 8 0 0) + .days 20)) = .ok (.moment (at_ 2017 7 31 0 0 0)) := by
  decide +kernel

end Props
