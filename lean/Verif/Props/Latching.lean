import Verif.Props.Adaptors

/-!
# C37, C40: errors before the first item, and negative counts
-/

namespace Props
open Kairos Spec

/-! ## C37 -/

/-- A failed evaluation before the first `next`. -/
structure Stuck (c : Cfg) (e : ErrorKind) (it : Iter) : Prop where
  fresh : it.hadFirst = false
  amount : it.increment.isAAmount = true
  node : (∃ a b, it.base = .addition a b) ∨ (∃ a b, it.base = .subtraction a b)
  fails : calculate c it.base = .err e

theorem Stuck.skip {c : Cfg} {e : ErrorKind} {it : Iter} (h : Stuck c e it) :
    Stuck c e (it.skip c).1 ∧ (it.skip c).2 = .err e := by
  have := (add_failing h.amount h.node h.fails).1
  simp only [Iter.skip, Iter.recalculate, this]
  exact ⟨⟨h.fresh, h.amount, .inl ⟨_, _, rfl⟩, this⟩, trivial⟩

theorem Stuck.rollback {c : Cfg} {e : ErrorKind} {it : Iter} (h : Stuck c e it) :
    Stuck c e (it.rollback c).1 ∧ (it.rollback c).2 = .err e := by
  have := (add_failing h.amount h.node h.fails).2
  simp only [Iter.rollback, Iter.recalculate, this]
  exact ⟨⟨h.fresh, h.amount, .inr ⟨_, _, rfl⟩, this⟩, trivial⟩

theorem Stuck.next {c : Cfg} {e : ErrorKind} {it : Iter} (h : Stuck c e it) :
    Latched c e (it.next c).1 ∧ (it.next c).2 = some (.ok it.base) := by
  simp only [Iter.next, h.fresh, Bool.not_false, if_true]
  exact ⟨⟨rfl, h.amount, h.node, h.fails⟩, trivial⟩

theorem next_ok_run {c : Cfg} {it : Iter} {t : TT} (h : (it.next c).2 = some (.ok t)) : (IterOp.next.run c it).2 = .ok () := by
  simp only [IterOp.run]
  revert h
  generalize it.next c = p
  obtain ⟨it', r⟩ := p
  intro h
  simp only at h
  subst h
  rfl

/-- A failing operation on a fresh iterator leaves it stuck. -/
theorem stuck_of_fail {c : Cfg} {it : Iter} (hs : it.hadFirst = false) (hi : ∃ u n, it.increment = amt u n)
    {op : IterOp} {e : ErrorKind} (h : (op.run c it).2 = .err e) : Stuck c e (op.run c it).1 := by
  have ha : it.increment.isAAmount = true := by
    obtain ⟨u, n, e⟩ := hi; rw [e]; exact amt_isAAmount u n
  cases op with
  | skip =>
    simp only [IterOp.run, Iter.skip, Iter.recalculate] at *
    split at h <;> cases h
    rename_i h'
    exact ⟨hs, ha, .inl ⟨_, _, rfl⟩, h'⟩
  | rollback =>
    simp only [IterOp.run, Iter.rollback, Iter.recalculate] at *
    split at h <;> cases h
    rename_i h'
    exact ⟨hs, ha, .inr ⟨_, _, rfl⟩, h'⟩
  | next => simp [IterOp.run, Iter.next, hs] at h

theorem latched_ops {c : Cfg} {e : ErrorKind} : ∀ (ops : List IterOp) {it : Iter}, Latched c e it → Latched c e (runOps c it ops)
  | [], _, h => h
  | o :: os, _, h => latched_ops os (op_latched h o).1

theorem stuck_ops {c : Cfg} {e : ErrorKind} : ∀ (ops : List IterOp) {it : Iter}, Stuck c e it →
    (IterOp.next ∉ ops → Stuck c e (runOps c it ops)) ∧ (IterOp.next ∈ ops → Latched c e (runOps c it ops))
  | [], _, h => ⟨fun _ => h, fun hm => by cases hm⟩
  | .next :: os, it, h => by
    refine ⟨fun hn => absurd List.mem_cons_self hn, fun _ => latched_ops os ?_⟩
    have := h.next
    simp only [IterOp.run]
    revert this
    generalize it.next c = p
    obtain ⟨it', r⟩ := p
    rintro ⟨h1, h2⟩
    simp only at h2
    subst h2
    exact h1
  | .skip :: os, it, h => by
    have := stuck_ops os (it := (it.skip c).1) h.skip.1
    exact ⟨fun hn => this.1 (fun hm => hn (List.mem_cons_of_mem _ hm)), fun hm => this.2 (by simpa using hm)⟩
  | .rollback :: os, it, h => by
    have := stuck_ops os (it := (it.rollback c).1) h.rollback.1
    exact ⟨fun hn => this.1 (fun hm => hn (List.mem_cons_of_mem _ hm)), fun hm => this.2 (by simpa using hm)⟩

/-- **C37 (partial).** Before the first item, exactly one answer escapes: after a failed skip or rollback every later call, in any order, returns that same error, with
the one exception of the first `next`. Missing: that exception, see `C37_refuted`. -/
theorem C37_before_first_partial (c : Cfg) (it : Iter) (hs : it.hadFirst = false) (hi : ∃ u n, it.increment = amt u n)
    (op : IterOp) (e : ErrorKind) (h : (op.run c it).2 = .err e) (ops : List IterOp) (op' : IterOp) :
    (op'.run c (runOps c (op.run c it).1 ops)).2 =
      if op' = .next ∧ IterOp.next ∉ ops then .ok () else .err e := by
  have hst := stuck_ops ops (stuck_of_fail hs hi h)
  by_cases hm : IterOp.next ∈ ops
  · rw [if_neg (fun h => h.2 hm)]
    exact (op_latched (hst.2 hm) op').2
  · have hk := hst.1 hm
    cases op' with
    | next =>
      rw [if_pos ⟨rfl, hm⟩]
      exact next_ok_run hk.next.2
    | skip => rw [if_neg (fun h => by cases h.1)]; exact hk.skip.2
    | rollback => rw [if_neg (fun h => by cases h.1)]; exact hk.rollback.2

example (ops : List IterOp) (op' : IterOp) := C37_before_first_partial (std .debug) ⟨.moment (at_ 262143 5 1 0 0 0), .years 1, false⟩ rfl ⟨.year, 1, rfl⟩
  .skip (.outOfBounds 262144 5 0 0 0 0) (by decide +kernel) ops op'

/-- **C37 (partial).** And what that first `next` returns is no wrong date: it is an expression that is not evaluated, and evaluating it gives
that same error. -/
theorem C37_hidden_error_partial (c : Cfg) (it : Iter) (hs : it.hadFirst = false) (hi : ∃ u n, it.increment = amt u n)
    (op : IterOp) (e : ErrorKind) (h : (op.run c it).2 = .err e) (ops : List IterOp) (hn : IterOp.next ∉ ops) :
    ∃ t, (Iter.next c (runOps c (op.run c it).1 ops)).2 = some (.ok t) ∧ calculate c t = .err e := by
  have hk := (stuck_ops ops (stuck_of_fail hs hi h)).1 hn
  exact ⟨_, hk.next.2, hk.fails⟩

/-- 31 December of the last year, unstarted: skip fails, rollback fails, next says Ok, next fails. -/
example :
    let it : Iter := ⟨.moment (at_ 262143 12 31 0 0 0), .days 1, false⟩
    let s := (IterOp.skip.run (std .debug) it).1
    (IterOp.skip.run (std .debug) it).2 = .err (.outOfBounds 262144 1 0 0 0 0) ∧
    (IterOp.rollback.run (std .debug) s).2 = .err (.outOfBounds 262144 1 0 0 0 0) ∧
    (IterOp.next.run (std .debug) (runOps (std .debug) s [.rollback])).2 = .ok () ∧
    (IterOp.next.run (std .debug) (runOps (std .debug) s [.rollback, .next])).2 = .err (.outOfBounds 262144 1 0 0 0 0) := by
  decide +kernel

/-! ## C40 -/

variable {σ : Type}

theorem wrap_step {c : Cfg} (hp : c.profile = .release) (x : Int) : (c.add (wrap64 x) 1 : Out Int) = .ok (wrap64 (x + 1)) := by
  have hw : wrap64 (x + 1) = wrap64 (wrap64 x + 1) := by unfold wrap64; rw [Int.bmod_add_bmod]
  unfold Cfg.add Cfg.chk
  rw [hw]
  by_cases hin : InI64 (wrap64 x + 1)
  · rw [if_pos hin]
    generalize wrap64 x + 1 = z at hin
    unfold InI64 at hin
    congr 1
    unfold wrap64
    rw [Int.bmod_def]
    split <;> omega
  · rw [if_neg hin, hp]

theorem wrap_ne {n k : Int} (hmin : -9223372036854775808 ≤ n) (hn : n < 0) (h0 : 0 ≤ k) (hk : k < 18446744073709551616 + n) :
    ¬ n = wrap64 k := by
  unfold wrap64
  rw [Int.bmod_def]
  split <;> omega

/-- Counter of `times` in the wrapping build. -/
theorem times_wrap {c : Cfg} (hp : c.profile = .release) {nx : σ → σ × Item} {n : Int} (hn : n < 0) (hmin : -9223372036854775808 ≤ n)
    (s : σ) (k : Nat) (hk : (k : Int) ≤ 18446744073709551616 + n) :
    after (timesNext c nx) k (timesNew s n) = ⟨after nx k s, n, wrap64 k⟩ := by
  induction k with
  | zero => rfl
  | succ k ih =>
    rw [after_succ', ih (by omega), after_succ']
    have hne : ¬ n = wrap64 (k : Int) := wrap_ne hmin hn (by omega) (by omega)
    have hadd := wrap_step hp (k : Int)
    simp only [timesNext, hne, if_false, hadd]
    rfl

/-- **C40 (partial).** What a negative count does instead, in the wrapping build: `times(n)` passes on the first `2^64 + n` items and then ends, staying ended. -/
theorem C40_negative_release_partial (c : Cfg) (hp : c.profile = .release) (nx : σ → σ × Item) (s : σ) (n : Int) (hn : n < 0)
    (hmin : -9223372036854775808 ≤ n) (k : Nat) :
    nth (timesNext c nx) k (timesNew s n) = if (k : Int) < 2 ^ 64 + n then nth nx k s else none := by
  by_cases hk : (k : Int) < 2 ^ 64 + n
  · have h1 := times_wrap hp (nx := nx) hn hmin s k (by omega)
    rw [if_pos hk, nth_eq, nth_eq, h1]
    have hne : ¬ n = wrap64 (k : Int) := wrap_ne hmin hn (by omega) (by omega)
    simp only [timesNext, hne, if_false, wrap_step hp]
  · rw [if_neg hk, nth_eq]
    obtain ⟨d, rfl⟩ : ∃ d, k = (18446744073709551616 + n).toNat + d := ⟨k - (18446744073709551616 + n).toNat, by omega⟩
    have hw : wrap64 (((18446744073709551616 + n).toNat : Nat) : Int) = n := by
      unfold wrap64; rw [Int.bmod_def]; split <;> omega
    have : after (timesNext c nx) ((18446744073709551616 + n).toNat + d) (timesNew s n) =
        ⟨after nx (18446744073709551616 + n).toNat s, n, n⟩ := by
      rw [after_add, times_wrap hp hn hmin s _ (by omega), hw]
      clear hk
      induction d with
      | zero => rfl
      | succ d ih => rw [after_succ', ih]; simp [timesNext]
    rw [this]
    simp [timesNext]

example (k : Nat) := C40_negative_release_partial (std .release) rfl (Iter.next (std .release)) ⟨.moment (at_ 2017 1 31 0 0 0), .days 1, false⟩ (-1)
  (by decide) (by decide) k

/-- **C40 (partial).** And in the checked build: `2^63 - 1` items, and then every call panics. -/
theorem C40_negative_debug_partial (c : Cfg) (hp : c.profile = .debug) (nx : σ → σ × Item) (s : σ) (n : Int) (hn : n < 0) (k : Nat) :
    nth (timesNext c nx) k (timesNew s n) = if (k : Int) < 2 ^ 63 - 1 then nth nx k s else some .panic := by
  by_cases hk : (k : Int) < 2 ^ 63 - 1
  · rw [if_pos hk]; exact C40_refuted c nx s n hn k (by omega)
  · rw [if_neg hk, nth_eq]
    obtain ⟨d, rfl⟩ : ∃ d, k = 9223372036854775807 + d := ⟨k - 9223372036854775807, by omega⟩
    have hadd : (c.add 9223372036854775807 1 : Out Int) = .panic := by
      unfold Cfg.add Cfg.chk
      rw [if_neg (by unfold InI64; omega), hp]
    have hne : ¬ n = 9223372036854775807 := by omega
    have : after (timesNext c nx) (9223372036854775807 + d) (timesNew s n) =
        ⟨after nx 9223372036854775807 s, n, 9223372036854775807⟩ := by
      rw [after_add, times_neg hn s _ (Nat.le_refl _)]
      clear hk
      induction d with
      | zero => rfl
      | succ d ih => rw [after_succ', ih]; simp only [timesNext, hne, if_false, hadd]
    rw [this]
    simp only [timesNext, hne, if_false, hadd]

/-- A negative count of a live iterator. -/
example : nth (timesNext (std .release) (Iter.next (std .release))) 2 (timesNew ⟨.moment (at_ 2017 1 1 0 0 0), .days 1, false⟩ (-5)) =
    some (.ok (.moment (at_ 2017 1 3 0 0 0))) := by decide +kernel
example : (std .release).profile = .release ∧ (std .debug).profile = .debug := ⟨rfl, rfl⟩

end Props
