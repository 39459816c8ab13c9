import Verif.Props.Kinds
import Verif.Props.Laws
import Verif.Props.Latching

/-!
# C91: how deep the calls nest and how often the loops turn

`Eval.run c n k` is the evaluator with room for `n` calls inside each other; it answers `.oof` exactly
when the Rust code would have to go deeper. `dayLoop c y n mo d` is the loop over months of
src/util.rs:22-25 cut off after `n` rounds, again with the answer `.oof` if that is too early.
-/

namespace Props
open Kairos Spec

/-- The calls nest at most twice as deep as the expression is large. -/
theorem C91_depth_partial (c : Cfg) (t : TT) (n : Nat) (hn : 2 * t.size < n) :
    Eval.run c n (.calculate t) = calculate c t ∧ calculate c t ≠ .oof :=
  ⟨run_eq_exec c n _ hn, exec_ne_oof c _⟩

example := C91_depth_partial (std .debug) (.endOfMonth (.moment (at_ 2017 1 31 0 0 0) + .days 3)) 9 (by decide)

theorem run_node (c : Cfg) (x a : TT) (o : Op) (n : Nat) :
    Eval.run c (n + 1) (.calculate (o.app x a)) =
      Eval.run c n (match o with | .plus => .add x a | .minus => .sub x a) := by
  cases o <;> rfl

theorem run_down (c : Cfg) (x a b : TT) (o p : Op) (n : Nat) (hb : b.isAAmount = true)
    (h : Eval.run c n (match o with | .plus => .add x a | .minus => .sub x a) = .oof) :
    Eval.run c (n + 1) (match p with | .plus => .add (o.app x a) b | .minus => .sub (o.app x a) b) = .oof := by
  have e1 : Op.app .plus x a = .addition x a := rfl
  have e2 : Op.app .minus x a = .subtraction x a := rfl
  obtain ⟨u, k, rfl⟩ := amount_cases hb
  cases o <;> cases p <;> cases u <;> simp only [e1, e2, amt] at h ⊢ <;> rw [Eval.run] <;>
    simp only [Eval.body, Eval.add, Eval.sub, h] <;> rfl

theorem run_shallow (c : Cfg) : ∀ (steps : List (Op × TT)) (x a : TT) (o : Op) (n : Nat),
    (∀ s ∈ steps, s.2.isAAmount = true) →
    Eval.run c n (match o with | .plus => .add x a | .minus => .sub x a) = .oof →
    ∃ (y b : TT) (p : Op), chain (o.app x a) steps = p.app y b ∧
      Eval.run c (n + steps.length) (match p with | .plus => .add y b | .minus => .sub y b) = .oof
  | [], x, a, o, _, _, h => ⟨x, a, o, rfl, h⟩
  | s :: l, x, a, o, n, hs, h => by
    obtain ⟨y, b, p, e, h'⟩ := run_shallow c l (o.app x a) s.2 s.1 (n + 1) (fun t ht => hs t (by simp [ht]))
      (run_down c x a s.2 o s.1 n (hs s (by simp)) h)
    exact ⟨y, b, p, e, by rw [List.length_cons, ← Nat.add_assoc, Nat.add_right_comm]; exact h'⟩

/-- `x ± a₁ ± a₂ ± …` with `k` amounts needs calls nested more than `k` deep.
(Partial: the depth that the property wants to exclude.) -/
theorem C91_chains_partial (c : Cfg) (x : TT) (steps : List (Op × TT)) (hs : ∀ s ∈ steps, s.2.isAAmount = true)
    (n : Nat) (hn : n ≤ steps.length) : Eval.run c n (.calculate (chain x steps)) = .oof := by
  cases n with
  | zero => rfl
  | succ n =>
    rw [← List.take_append_drop (steps.length - (n + 1)) steps, chain_append]
    generalize chain x _ = x'
    have hl : (steps.drop (steps.length - (n + 1))).length = n + 1 := by rw [List.length_drop]; omega
    have hd : ∀ s ∈ steps.drop (steps.length - (n + 1)), s.2.isAAmount = true :=
      fun s h => hs s (List.mem_of_mem_drop h)
    revert hl hd
    generalize steps.drop _ = rest
    intro hl hd
    cases rest with
    | nil => simp at hl
    | cons s l =>
      obtain ⟨y, b, p, e, h⟩ := run_shallow c l x' s.2 s.1 0 (fun t ht => hd t (by simp [ht])) rfl
      have e' : chain x' (s :: l) = p.app y b := e
      have : 0 + l.length = n := by simp at hl; omega
      rw [this] at h
      rw [e', run_node]
      exact h

example := C91_chains_partial (std .debug) (.moment (at_ 2024 2 29 12 0 0)) [(.plus, .days 3), (.minus, .hours 5)] (by decide) 2 (by decide)

/-- In such a chain every amount takes at most four calls more.
(Partial. Missing: a bound that does not depend on the length of the chain, which does not exist, see `C91_chains_partial`.) -/
theorem C91_chains_enough_partial (c : Cfg) (x : TT) (hx : x.isLeaf) (steps : List (Op × TT))
    (hs : ∀ s ∈ steps, s.2.isAAmount = true) (n : Nat) (hn : 4 * steps.length + 2 < n) :
    Eval.run c n (.calculate (chain x steps)) = calculate c (chain x steps) := by
  have size_amt : ∀ t : TT, t.isLeaf → t.size = 1 := by
    intro t h; cases t <;> simp_all [TT.isLeaf, TT.isAAmount, TT.isMoment, TT.size]
  have size_chain : ∀ (l : List (Op × TT)) (y : TT), (∀ s ∈ l, s.2.isAAmount = true) →
      (chain y l).size = y.size + 2 * l.length := by
    intro l
    induction l with
    | nil => intro y _; rfl
    | cons s l ih =>
      intro y h
      have h1 : (s.1.app y s.2).size = y.size + 2 := by
        have := size_amt s.2 (by simp [TT.isLeaf, h s (by simp)])
        cases s.1
        · show (TT.addition _ _).size = _; simp [TT.size, this]
        · show (TT.subtraction _ _).size = _; simp [TT.size, this]
      have h2 : chain y (s :: l) = chain (s.1.app y s.2) l := rfl
      rw [h2, ih _ (fun t ht => h t (by simp [ht])), h1, List.length_cons]
      omega
  have := size_chain steps x hs
  have := size_amt x hx
  exact (C91_depth_partial c _ n (by omega)).1

example : (TT.moment (at_ 2024 2 29 12 0 0)).isLeaf ∧
    (∀ s ∈ [(Op.plus, TT.days 3), (Op.minus, TT.hours 5)], s.2.isAAmount = true) ∧
    4 * [(Op.plus, TT.days 3), (Op.minus, TT.hours 5)].length + 2 < 11 :=
  ⟨rfl, by decide, by decide⟩

theorem chain_zero (c : Cfg) (hc : Sane c) (m : Moment) (hm : m.Valid c) (hz : m.nano = 0) (k : Nat) :
    calculate c (chain (.moment m) (List.replicate k (.plus, .seconds 0))) = .ok (.moment m) ∧
      kind (chain (.moment m) (List.replicate k (.plus, .seconds 0))) = some .moment ∧
      (chain (.moment m) (List.replicate k (.plus, .seconds 0))).isSubtraction = false ∧
      endMarked (chain (.moment m) (List.replicate k (.plus, .seconds 0))) = false := by
  induction k with
  | zero => exact ⟨calculate_leaf c (by rfl), rfl, rfl, rfl⟩
  | succ k ih =>
    obtain ⟨h1, h2, h3, h4⟩ := ih
    have e : chain (.moment m) (List.replicate (k + 1) (.plus, .seconds 0)) =
        chain (.moment m) (List.replicate k (.plus, .seconds 0)) + .seconds 0 := by
      rw [List.replicate_succ']; simp [chain, Op.app]
    have hk : kind (chain (.moment m) (List.replicate k (.plus, .seconds 0)) + .seconds 0) = some .moment := by
      show kind (.addition _ _) = _
      simp [kind, h2, h3, h4]
    rw [e]
    refine ⟨?_, hk, rfl, rfl⟩
    rw [(C77_values_combine c _ (.seconds 0) _ (.seconds 0) h1 (calculate_leaf c (by rfl))).1 (by rw [hk]; simp)]
    have := (C19_zero c hc m hm .second).1
    simp only [amt] at this
    rw [this]
    cases m; simp_all

/-- No depth is enough for all expressions, not even for those that stand for a moment: for every `n` there is one
that has a value and whose evaluation nests calls more than `n` deep. -/
theorem C91_refuted (c : Cfg) (hc : Sane c) (m : Moment) (hm : m.Valid c) (hz : m.nano = 0) (n : Nat) :
    ∃ t, calculate c t = .ok (.moment m) ∧ Eval.run c n (.calculate t) = .oof :=
  ⟨chain (.moment m) (List.replicate n (.plus, .seconds 0)), (chain_zero c hc m hm hz n).1,
    C91_chains_partial c _ _ (by intro s h; rw [List.eq_of_mem_replicate h]; rfl) n (by simp)⟩

example : Sane (std .debug) ∧ (at_ 2024 2 29 12 0 0).Valid (std .debug) ∧ (at_ 2024 2 29 12 0 0).nano = 0 :=
  ⟨sane_std _, by decide +kernel, rfl⟩

/-- What an iterator that has failed works out when it is asked for the `(k+1)`-th further item. -/
theorem latched_grows {c : Cfg} {e : ErrorKind} {it : Iter} (h : Latched c e it) (k : Nat) :
    (after (Iter.next c) k it).base = chain it.base (List.replicate k (.plus, it.increment)) ∧
      (after (Iter.next c) k it).increment = it.increment := by
  induction k generalizing it with
  | zero => exact ⟨rfl, rfl⟩
  | succ k ih =>
    obtain ⟨h1, h2⟩ := h.next
    obtain ⟨e1, e2⟩ := ih h1
    have hb : (it.next c).1.base = it.base + it.increment ∧ (it.next c).1.increment = it.increment := by
      have := (add_failing h.amount h.node h.fails).1
      simp only [Iter.next, h.started, Bool.not_true, Bool.false_eq_true, if_false, Iter.skip, Iter.recalculate, this]
      exact ⟨trivial, trivial⟩
    simp only [after]
    rw [e1, e2, hb.1, hb.2]
    exact ⟨rfl, rfl⟩

theorem latched_depth (c : Cfg) (e : ErrorKind) (it : Iter) (h : Latched c e it) (n : Nat) :
    nth (Iter.next c) n it = some (.err e) ∧
      Eval.run c n (.calculate (after (Iter.next c) n it).base) = .oof := by
  constructor
  · exact h.nth n
  · rw [(latched_grows h n).1]
    exact C91_chains_partial c _ _ (by intro s hs; rw [List.eq_of_mem_replicate hs]; exact h.amount) n (by simp)

/-- Nor is any depth enough for an iterator that has failed: it gives the same error for ever, but works it out
anew each time from an expression that is longer by one, so `n` calls after the failed one it nests more than `n`
deep. -/
theorem C91_refuted_iterators (c : Cfg) (e : ErrorKind) (it it' : Iter) (hs : it.hadFirst = true)
    (hi : it.increment.isAAmount = true) (h : it.next c = (it', some (.err e))) (n : Nat) :
    nth (Iter.next c) n it' = some (.err e) ∧
      Eval.run c n (.calculate (after (Iter.next c) n it').base) = .oof := by
  have := latched_of_next hs hi (by rw [h])
  rw [h] at this
  exact latched_depth c e it' this n

/-- An iterator by years that has run past the last year is such an iterator. -/
example : let it := after (Iter.next (std .debug)) 1 ⟨.moment (at_ 262143 5 1 0 0 0), .years 1, false⟩
    it.hadFirst = true ∧ it.increment.isAAmount = true ∧
      (it.next (std .debug)).2 = some (.err (.outOfBounds 262144 5 0 0 0 0)) := by decide +kernel

/-! ## Rounds of the loops -/

/-- A day number above `31 · (k + 1)` needs more than `k` rounds of the loop over months, and one of at most
`28 · (k + 1)` does not.
(Partial: the number of rounds grows with the amount.) -/
theorem C91_day_rounds_partial (c : Cfg) (y : Int) (k : Nat) (mo d : Int) (hmo : 0 ≤ mo) (hm : InI64 (mo + k)) (hd : InI64 d) :
    (31 * ((k : Int) + 1) < d → (dayLoop c y k mo d : Out (Int × Int)) = .oof) ∧
    (d ≤ 28 * ((k : Int) + 1) → (dayLoop c y k mo d : Out (Int × Int)) ≠ .oof) := by
  induction k generalizing mo d with
  | zero =>
    have hr := numDays_range y mo
    unfold dayLoop
    constructor
    · intro h; rw [if_pos (by simp at h; omega)]
    · intro h; rw [if_neg (by simp at h; omega)]; simp
  | succ k ih =>
    have hr := numDays_range y mo
    unfold dayLoop
    unfold InI64 at hm hd
    by_cases hp : d > getNumOfDaysInMonth y mo
    · have h1 : InI64 (d - getNumOfDaysInMonth y mo) := by unfold InI64; omega
      have h2 : InI64 (mo + 1) := by unfold InI64; omega
      have := ih (mo + 1) (d - getNumOfDaysInMonth y mo) (by omega) (by unfold InI64; omega) h1
      rw [if_pos hp]
      simp only [Cfg.sub, Cfg.add, chk_ok_of_in c h1, chk_ok_of_in c h2, OutE.ok_bind]
      exact ⟨fun h => this.1 (by omega), fun h => this.2 (by omega)⟩
    · rw [if_neg hp]
      exact ⟨fun h => absurd h (by omega), fun _ => by simp⟩

example : (0 : Int) ≤ 3 ∧ InI64 (3 + (1000 : Nat)) ∧ InI64 31032 ∧ 31 * (((1000 : Nat) : Int) + 1) < 31032 := by decide

/-- A month number above `12 · (k + 1)`, and no other, needs more than `k` rounds of the loop over years.
(Partial: the number of rounds grows with the amount.) -/
theorem C91_month_rounds_partial (c : Cfg) (k : Nat) (y mo : Int) (hy : InI64 y) (hyk : InI64 (y + k)) (hm : InI64 mo) :
    (monthLoop c k y mo : Out (Int × Int)) = .oof ↔ 12 * ((k : Int) + 1) < mo := by
  induction k generalizing y mo with
  | zero =>
    unfold monthLoop
    by_cases h : mo > 12
    · rw [if_pos h]; simp; omega
    · rw [if_neg h]; simp; omega
  | succ k ih =>
    unfold InI64 at hyk hm hy
    unfold monthLoop
    by_cases h : mo > 12
    · have h1 : InI64 (y + 1) := by unfold InI64; omega
      have h2 : InI64 (mo - 12) := by unfold InI64; omega
      rw [if_pos h]
      simp only [Cfg.sub, Cfg.add, chk_ok_of_in c h1, chk_ok_of_in c h2, OutE.ok_bind]
      rw [ih (y + 1) (mo - 12) h1 (by unfold InI64; omega) h2]
      omega
    · rw [if_neg h]; simp; omega

example : InI64 2024 ∧ InI64 (2024 + (1000 : Nat)) ∧ InI64 100000 := by decide

end Props
