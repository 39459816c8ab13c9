import Verif.Spec.MovedPipeline
import Verif.Props.Moves
import Verif.Props.Pipeline

/-!
# C156: adaptors on an iterator that has been moved
-/

namespace Props
open Kairos Spec

private theorem after_alike {c : Cfg} (hc : Sane c) {u : TUnit} {n : Int} (hn : InI64 n) (ops : List IterOp) :
    ∀ {it : Iter} {p : Cursor}, Alike c u n it p → Alike c u n (moved c it ops) (p.after c (amt u n) ops) := by
  induction ops with
  | nil => intro it p h; exact h
  | cons op ops ih => intro it p h; exact ih (call_alike hc hn h op).1

private theorem next_fst (c : Cfg) (it : Iter) : (IterOp.next.call c it).1 = (Iter.next c it).1 := by
  simp only [IterOp.call]
  rcases Iter.next c it with ⟨it', _ | r⟩ <;> rfl

private theorem nth_moved (c : Cfg) (k : Nat) : ∀ it : Iter,
    nth (Iter.next c) k it = (Iter.next c (moved c it (List.replicate k .next))).2 := by
  induction k with
  | zero => intro it; rfl
  | succ k ih =>
    intro it
    rw [nth, ih]
    simp only [List.replicate_succ, moved, List.foldl_cons, next_fst]

/-- There is something to give out: `next` has been called, or the place is a date. -/
private def Ready (p : Cursor) : Prop := p.started = true ∨ ∃ v, p.place = .value v

private theorem ready_next {c : Cfg} {step : TT} (p : Cursor) : Ready (p.call c step .next).1 := by
  left
  by_cases hs : p.started = true
  · simp only [Cursor.call, hs, if_true, Cursor.move]
    split <;> rfl
  · simp only [Cursor.call, hs]
    rfl

private theorem ready_after {c : Cfg} {step : TT} (k : Nat) : ∀ {p : Cursor}, Ready p → Ready (p.after c step (List.replicate k .next)) := by
  induction k with
  | zero => intro p h; exact h
  | succ k ih => intro p h; exact ih (ready_next p)

private theorem next_says {c : Cfg} (hc : Sane c) {u : TUnit} {n : Int} (hn : InI64 n) {it : Iter} {p : Cursor} (h : Alike c u n it p)
    (hr : Ready p) :
    (∃ o, (Iter.next c it).2 = some o ∧ Says (p.nextAnswer c (amt u n)) o) ∧
    (∀ v, p.nextAnswer c (amt u n) = .value v → ∃ m : Moment, v = .moment m ∧ m.Valid c) := by
  have place : ∀ {it : Iter} {q : Cursor}, Alike c u n it q → ∀ v, q.place = .value v → ∃ m : Moment, v = .moment m ∧ m.Valid c := by
    intro it q hq v hv
    rcases hq.place with ⟨m, hm, hp, -⟩ | ⟨hb, -⟩
    · rw [hv] at hp; cases hp; exact ⟨m, rfl, hm⟩
    · exact absurd hv (hb v)
  obtain ⟨h1, h2⟩ := call_alike hc hn h .next
  unfold Cursor.nextAnswer
  by_cases hs : p.started = true
  · simp only [Cursor.call, hs, if_true] at h1 h2 ⊢
    refine ⟨?_, place h1⟩
    simp only [IterOp.call] at h2
    rcases hx : Iter.next c it with ⟨it', _ | r⟩
    · rw [hx] at h2
      cases hp : (p.move c (amt u n) .plus).place <;> rw [hp] at h2 <;> cases h2
    · rw [hx] at h2
      refine ⟨r, rfl, ?_⟩
      simp only at h2
      cases hp : (p.move c (amt u n) .plus).place <;> rw [hp] at h2 <;> cases r <;> cases h2 <;> rfl
  · have hs' : p.started = false := by cases hp : p.started <;> simp_all
    simp only [hs', Bool.false_eq_true, if_false]
    refine ⟨?_, place h⟩
    obtain ⟨v, hv⟩ : ∃ v, p.place = .value v := hr.resolve_left hs
    rcases h.place with ⟨m, hm, hp, hh⟩ | ⟨hb, -⟩
    · have hf : it.hadFirst = false := h.started.trans hs'
      refine ⟨.ok it.base, ?_, ?_⟩
      · simp only [Iter.next, hf, Bool.not_false, if_true]
      · rw [hp, h.base, hh]; rfl
    · exact absurd hv (hb v)

private theorem base_calls {c : Cfg} (hc : Sane c) {u : TUnit} {n : Int} (hn : InI64 n) {it : Iter} {p : Cursor} (h : Alike c u n it p)
    (hr : Ready p) :
    Sound ⟨Iter, fun _ => Iter.next c, it⟩ (p.nextCalls c (amt u n)) ∧ Conv ⟨Iter, fun _ => Iter.next c, it⟩ (p.nextCalls c (amt u n)) ∧
      Dates c (p.nextCalls c (amt u n)) := by
  have key := fun k => next_says hc hn (after_alike hc hn (List.replicate k .next) h) (ready_after k hr)
  refine ⟨fun r k _ => .inr ?_, fun k _ => ⟨0, fun r _ => ?_⟩, fun k v hv => ?_⟩
  · obtain ⟨o, ho, hs⟩ := (key k).1
    show (p.nextCalls c (amt u n) k).Was (nth (Iter.next c) k it)
    rw [nth_moved, ho]; exact hs
  · obtain ⟨o, ho, hs⟩ := (key k).1
    show nth (Iter.next c) k it ≠ some .oof
    rw [nth_moved, ho]
    intro e
    cases e
    revert hs
    cases (p.after c (amt u n) (List.replicate k .next)).nextAnswer c (amt u n) <;> intro hs <;> cases hs
  · unfold Cursor.nextCalls at hv
    injection hv with hv
    exact (key k).2 v hv

/-- **C156.** Any calls of `next`, `skip` and `rollback`, and then any adaptors: every call of `next` returns what the chain of adaptors
makes of the items from where the iterator is then, up to a call that never returns, if there is one. (Not if moving failed before `next`
was ever called: then the first item is no date, see C152.) -/
theorem C156_calls (c : Cfg) (hc : Sane c) (m : Moment) (hm : m.Valid c) (u : TUnit) (n : Int) (hn : InI64 n) (it : Iter)
    (hit : Iter.build m (amt u n) = .ok it) (ops : List IterOp)
    (hr : ((Cursor.begin m).after c (amt u n) ops).started = true ∨ ∃ v, ((Cursor.begin m).after c (amt u n) ops).place = .value v)
    (as : List Adaptor) (ht : ∀ a ∈ as, a.Typed c) (calls : Nat → Response)
    (hs : Chain c.profile as (((Cursor.begin m).after c (amt u n) ops).nextCalls c (amt u n)) calls) (k : Nat)
    (hk : ∀ j, j ≤ k → calls j ≠ .never) :
    ∃ enough, ∀ rounds, enough ≤ rounds → (calls k).Was ((chained c (moved c it ops) as).call rounds k) := by
  obtain ⟨h1, h2, h3⟩ := base_calls hc hn (after_alike hc hn ops (alike_begin hm hit)) hr
  obtain ⟨g1, g2, -⟩ := chain_calls hs ht h1 h2 h3
  obtain ⟨B, hB⟩ := g2.upto hk
  refine ⟨B, fun r hr => ?_⟩
  rcases g1 r k (fun j hj => hB r hr j (by omega)) with ho | hw
  · exact absurd ho (hB r hr k (Nat.le_refl _))
  · exact hw

/-- **C156.** And a call that should not return does not. -/
theorem C156_never (c : Cfg) (hc : Sane c) (m : Moment) (hm : m.Valid c) (u : TUnit) (n : Int) (hn : InI64 n) (it : Iter)
    (hit : Iter.build m (amt u n) = .ok it) (ops : List IterOp)
    (hr : ((Cursor.begin m).after c (amt u n) ops).started = true ∨ ∃ v, ((Cursor.begin m).after c (amt u n) ops).place = .value v)
    (as : List Adaptor) (ht : ∀ a ∈ as, a.Typed c) (calls : Nat → Response)
    (hs : Chain c.profile as (((Cursor.begin m).after c (amt u n) ops).nextCalls c (amt u n)) calls) (k : Nat)
    (hk : ∀ j, j < k → calls j ≠ .never) (hn' : calls k = .never) :
    ∃ enough, ∀ rounds, enough ≤ rounds → (∀ j, j < k → (calls j).Was ((chained c (moved c it ops) as).call rounds j)) ∧
      (chained c (moved c it ops) as).call rounds k = some .oof := by
  obtain ⟨h1, h2, h3⟩ := base_calls hc hn (after_alike hc hn ops (alike_begin hm hit)) hr
  obtain ⟨g1, g2, -⟩ := chain_calls hs ht h1 h2 h3
  have hB : ∃ B, ∀ r, B ≤ r → ∀ j, j < k → (chained c (moved c it ops) as).call r j ≠ some .oof := by
    cases k with
    | zero => exact ⟨0, fun r _ j hj => by omega⟩
    | succ k =>
      obtain ⟨B, hB⟩ := g2.upto (k := k) (fun j hj => hk j (by omega))
      exact ⟨B, fun r hr j hj => hB r hr j (by omega)⟩
  obtain ⟨B, hB⟩ := hB
  refine ⟨B, fun r hr => ⟨fun j hj => ?_, ?_⟩⟩
  · rcases g1 r j (fun i hi => hB r hr i (by omega)) with ho | hw
    · exact absurd ho (hB r hr j hj)
    · exact hw
  · rcases g1 r k (fun i hi => hB r hr i hi) with ho | hw
    · exact ho
    · rw [hn'] at hw
      revert hw
      cases (List.foldl (Chained.adapt c) ⟨Iter, fun _ => Iter.next c, moved c it ops⟩ as).call r k <;> exact fun hw => hw.elim

private theorem move_place (c : Cfg) (step : TT) (o : Op) (p : Cursor) :
    (p.move c step o).place = p.place.andThen (fun v => oneStep c (o.app v step)) ∧ (p.move c step o).started = p.started := by
  unfold Cursor.move
  cases p.place.andThen (fun v => oneStep c (o.app v step)) <;> exact ⟨rfl, rfl⟩

private theorem started_calls {c : Cfg} {step : TT} {m : Moment} (k : Nat) : ∀ {p : Cursor} {j : Nat}, p.started = true →
    p.place = itemEnds c m step j → p.nextCalls c step k = plainCalls c m step (j + k + 1) := by
  induction k with
  | zero =>
    intro p j hs hp
    simp only [Cursor.nextCalls, List.replicate_zero, Cursor.after, List.foldl_nil, Cursor.nextAnswer, hs, if_true, plainCalls,
      (move_place c step .plus p).1, hp]
    rfl
  | succ k ih =>
    intro p j hs hp
    have h : (p.call c step .next).1 = p.move c step .plus := by simp only [Cursor.call, hs, if_true]
    have e : p.nextCalls c step (k + 1) = (p.move c step .plus).nextCalls c step k := by
      simp only [Cursor.nextCalls, Cursor.after, List.replicate_succ, List.foldl_cons, h]
    rw [e, ih (j := j + 1) ((move_place c step .plus p).2.trans hs) (by rw [(move_place c step .plus p).1, hp]; rfl)]
    congr 1
    omega

/-- **C156.** If the iterator is at a date, it goes on from there like a new one: with that date, if `next` has not been called, with the
date one step on otherwise. -/
theorem C156_like_a_new_one (c : Cfg) (step : TT) (p : Cursor) (m : Moment) (hp : p.place = .value (.moment m)) (k : Nat) :
    p.nextCalls c step k = plainCalls c m step (if p.started then k + 1 else k) := by
  by_cases hs : p.started = true
  · rw [started_calls k (j := 0) hs hp, if_pos hs, Nat.zero_add]
  · rw [if_neg hs]
    cases k with
    | zero =>
      simp only [Cursor.nextCalls, List.replicate_zero, Cursor.after, List.foldl_nil, Cursor.nextAnswer, hs]
      rw [hp]
      rfl
    | succ k =>
      have h : (p.call c step .next).1 = { p with started := true } := by simp only [Cursor.call, hs]; rfl
      have e : p.nextCalls c step (k + 1) = ({ p with started := true } : Cursor).nextCalls c step k := by
        simp only [Cursor.nextCalls, Cursor.after, List.replicate_succ, List.foldl_cons, h]
      rw [e, started_calls (p := { p with started := true }) k (j := 0) rfl hp, Nat.zero_add]

private theorem bad_calls {c : Cfg} {step : TT} (k : Nat) : ∀ {p : Cursor}, (∀ v, p.place ≠ .value v) → ∀ v,
    p.nextCalls c step k ≠ .item (.value v) := by
  have hb : ∀ {p : Cursor} (o : Op), (∀ v, p.place ≠ .value v) → (p.move c step o).place = p.place := by
    intro p o h
    rw [(move_place c step o p).1]
    cases hp : p.place with
    | value v => exact absurd hp (h v)
    | refused e => rfl
    | overflow => rfl
  induction k with
  | zero =>
    intro p h v e
    simp only [Cursor.nextCalls, List.replicate_zero, Cursor.after, List.foldl_nil, Cursor.nextAnswer] at e
    injection e with e
    have e' : (if p.started then (p.move c step .plus).place else p.place) = .value v := e
    rw [hb _ h, ite_self] at e'
    exact h v e'
  | succ k ih =>
    intro p h v
    have e : p.nextCalls c step (k + 1) = (p.call c step .next).1.nextCalls c step k := by
      simp only [Cursor.nextCalls, Cursor.after, List.replicate_succ, List.foldl_cons]
    rw [e]
    refine ih (fun v => ?_) v
    unfold Cursor.call
    simp only
    split
    · simp only [hb _ h]; exact h v
    · exact h v

/-- **C156.** With a positive step (up to 4.29 billion years) every call returns, however the iterator was moved and whatever the adaptors. -/
theorem C156_returns (c : Cfg) (hc : Sane c) (m : Moment) (hm : m.Valid c) (u : TUnit) (n : Int) (hn : 0 < n)
    (hmax : n * u.secs ≤ 133500000000000000) (it : Iter) (hit : Iter.build m (amt u n) = .ok it) (ops : List IterOp)
    (hr : ((Cursor.begin m).after c (amt u n) ops).started = true ∨ ∃ v, ((Cursor.begin m).after c (amt u n) ops).place = .value v)
    (as : List Adaptor) (ht : ∀ a ∈ as, a.Typed c) (calls : Nat → Response)
    (hs : Chain c.profile as (((Cursor.begin m).after c (amt u n) ops).nextCalls c (amt u n)) calls) (k : Nat) :
    calls k ≠ .never ∧ ∃ enough, ∀ rounds, enough ≤ rounds → (calls k).Was ((chained c (moved c it ops) as).call rounds k) := by
  have hn64 : InI64 n := by
    have : 1 ≤ u.secs := by cases u <;> decide
    have := Int.mul_le_mul_of_nonneg_left this (by omega : (0 : Int) ≤ n)
    unfold InI64; omega
  have ha := after_alike hc hn64 ops (alike_begin hm hit)
  have hrun : RunsOut (((Cursor.begin m).after c (amt u n) ops).nextCalls c (amt u n)) := by
    refine ⟨fun k h => (by cases h), ?_⟩
    rcases ha.place with ⟨m', hm', hp, -⟩ | ⟨hb, -⟩
    · have hit' : Iter.build m' (amt u n) = .ok ⟨.moment m', amt u n, false⟩ := by cases u <;> rfl
      obtain ⟨L, Y, M, D, H, MI, S, -, herr⟩ := forward_ends c hc m' hm' u n hn hmax _ hit'
      refine ⟨L, fun k hk v hv => ?_⟩
      rw [C156_like_a_new_one c (amt u n) _ m' hp] at hv
      have hk' : L ≤ if ((Cursor.begin m).after c (amt u n) ops).started then k + 1 else k := by split <;> omega
      have := C143_items c hc m' hm' u n hn64 _ hit' (if ((Cursor.begin m).after c (amt u n) ops).started then k + 1 else k)
      rw [herr _ hk'] at this
      have hv : itemEnds c m' (amt u n) (if ((Cursor.begin m).after c (amt u n) ops).started then k + 1 else k) = .value v := by
        unfold plainCalls at hv; injection hv
      have this : Says (itemEnds c m' (amt u n) (if ((Cursor.begin m).after c (amt u n) ops).started then k + 1 else k))
        (.err (.outOfBounds Y M D H MI S)) := this
      rw [hv] at this
      cases this
    · exact ⟨0, fun k _ v => bad_calls k hb v⟩
  have hne := (chain_runsOut hs hrun).1
  exact ⟨hne k, C156_calls c hc m hm u n hn64 it hit ops hr as ht calls hs k (fun j _ => hne j)⟩

/-! ### a case -/

/-- A daily iterator from Monday 9 January 2017, `next` (the 9th), twice `skip` (to the 11th), `rollback` (to the 10th): from there, the Fridays. -/
example : (List.range 3).map ((chained (std .debug) (moved (std .debug) ⟨.moment (at_ 2017 1 9 0 0 0), .days 1, false⟩
      [.next, .skip, .skip, .rollback]) [.every (.day .friday), .times 2]).call 40) =
    [some (.ok (.moment (at_ 2017 1 13 0 0 0))), some (.ok (.moment (at_ 2017 1 20 0 0 0))), none] := by decide +kernel
example : ((Cursor.begin (at_ 2017 1 9 0 0 0)).after (std .debug) (.days 1) [.next, .skip, .skip, .rollback]).started = true ∧
    (List.range 2).map (((Cursor.begin (at_ 2017 1 9 0 0 0)).after (std .debug) (.days 1) [.next, .skip, .skip, .rollback]).nextCalls
      (std .debug) (.days 1)) = [.item (.value (.moment (at_ 2017 1 11 0 0 0))), .item (.value (.moment (at_ 2017 1 12 0 0 0)))] := by
  decide +kernel

/-- Before the first `next` the place itself comes first: `skip` once, from the 9th, and cut after three items. -/
example (calls : Nat → Response) (hs : Chain .debug [.times 3]
    (((Cursor.begin (at_ 2017 1 9 0 0 0)).after (std .debug) (.days 1) [.skip]).nextCalls (std .debug) (.days 1)) calls) :
    calls 0 = .item (.value (.moment (at_ 2017 1 10 0 0 0))) ∧ calls 3 = .ended ∧
    ∃ enough, ∀ rounds, enough ≤ rounds → (calls 3).Was ((chained (std .debug)
      (moved (std .debug) ⟨.moment (at_ 2017 1 9 0 0 0), .days 1, false⟩ [.skip]) [.times 3]).call rounds 3) := by
  have hn : ∀ j, calls j ≠ .never := by
    intro j
    cases hs with
    | step h hs =>
      cases hs
      obtain rfl := h
      simp only [firstOnes]
      split <;> (try split) <;> intro e <;> cases e
  have h := C156_calls (std .debug) (by decide) (at_ 2017 1 9 0 0 0) (by decide) .day 1 (by decide) _ rfl [.skip]
    (.inr ⟨.moment (at_ 2017 1 10 0 0 0), by decide +kernel⟩) [.times 3] (fun a ha => by
      simp only [List.mem_cons, List.not_mem_nil, or_false] at ha
      subst ha; show InI64 3; decide) calls hs 3 (fun j _ => hn j)
  refine ⟨?_, ?_, h⟩
  all_goals
    cases hs with
    | step h hs =>
      cases hs
      obtain rfl := h
      decide +kernel

end Props
