import Verif.Spec.Cursor
import Verif.Props.SmallerUnits
import Verif.Props.IterOps

/-!
# C115, C116: next, skip and rollback in any order
-/

namespace Props
open Kairos Spec

private theorem calc_moment {c : Cfg} {inc : TT} (hi : inc.isAAmount = true) (a : Moment) (mv : Move) (v : TT)
    (h : calculate c (mv.expr inc a) = .ok v) : ∃ b, v = .moment b := by
  obtain ⟨u, n, rfl⟩ := amt_cases hi
  cases mv
  · simp only [Move.expr] at h
    rw [calc_add_moment, exec_addToMoment] at h
    cases u <;> simp only [amt, Eval.addToMoment] at h <;>
      obtain ⟨x, hx, h⟩ := OutE.bind_eq_ok.1 h <;> obtain ⟨q, hq, h⟩ := OutE.bind_eq_ok.1 h <;>
      (obtain ⟨b, e, -⟩ := buildMoment_ok h; exact ⟨b, e⟩)
  · simp only [Move.expr] at h
    rw [calc_sub_moment, exec_subFromMoment] at h
    cases u <;> simp only [amt, Eval.subFromMoment] at h <;>
      obtain ⟨x, hx, h⟩ := OutE.bind_eq_ok.1 h <;> obtain ⟨q, hq, h⟩ := OutE.bind_eq_ok.1 h <;>
      (obtain ⟨b, e, -⟩ := buildMoment_ok h; exact ⟨b, e⟩)

/-- A move of the state. -/
private theorem move_ok {c : Cfg} {inc : TT} {a b : Moment} (s : Bool) (mv : Move)
    (h : calculate c (mv.expr inc a) = .ok (.moment b)) :
    (mv = .forth → Iter.skip c ⟨.moment a, inc, s⟩ = (⟨.moment b, inc, s⟩, .ok ())) ∧
    (mv = .back → Iter.rollback c ⟨.moment a, inc, s⟩ = (⟨.moment b, inc, s⟩, .ok ())) := by
  constructor <;> rintro rfl <;> simp only [Move.expr] at h <;>
    simp only [Iter.skip, Iter.rollback, Iter.recalculate, h]

private theorem move_inv {c : Cfg} {inc : TT} (hi : inc.isAAmount = true) {a : Moment} (s : Bool) (mv : Move)
    (h : (match mv with | .forth => Iter.skip c ⟨.moment a, inc, s⟩ | .back => Iter.rollback c ⟨.moment a, inc, s⟩).2 = .ok ()) :
    ∃ b, calculate c (mv.expr inc a) = .ok (.moment b) := by
  cases hc : calculate c (mv.expr inc a) with
  | ok v => obtain ⟨b, rfl⟩ := calc_moment hi a mv v hc; exact ⟨b, rfl⟩
  | err e => cases mv <;> simp only [Move.expr] at hc <;> simp only [Iter.skip, Iter.rollback, Iter.recalculate, hc] at h <;> cases h
  | panic => cases mv <;> simp only [Move.expr] at hc <;> simp only [Iter.skip, Iter.rollback, Iter.recalculate, hc] at h <;> cases h
  | oof => cases mv <;> simp only [Move.expr] at hc <;> simp only [Iter.skip, Iter.rollback, Iter.recalculate, hc] at h <;> cases h

/-- Whether the history contains a `next`. -/
private def startedAfter (s : Bool) (ops : List IterOp) : Bool := s || ops.contains .next

private theorem run_next_true {c : Cfg} {inc : TT} {a : Moment} :
    IterOp.next.run c ⟨.moment a, inc, true⟩ = Iter.skip c ⟨.moment a, inc, true⟩ := by
  simp only [IterOp.run, Iter.next, Iter.skip, Iter.recalculate, Bool.not_true, Bool.false_eq_true, if_false]
  cases calculate c (.moment a + inc) <;> rfl

private theorem history {c : Cfg} {inc : TT} (hi : inc.isAAmount = true) (ops : List IterOp) : ∀ (s : Bool) (a : Moment),
    (AllOk c ⟨.moment a, inc, s⟩ ops ↔ ∃ r, Follows c inc a (moves s ops) r) ∧
    (∀ r, Follows c inc a (moves s ops) r → runOps c ⟨.moment a, inc, s⟩ ops = ⟨.moment r, inc, startedAfter s ops⟩) := by
  induction ops with
  | nil =>
    intro s a
    refine ⟨⟨fun _ => ⟨a, .here a⟩, fun _ => trivial⟩, fun r h => ?_⟩
    simp only [moves] at h
    cases h
    simp [runOps, startedAfter]
  | cons op ops ih =>
    intro s a
    -- a call that moves
    have moving : ∀ (mv : Move) (s' : Bool), s' = startedAfter s [op] →
        moves s (op :: ops) = mv :: moves s' ops →
        op.run c ⟨.moment a, inc, s⟩ = (match mv with | .forth => Iter.skip c ⟨.moment a, inc, s⟩ | .back => Iter.rollback c ⟨.moment a, inc, s⟩) →
        s' = s →
        (AllOk c ⟨.moment a, inc, s⟩ (op :: ops) ↔ ∃ r, Follows c inc a (moves s (op :: ops)) r) ∧
        (∀ r, Follows c inc a (moves s (op :: ops)) r →
          runOps c ⟨.moment a, inc, s⟩ (op :: ops) = ⟨.moment r, inc, startedAfter s (op :: ops)⟩) := by
      intro mv s' hs' hm hr hss
      subst hss
      have hstart : startedAfter s' (op :: ops) = startedAfter s' ops := by
        simp only [startedAfter, List.contains_cons, List.contains_nil, Bool.or_false] at *
        rw [← Bool.or_assoc, ← hs']
      have step : ∀ b, calculate c (mv.expr inc a) = .ok (.moment b) → op.run c ⟨.moment a, inc, s'⟩ = (⟨.moment b, inc, s'⟩, .ok ()) := by
        intro b hb
        rw [hr]
        cases mv
        · exact (move_ok s' _ hb).1 rfl
        · exact (move_ok s' _ hb).2 rfl
      refine ⟨⟨?_, ?_⟩, ?_⟩
      · rintro ⟨h1, h2⟩
        have h1' := h1
        rw [hr] at h1'
        obtain ⟨b, hb⟩ := move_inv hi s' mv h1'
        rw [step b hb] at h2
        obtain ⟨r, hf⟩ := (ih s' b).1.1 h2
        exact ⟨r, hm ▸ .step a b r mv _ hb hf⟩
      · rintro ⟨r, hf⟩
        rw [hm] at hf
        cases hf with
        | step _ b _ _ _ hb hf =>
          refine ⟨by rw [step b hb], ?_⟩
          rw [step b hb]
          exact (ih s' b).1.2 ⟨r, hf⟩
      · intro r hf
        rw [hm] at hf
        cases hf with
        | step _ b _ _ _ hb hf =>
          simp only [runOps]
          rw [step b hb, hstart]
          exact (ih s' b).2 r hf
    cases op with
    | skip => exact moving .forth s (by simp [startedAfter]) (by cases s <;> rfl) rfl rfl
    | rollback => exact moving .back s (by simp [startedAfter]) (by cases s <;> rfl) rfl rfl
    | next =>
      cases s with
      | true => exact moving .forth true (by simp [startedAfter]) rfl run_next_true rfl
      | false =>
        have e : IterOp.next.run c ⟨.moment a, inc, false⟩ = (⟨.moment a, inc, true⟩, .ok ()) := rfl
        obtain ⟨i1, i2⟩ := ih true a
        refine ⟨⟨?_, ?_⟩, ?_⟩
        · rintro ⟨-, h2⟩
          exact i1.1 h2
        · intro h
          exact ⟨rfl, i1.2 h⟩
        · intro r h
          simp only [runOps]
          rw [e]
          simp only
          rw [i2 r h]
          simp [startedAfter]

private theorem moves_append (ops : List IterOp) : ∀ (s : Bool) (l : List IterOp),
    moves s (ops ++ l) = moves s ops ++ moves (startedAfter s ops) l := by
  induction ops with
  | nil => intro s l; simp [moves, startedAfter]
  | cons op ops ih =>
    intro s l
    cases op <;> cases s <;> simp [moves, ih, startedAfter]

private theorem follows_append {c : Cfg} {inc : TT} {a r : Moment} {l l' : List Move} :
    Follows c inc a (l ++ l') r ↔ ∃ b, Follows c inc a l b ∧ Follows c inc b l' r := by
  induction l generalizing a with
  | nil =>
    constructor
    · intro h; exact ⟨a, .here a, h⟩
    · rintro ⟨b, h1, h2⟩; cases h1; exact h2
  | cons mv l ih =>
    constructor
    · intro h
      cases h with
      | step _ b _ _ _ hb hf =>
        obtain ⟨q, h1, h2⟩ := ih.1 hf
        exact ⟨q, .step _ _ _ _ _ hb h1, h2⟩
    · rintro ⟨q, h1, h2⟩
      cases h1 with
      | step _ b _ _ _ hb hf => exact .step _ _ _ _ _ hb (ih.2 ⟨q, hf, h2⟩)

private theorem built {m : Moment} {inc : TT} {it : Iter} (hit : Iter.build m inc = .ok it) :
    it = ⟨.moment m, inc, false⟩ ∧ inc.isAAmount = true := by
  unfold Iter.build at hit
  split at hit
  · cases hit
  · rename_i h
    cases hit
    exact ⟨rfl, by simpa using h⟩

/-- **C115.** Take an iterator as it was built and any history of calls of next, skip and rollback: all of them succeed and the
next call of next returns `r`, if and only if the moves these calls stand for lead from the base to `r`. -/
theorem C115_position (c : Cfg) (m r : Moment) (inc : TT) (it : Iter) (hit : Iter.build m inc = .ok it) (ops : List IterOp) :
    (AllOk c it ops ∧ ((runOps c it ops).next c).2 = some (.ok (.moment r))) ↔
      Follows c inc m (moves false (ops ++ [.next])) r := by
  obtain ⟨rfl, hi⟩ := built hit
  obtain ⟨h1, h2⟩ := history hi ops (c := c) false m
  rw [moves_append, follows_append, h1]
  have last : ∀ (s : Bool) (b : Moment), (Iter.next c ⟨.moment b, inc, s⟩).2 = some (.ok (.moment r)) ↔
      Follows c inc b (moves s [.next]) r := by
    intro s b
    cases s with
    | false =>
      constructor
      · intro h
        simp [Iter.next] at h
        subst h
        exact .here b
      · intro h
        simp only [moves] at h
        cases h
        rfl
    | true =>
      constructor
      · intro h
        simp only [Iter.next, Iter.skip, Iter.recalculate, Bool.not_true, Bool.false_eq_true, if_false] at h
        refine .step _ r _ _ _ ?_ (.here r)
        simp only [Move.expr]
        revert h
        cases calculate c (.moment b + inc) <;> intro h <;> simp only at h <;> cases h
        rfl
      · intro h
        simp only [moves] at h
        cases h with
        | step _ q _ _ _ hb hf =>
          cases hf
          simp only [Move.expr] at hb
          simp only [Iter.next, Iter.skip, Iter.recalculate, Bool.not_true, Bool.false_eq_true, if_false, hb]
          rfl
  constructor
  · rintro ⟨⟨b, hb⟩, h⟩
    rw [h2 b hb] at h
    exact ⟨b, hb, (last _ b).1 h⟩
  · rintro ⟨b, hb, h⟩
    refine ⟨⟨b, hb⟩, ?_⟩
    rw [h2 b hb]
    exact (last _ b).2 h

example := C115_position (std .debug) (at_ 2017 1 31 0 0 0) (at_ 2017 2 1 0 0 0) (.days 1) _ rfl [.next, .next, .skip, .rollback, .rollback]

/-- **C115, the call that fails.** After a history of successful calls that led to `a`, a call that stands for a move returns
the error of the calculation of that move (or panics like it). The first next cannot fail. -/
theorem C115_failure (c : Cfg) (m a : Moment) (inc : TT) (it : Iter) (hit : Iter.build m inc = .ok it) (ops : List IterOp)
    (h : Follows c inc m (moves false ops) a) (op : IterOp) :
    AllOk c it ops ∧
    (∀ mv, moves (ops.contains .next) [op] = [mv] →
      (op.run c (runOps c it ops)).2 = (do let _ ← calculate c (mv.expr inc a); .ok ())) ∧
    (moves (ops.contains .next) [op] = [] →
      ((runOps c it ops).next c).2 = some (.ok (.moment a))) := by
  obtain ⟨rfl, hi⟩ := built hit
  obtain ⟨h1, h2⟩ := history hi ops (c := c) false m
  refine ⟨h1.2 ⟨a, h⟩, ?_, ?_⟩
  · intro mv hmv
    rw [h2 a h]
    simp only [startedAfter, Bool.false_or]
    generalize ops.contains .next = s at *
    have key : ∀ s, (Iter.skip c ⟨.moment a, inc, s⟩).2 = (do let _ ← calculate c (Move.expr inc a .forth); .ok ()) := by
      intro s
      simp only [Iter.skip, Iter.recalculate, Move.expr]
      cases calculate c (.moment a + inc) <;> rfl
    cases op with
    | skip => cases s <;> cases hmv <;> exact key _
    | rollback =>
      cases s <;> cases hmv <;> simp only [IterOp.run, Iter.rollback, Iter.recalculate, Move.expr] <;>
        cases calculate c (.moment a - inc) <;> rfl
    | next =>
      cases s with
      | false => cases hmv
      | true => cases hmv; rw [run_next_true]; exact key _
  · intro hmv
    rw [h2 a h]
    simp only [startedAfter, Bool.false_or]
    generalize ops.contains .next = s at *
    cases op <;> cases s <;> cases hmv
    rfl

example (op : IterOp) := C115_failure (std .debug) (at_ 2017 1 31 0 0 0) (at_ 2017 2 2 0 0 0) (.days 1) _ rfl [.next, .next, .skip]
  ((C115_position (std .debug) (at_ 2017 1 31 0 0 0) (at_ 2017 2 2 0 0 0) (.days 1) _ rfl [.next, .skip]).1
    ⟨by decide +kernel, by decide +kernel⟩) op

/-- **C115, the increment.** Whatever is called and whether it fails or not, `increment` returns what the iterator was built with. -/
theorem C115_increment (c : Cfg) (m : Moment) (inc : TT) (it : Iter) (hit : Iter.build m inc = .ok it) (ops : List IterOp) :
    (runOps c it ops).increment = inc := by
  have hi : it.increment = inc := by rw [(built hit).1]
  clear hit
  have hrec : ∀ it : Iter, (it.recalculate c).1.increment = it.increment := by
    intro it; unfold Iter.recalculate; cases calculate c it.base <;> rfl
  induction ops generalizing it with
  | nil => exact hi
  | cons op ops ih =>
    refine ih _ ?_
    cases op with
    | skip => simp only [IterOp.run, Iter.skip]; rw [hrec]; exact hi
    | rollback => simp only [IterOp.run, Iter.rollback]; rw [hrec]; exact hi
    | next =>
      have : (it.next c).1.increment = it.increment := by
        unfold Iter.next
        split
        · rfl
        · unfold Iter.skip
          exact hrec { it with base := it.base + it.increment }
      simp only [IterOp.run]
      rw [← hi, ← this]
      rcases it.next c with ⟨it', _ | (_ | _ | _ | _)⟩ <;> rfl

/-- A history on a built iterator: two items, three back, and the item before the base. -/
example : ∃ it, Iter.build (at_ 2017 1 31 0 0 0) (.days 1) = .ok it ∧
    AllOk (std .debug) it [.next, .next, .skip, .rollback, .rollback] ∧
    ((runOps (std .debug) it [.next, .next, .skip, .rollback, .rollback]).next (std .debug)).2 =
      some (.ok (.moment (at_ 2017 2 1 0 0 0))) ∧
    moves false ([.next, .next, .skip, .rollback, .rollback] ++ [.next]) = [.forth, .forth, .back, .back, .forth] :=
  ⟨_, rfl, by decide +kernel, by decide +kernel, by decide +kernel⟩

/-! ## C116 -/

private theorem forth_exact {c : Cfg} (hc : Sane c) {a b : Moment} (ha : a.Valid c) {u : TUnit} {n : Int} (hn : 0 ≤ n)
    (hu : (u = .second ∧ n < 60) ∨ (u = .minute ∧ n < 60) ∨ (u = .hour ∧ n < 24))
    (h : calculate c (.moment a + amt u n) = .ok (.moment b)) : b.instant = a.instant + n * u.secs := by
  have hu' : u = .second ∨ u = .minute ∨ u = .hour ∨ u = .day := by
    rcases hu with ⟨rfl, -⟩ | ⟨rfl, -⟩ | ⟨rfl, -⟩ <;> simp
  have hs : 0 ≤ n * u.secs ∧ n * u.secs ≤ 86400 := by
    rcases hu with ⟨rfl, h⟩ | ⟨rfl, h⟩ | ⟨rfl, h⟩ <;> simp only [TUnit.secs] <;> omega
  by_cases hend : a.instant + n * u.secs < Cal.instant (c.maxYear + 1) 1 1 0 0 0
  · obtain ⟨m', v, z, i⟩ := moment_exists ha (a.instant + n * u.secs) (by omega) hend
    have := C16_up_to_30_days_partial c hc a m' ha v z u hu' n hn (by omega) i
    rw [this] at h
    cases h
    exact i
  · obtain ⟨Y, M, D, H, MI, S, e⟩ := C16_past_the_end_partial c hc a ha u hu' n hn (by omega) (by omega)
    rw [e] at h
    cases h

private theorem back_exact {c : Cfg} (hc : Sane c) {a b : Moment} (ha : a.Valid c) {u : TUnit} {n : Int} (hn : 0 ≤ n)
    (hu : (u = .second ∧ n < 60) ∨ (u = .minute ∧ n < 60) ∨ (u = .hour ∧ n < 24))
    (h : calculate c (.moment a - amt u n) = .ok (.moment b)) : b.instant = a.instant - n * u.secs := by
  obtain ⟨-, -, -, t, -⟩ := id ha
  unfold Cal.ValidTime at t
  have hu21 : (u = .second ∧ n ≠ a.second + 60) ∨ (u = .minute ∧ n ≠ a.minute + 60) ∨ (u = .hour ∧ n ≠ a.hour + 24) := by
    rcases hu with ⟨rfl, h⟩ | ⟨rfl, h⟩ | ⟨rfl, h⟩
    · exact .inl ⟨rfl, by omega⟩
    · exact .inr (.inl ⟨rfl, by omega⟩)
    · exact .inr (.inr ⟨rfl, by omega⟩)
  rcases C21_exact_or_rejected_partial c hc a ha u n hn (by rcases hu with ⟨rfl, g⟩ | ⟨rfl, g⟩ | ⟨rfl, g⟩ <;> simp only [TUnit.secs] <;> omega) hu21 with ⟨q, e, hi, -⟩ | ⟨Y, M, D, H, MI, S, e⟩
  · rw [e] at h
    cases h
    omega
  · rw [e] at h
    cases h

private theorem follows_exact {c : Cfg} (hc : Sane c) {u : TUnit} {n : Int} (hn : 0 ≤ n)
    (hu : (u = .second ∧ n < 60) ∨ (u = .minute ∧ n < 60) ∨ (u = .hour ∧ n < 24)) {mvs : List Move} :
    ∀ {a r : Moment}, a.Valid c → Follows c (amt u n) a mvs r → r.Valid c ∧ r.instant = a.instant + net mvs * (n * u.secs) := by
  induction mvs with
  | nil => intro a r ha h; cases h; exact ⟨ha, by simp [net]⟩
  | cons mv mvs ih =>
    intro a r ha h
    cases h with
    | step _ b _ _ _ hb hf =>
      have hv : b.Valid c := by
        refine C15_results_are_dates c _ b ?_ hb
        cases mv <;> exact ⟨ha, by cases u <;> trivial⟩
      obtain ⟨i1, i2⟩ := ih hv hf
      refine ⟨i1, ?_⟩
      cases mv with
      | forth =>
        have := forth_exact hc ha hn hu hb
        rw [i2, this, net, Int.add_mul]
        omega
      | back =>
        have := back_exact hc ha hn hu hb
        rw [i2, this, net, Int.sub_mul]
        omega

/-- **C116 (partial).** With increments of up to 59 seconds, 59 minutes or 23 hours: after any history of successful calls of next, skip and
rollback, next returns the date-time that lies exactly that many increments from the base as there were calls forth minus calls back.
Missing: longer increments and days, see `C116_refuted`. -/
theorem C116_counting_partial (c : Cfg) (hc : Sane c) (m r : Moment) (hm : m.Valid c) (u : TUnit) (n : Int) (hn : 0 ≤ n)
    (hu : (u = .second ∧ n < 60) ∨ (u = .minute ∧ n < 60) ∨ (u = .hour ∧ n < 24))
    (it : Iter) (hit : Iter.build m (amt u n) = .ok it) (ops : List IterOp) (hok : AllOk c it ops)
    (h : ((runOps c it ops).next c).2 = some (.ok (.moment r))) :
    r.instant = m.instant + net (moves false (ops ++ [.next])) * (n * u.secs) :=
  (follows_exact hc hn hu hm ((C115_position c m r _ it hit ops).1 ⟨hok, h⟩)).2

/-- 90 minutes (two calls forth, one of 45 minutes back) over midnight and over the end of the month. -/
example : ∃ it, Iter.build (at_ 2017 1 31 23 30 0) (.minutes 45) = .ok it ∧ (at_ 2017 1 31 23 30 0).Valid (std .debug) ∧
    AllOk (std .debug) it [.next, .next, .skip, .rollback] ∧
    ((runOps (std .debug) it [.next, .next, .skip, .rollback]).next (std .debug)).2 = some (.ok (.moment (at_ 2017 2 1 1 0 0))) ∧
    net (moves false ([.next, .next, .skip, .rollback] ++ [.next])) = 2 :=
  ⟨_, rfl, by decide +kernel, by decide +kernel, by decide +kernel, by decide +kernel⟩

/-- **C116 refuted.** Five days forth and back over the end of a month do not lead back to the base. -/
theorem C116_refuted :
    ∃ it, Iter.build (at_ 2017 4 26 0 0 0) (.days 5) = .ok it ∧ AllOk (std .debug) it [.skip, .rollback] ∧
      ((runOps (std .debug) it [.skip, .rollback]).next (std .debug)).2 ≠ some (.ok (.moment (at_ 2017 4 26 0 0 0))) :=
  ⟨_, rfl, by decide +kernel, by decide +kernel⟩

/-- The same day of the month and time of day. -/
private def SameDay (a b : Moment) : Prop :=
  b.day = a.day ∧ b.hour = a.hour ∧ b.minute = a.minute ∧ b.second = a.second

private theorem month_of (i : Int) : ∃ Y M : Int, (1 ≤ M ∧ M ≤ 12) ∧ Cal.monthIndex Y M = i :=
  ⟨i / 12, i % 12 + 1, by omega, by unfold Cal.monthIndex; omega⟩

private theorem month_move {c : Cfg} (hc : Sane c) {a b : Moment} (ha : a.Valid c) (hd : a.day ≤ 28) {n : Int} (hn : 0 ≤ n) (hb : n < 4294967296)
    (mv : Move) (h : calculate c (mv.expr (.months n) a) = .ok (.moment b)) :
    SameDay a b ∧ Cal.monthIndex b.year b.month = Cal.monthIndex a.year a.month + (match mv with | .forth => n | .back => -n) := by
  cases mv with
  | forth =>
    obtain ⟨Y, M, hM, hi⟩ := month_of (Cal.monthIndex a.year a.month + n)
    have e := C17_up_to_28th_partial c hc a ha hd n hn (by omega) Y M hM hi
    simp only [Move.expr] at h
    rw [h] at e
    split at e
    · cases e
      exact ⟨⟨rfl, rfl, rfl, rfl⟩, hi⟩
    · cases e
  | back =>
    obtain ⟨Y, M, hM, hi⟩ := month_of (Cal.monthIndex a.year a.month - n)
    simp only [Move.expr] at h
    rcases C22_subtracting_months_partial c hc a ha n hn hb Y M hM hi with ⟨-, -, -, e⟩ | ⟨-, _, _, _, _, _, _, e⟩
    · rw [h] at e
      cases e
      exact ⟨⟨rfl, rfl, rfl, rfl⟩, by simp only; omega⟩
    · rw [h] at e
      cases e

/-- **C116 (months, partial).** With a base up to the 28th and any number of months below 2^32 as increment: after any history of successful calls of
next, skip and rollback, next returns the date-time on the same day of the month and at the same time of day that many increments, in calendar
months, from the base as there were calls forth minus calls back. Missing: days 29 to 31, see `C79_refuted`. -/
theorem C116_months_partial (c : Cfg) (hc : Sane c) (m r : Moment) (hm : m.Valid c) (hd : m.day ≤ 28) (n : Int) (hn : 0 ≤ n) (hb : n < 4294967296)
    (it : Iter) (hit : Iter.build m (.months n) = .ok it) (ops : List IterOp) (hok : AllOk c it ops)
    (h : ((runOps c it ops).next c).2 = some (.ok (.moment r))) :
    Cal.monthIndex r.year r.month = Cal.monthIndex m.year m.month + net (moves false (ops ++ [.next])) * n ∧
    r.day = m.day ∧ r.hour = m.hour ∧ r.minute = m.minute ∧ r.second = m.second := by
  have hf := (C115_position c m r _ it hit ops).1 ⟨hok, h⟩
  clear hok h hit
  generalize moves false (ops ++ [.next]) = mvs at hf
  induction mvs generalizing m with
  | nil => cases hf; exact ⟨by simp [net], rfl, rfl, rfl, rfl⟩
  | cons mv mvs ih =>
    cases hf with
    | step _ b _ _ _ hb' hf =>
      have hv : b.Valid c := by
        refine C15_results_are_dates c _ b ?_ hb'
        cases mv <;> exact ⟨hm, trivial⟩
      obtain ⟨⟨s1, s2, s3, s4⟩, s5⟩ := month_move hc hm hd hn hb mv hb'
      obtain ⟨i1, i2, i3, i4, i5⟩ := ih b hv (by omega) hf
      refine ⟨?_, by omega, by omega, by omega, by omega⟩
      rw [i1, s5]
      cases mv <;> simp only [net, Int.add_mul, Int.sub_mul] <;> omega

/-- Two months forth, one back, over the turn of the year. -/
example : ∃ it, Iter.build (at_ 2017 11 28 8 0 0) (.months 2) = .ok it ∧ (at_ 2017 11 28 8 0 0).Valid (std .debug) ∧
    AllOk (std .debug) it [.next, .next, .skip, .rollback, .rollback, .rollback] ∧
    ((runOps (std .debug) it [.next, .next, .skip, .rollback, .rollback, .rollback]).next (std .debug)).2 =
      some (.ok (.moment (at_ 2017 11 28 8 0 0))) ∧
    net (moves false ([.next, .next, .skip, .rollback, .rollback, .rollback] ++ [.next])) = 0 :=
  ⟨_, rfl, by decide +kernel, by decide +kernel, by decide +kernel, by decide +kernel⟩

/-- **C116 (years, partial).** With a base on any day but 29 February and an increment of up to two thousand million years, of either sign: after any
history of successful calls of next, skip and rollback, next returns the date-time on the same day of the year and at the same time of day that many
increments from the base as there were calls forth minus calls back. Missing: 29 February, see `C80_refuted`. -/
theorem C116_years_partial (c : Cfg) (hc : Sane c) (m r : Moment) (hm : m.Valid c) (hd : ¬ (m.month = 2 ∧ m.day = 29)) (n : Int)
    (hn : -2000000000 ≤ n) (hb : n ≤ 2000000000)
    (it : Iter) (hit : Iter.build m (.years n) = .ok it) (ops : List IterOp) (hok : AllOk c it ops)
    (h : ((runOps c it ops).next c).2 = some (.ok (.moment r))) :
    r.year = m.year + net (moves false (ops ++ [.next])) * n ∧
    r.month = m.month ∧ r.day = m.day ∧ r.hour = m.hour ∧ r.minute = m.minute ∧ r.second = m.second := by
  have hf := (C115_position c m r _ it hit ops).1 ⟨hok, h⟩
  clear hok h hit
  generalize moves false (ops ++ [.next]) = mvs at hf
  have hc' := hc
  unfold Sane at hc'
  induction mvs generalizing m with
  | nil => cases hf; exact ⟨by simp [net], rfl, rfl, rfl, rfl, rfl⟩
  | cons mv mvs ih =>
    cases hf with
    | step _ b _ _ _ hb' hf =>
      have hv : b.Valid c := by
        refine C15_results_are_dates c _ b ?_ hb'
        cases mv <;> exact ⟨hm, trivial⟩
      have hy := hm.1
      have hy2 := hm.2.1
      have step : b.year = m.year + (match mv with | .forth => n | .back => -n) ∧ b.month = m.month ∧ SameDay m b := by
        cases mv with
        | forth =>
          simp only [Move.expr] at hb'
          have e := C18_adding_years_partial c m hm n (by omega) (by omega)
          rw [hb'] at e
          split at e
          · cases e
          · rw [if_neg (by omega)] at e
            cases e
            exact ⟨rfl, rfl, rfl, rfl, rfl, rfl⟩
        | back =>
          simp only [Move.expr] at hb'
          have e := C23_subtracting_years_partial c m hm n (by omega) (by omega)
          rw [hb'] at e
          split at e
          · cases e
            exact ⟨by simp only; omega, rfl, rfl, rfl, rfl, rfl⟩
          · cases e
      obtain ⟨s1, s2, s3, s4, s5, s6⟩ := step
      obtain ⟨i1, i2, i3, i4, i5, i6⟩ := ih b hv (by omega) hf
      refine ⟨?_, by omega, by omega, by omega, by omega, by omega⟩
      rw [i1, s1]
      cases mv <;> simp only [net, Int.add_mul, Int.sub_mul] <;> omega

example : ∃ it, Iter.build (at_ 2017 11 30 8 0 0) (.years (-4)) = .ok it ∧ (at_ 2017 11 30 8 0 0).Valid (std .debug) ∧
    AllOk (std .debug) it [.next, .next, .skip, .rollback] ∧
    ((runOps (std .debug) it [.next, .next, .skip, .rollback]).next (std .debug)).2 = some (.ok (.moment (at_ 2009 11 30 8 0 0))) ∧
    net (moves false ([.next, .next, .skip, .rollback] ++ [.next])) = 2 :=
  ⟨_, rfl, by decide +kernel, by decide +kernel, by decide +kernel, by decide +kernel⟩

end Props
