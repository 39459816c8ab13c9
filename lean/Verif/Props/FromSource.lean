import Verif.Spec.FromSource
import Verif.Source.AgreeMain
import Verif.Lemmas.SourceChain
import Verif.Props.WholeProgram
import Verif.Props.Moves
import Verif.Props.MovedPipeline
import Verif.Props.Ending
import Verif.Props.Pipeline
import Verif.Props.PipelineText
import Verif.Tests.Parser

/-!
# C153: the references hold of the mechanical translation of the source

`Source/*.lean` is generated from the Rust text by the programs in tools/. These theorems are about that text, not about the
hand-written model: the references of C141, C142, C144, C145, C152 and C156 tell what it does.
-/

namespace Props
open Kairos Kairos.Parser Spec

/-- **C153, calculate.** The translated `calculate` returns on every expression (its recursion is without any bound), and ends as
`Spec/Ending.lean` says: with that value, that error, or an overflow. -/
theorem C153_calculate (c : Cfg) (hc : Sane c) (t : TT) (hm : AllMoments (Moment.Valid c) t) (hn : AmountsFit t) :
    Says (ending c t) (Source.TimeType.calculate c t) ∧ Source.TimeType.calculate c t ≠ .oof := by
  rw [Source.TimeType.calculate_eq]
  exact ⟨C141_every_expression c hc t hm hn, (C01_calculate_returns c t).1⟩

/-- **C153, parse.** There is exactly one parser that satisfies the recursion equation translated from `amount_expr`; with it, the translated `parse`
returns what the reader of `Spec/Reader.lean` says, for every text. -/
theorem C153_parse (c : Cfg) (iso : Iso) (now now' : Moment) :
    ∃ amount_expr, amount_expr = Source.Parser.amount_expr_body amount_expr ∧
      (∀ other, other = Source.Parser.amount_expr_body other → other = amount_expr) ∧
      ∀ t, Source.Parser.parse c iso amount_expr now now' t = (Spec.read iso t).result c now now' := by
  refine ⟨amountExpr, (Source.Parser.amount_expr_unique _).2 rfl, fun o h => (Source.Parser.amount_expr_unique o).1 h, fun t => ?_⟩
  rw [Source.Parser.parse_eq c iso _ ((Source.Parser.amount_expr_unique _).2 rfl), C142_every_text]

private theorem sourceCall_eq (c : Cfg) (it : Iter) (op : IterOp) :
    sourceCall c it op =
      match (op.call c it).2 with
      | .panic => .panic
      | .oof => .oof
      | r => .ok (r, (op.call c it).1) := by
  cases op with
  | next =>
    simp only [sourceCall, IterOp.call, Source.Iter.next_eq c it]
    rcases Kairos.Iter.next c it with ⟨it', _ | r⟩
    · rfl
    · cases r <;> rfl
  | skip =>
    simp only [sourceCall, IterOp.call, Source.Iter.skip_eq c it]
    rcases Kairos.Iter.skip c it with ⟨it', r⟩
    cases r <;> rfl
  | rollback =>
    simp only [sourceCall, IterOp.call, Source.Iter.rollback_eq c it]
    rcases Kairos.Iter.rollback c it with ⟨it', r⟩
    cases r <;> rfl

private theorem sourceCalls_eq (c : Cfg) (it : Iter) (ops : List IterOp) (h : ∀ r ∈ callAll c it ops, r ≠ .oof) :
    sourceCalls c it ops = upToPanic (callAll c it ops) := by
  induction ops generalizing it with
  | nil => rfl
  | cons op ops ih =>
    have h1 := h _ (List.mem_cons_self ..)
    have h2 := ih (op.call c it).1 fun r hr => h r (List.mem_cons_of_mem _ hr)
    unfold sourceCalls callAll
    rw [sourceCall_eq]
    cases hr : (op.call c it).2 with
    | ok v => simp only [upToPanic, h2]
    | err e => simp only [upToPanic, h2]
    | panic => rfl
    | oof => exact absurd hr h1

private theorem calls_return (c : Cfg) (step : TT) (p : Cursor) (ops : List IterOp) :
    ∀ r ∈ p.calls c step ops, r ≠ .oof := by
  induction ops generalizing p with
  | nil => intro r hr; cases hr
  | cons op ops ih =>
    intro r hr
    rcases List.mem_cons.1 hr with rfl | hr
    · have key : ∀ (f : TT → Option TT) (a : Answer), a.reply f ≠ .oof := by
        intro f a; cases a <;> (intro h; cases h)
      cases op with
      | next =>
        simp only [Cursor.call]
        split
        · exact key _ _
        · intro h; cases h
      | skip => exact key _ _
      | rollback => exact key _ _
    · exact ih _ r hr

/-- **C153, iterators.** What the translated `next`, `skip` and `rollback` return on an iterator from the translated `build`, called in any order and
any number of times: what `Spec/Moves.lean` says, up to a panic. -/
theorem C153_iterators (c : Cfg) (hc : Sane c) (m : Moment) (hm : m.Valid c) (u : TUnit) (n : Int) (hn : InI64 n) (it : Iter)
    (hit : Source.Iter.build c m (amt u n) = .ok it) (ops : List IterOp) :
    sourceCalls c it ops = upToPanic ((Cursor.begin m).calls c (amt u n) ops) := by
  rw [Source.Iter.build_eq] at hit
  have h := C152_every_call c hc m hm u n hn it hit ops
  rw [sourceCalls_eq c it ops (by rw [h]; exact calls_return c _ _ _), h]

/-- **C153, adaptors.** What the translated `next` of an iterator with adaptors returns – `times`, `until`, `every`, `without`, any number of them in
any order, with any arguments, loops without any bound – is what `Spec/Pipeline.lean` says, including that a call never returns, as long
as no call before it panics or never returns. -/
theorem C153_adaptors (c : Cfg) (hc : Sane c) (m : Moment) (hm : m.Valid c) (u : TUnit) (n : Int) (hn : InI64 n) (it : Iter)
    (hit : Source.Iter.build c m (amt u n) = .ok it) (as : List Adaptor) (ht : ∀ a ∈ as, a.Typed c) (calls : Nat → Response)
    (hs : Chain c.profile as (plainCalls c m (amt u n)) calls) (k : Nat)
    (hk : ∀ j, j < k → calls j ≠ .never ∧ calls j ≠ .item .overflow) :
    (sourceChained c it as).call k = (calls k).inSource := by
  rw [Source.Iter.build_eq] at hit
  exact SourceChain.follows_described (SourceChain.follows_chained c it as) calls
    (fun i hi => C145_calls c hc m hm u n hn it hit as ht calls hs i hi)
    (fun i hi hv => C145_never c hc m hm u n hn it hit as ht calls hs i hi hv) k hk

private theorem sourceMoved_eq (c : Cfg) (it it' : Iter) (ops : List IterOp) (h : sourceMoved c it ops = .ok it') : it' = moved c it ops := by
  induction ops generalizing it with
  | nil => cases h; rfl
  | cons op ops ih =>
    unfold sourceMoved at h
    rw [sourceCall_eq] at h
    have e : moved c it (op :: ops) = moved c (op.call c it).1 ops := rfl
    rw [e]
    cases hr : (op.call c it).2 with
    | ok v => rw [hr] at h; exact ih _ h
    | err v => rw [hr] at h; exact ih _ h
    | panic => rw [hr] at h; cases h
    | oof => rw [hr] at h; cases h

/-- **C153, adaptors on a moved iterator.** After any calls of the translated `next`, `skip` and `rollback`, none of which panics, the
translated adaptors put on the iterator make of its items what `Spec/Pipeline.lean` says (C156). -/
theorem C153_moved (c : Cfg) (hc : Sane c) (m : Moment) (hm : m.Valid c) (u : TUnit) (n : Int) (hn : InI64 n) (it it' : Iter)
    (hit : Source.Iter.build c m (amt u n) = .ok it) (ops : List IterOp) (hops : sourceMoved c it ops = .ok it')
    (hr : ((Cursor.begin m).after c (amt u n) ops).started = true ∨ ∃ v, ((Cursor.begin m).after c (amt u n) ops).place = .value v)
    (as : List Adaptor) (ht : ∀ a ∈ as, a.Typed c) (calls : Nat → Response)
    (hs : Chain c.profile as (((Cursor.begin m).after c (amt u n) ops).nextCalls c (amt u n)) calls) (k : Nat)
    (hk : ∀ j, j < k → calls j ≠ .never ∧ calls j ≠ .item .overflow) :
    (sourceChained c it' as).call k = (calls k).inSource := by
  rw [Source.Iter.build_eq] at hit
  obtain rfl := sourceMoved_eq c it it' ops hops
  exact SourceChain.follows_described (SourceChain.follows_chained c _ as) calls
    (fun i hi => C156_calls c hc m hm u n hn it hit ops hr as ht calls hs i hi)
    (fun i hi hv => C156_never c hc m hm u n hn it hit ops hr as ht calls hs i hi hv) k hk

/-- **C153, from a text to the items.** If the translated `parse` returns an iterator, then every call of the translated `next` on it, with
any adaptors on it, returns what `Spec/PipelineText.lean` says, as long as no call before it panics or never returns. -/
theorem C153_texts (c : Cfg) (hc : Sane c) (iso : Iso) (hi : IsoSane iso) (now now' : Moment) (hn : now.Valid c) (hn' : now'.Valid c)
    (amount_expr : Nom.P AmountExpr) (hf : amount_expr = Source.Parser.amount_expr_body amount_expr) (t : List Char) (ui : UserIterator)
    (hp : Source.Parser.parse c iso amount_expr now now' t = .ok (.iterator (.ok ui))) (as : List Adaptor)
    (ht : ∀ a ∈ as, a.Typed c) (calls : Nat → Response) (hs : TextCalls c iso now now' t as calls) (k : Nat)
    (hk : ∀ j, j < k → calls j ≠ .never ∧ calls j ≠ .item .overflow) :
    (sourceChainedRead c ui as).call k = (calls k).inSource := by
  rw [Source.Parser.parse_eq c iso _ hf] at hp
  exact SourceChain.follows_described (SourceChain.follows_chainedRead c ui as) calls
    (fun i h => C147_calls c hc iso hi now now' hn hn' t ui hp as ht calls hs i h)
    (fun i h hv => C147_never c hc iso hi now now' hn hn' t ui hp as ht calls hs i h hv) k hk

/-- **C153, the program.** What the translated `main` prints, as text, and how it ends, is what `Spec/Program.lean` says, whatever the
arguments; the lines are those of `Model/Display.lean` (for C87, C88, C100). -/
theorem C153_program (c : Cfg) (hc : Sane c) (iso : Iso) (hi : IsoSane iso) (now now' : Moment) (hn : now.Valid c)
    (hn' : now'.Valid c) (rounds : Nat) (args : List (List Char)) (amount_expr : Nom.P AmountExpr)
    (hf : amount_expr = Source.Parser.amount_expr_body amount_expr) :
    (Source.main c iso amount_expr now now' rounds args).lines =
      (prints c iso now now' rounds (Main.commandLine args)).lines.map Text.line ∧
    (Source.main c iso amount_expr now now' rounds args).ending = (prints c iso now now' rounds (Main.commandLine args)).ending := by
  rw [Source.main_eq c iso amount_expr hf, C144_program c hc iso hi now now' hn hn']
  exact ⟨rfl, rfl⟩

/-! ### cases -/

/-- 60 days after 31 December there is no date, as days are carried. -/
example : Source.TimeType.calculate (std .debug) (.moment (at_ 2016 12 31 0 0 0) + .days 60) = .err (.outOfBounds 2017 2 0 0 0 0) := by
  rw [Source.TimeType.calculate_eq]; decide +kernel
example := C153_calculate (std .debug) (by decide) (.moment (at_ 2016 12 31 0 0 0) + .days 60)
  (by simp [AllMoments, TT.hadd_def]; decide) (by simp [AmountsFit, TT.hadd_def]; decide)

example : ∃ amount_expr, amount_expr = Source.Parser.amount_expr_body amount_expr ∧
    Source.Parser.parse (std .debug) Tests.Parser.extIso amount_expr (at_ 2017 6 15 0 0 0) (at_ 2017 6 15 0 0 0)
      "2017-06-15 + 5 days".toList = .ok (.timeType (.moment (at_ 2017 6 15 0 0 0) + .days 5)) := by
  obtain ⟨a, h1, -, h2⟩ := C153_parse (std .debug) Tests.Parser.extIso (at_ 2017 6 15 0 0 0) (at_ 2017 6 15 0 0 0)
  exact ⟨a, h1, by rw [h2]; decide +kernel⟩

example : sourceCalls (std .debug) ⟨.moment (at_ 2017 3 1 0 0 0), .days 1, false⟩ [.rollback, .skip, .next, .next] =
    [.err (.outOfBounds 2017 2 0 0 0 0), .err (.outOfBounds 2017 2 0 0 0 0),
      .ok (some (.moment (at_ 2017 3 1 0 0 0) - .days 1 + .days 1)), .err (.outOfBounds 2017 2 0 0 0 0)] := by
  rw [C153_iterators (std .debug) (by decide) (at_ 2017 3 1 0 0 0) (by decide) .day 1 (by decide) _
    (by rw [Source.Iter.build_eq]; rfl)]
  decide +kernel

/-- The second Friday in January. -/
example : (sourceChained (std .debug) ⟨.moment (at_ 2017 1 9 0 0 0), .days 1, false⟩
      [.every (.day .friday), .every (.month .january), .times 3]).call 1 = .ok (some (.ok (.moment (at_ 2017 1 20 0 0 0)))) := by
  refine (SourceChain.follows_call (SourceChain.follows_chained _ _ _) 40 1 (fun j hj => ?_)).1
    (.item (.value (.moment (at_ 2017 1 20 0 0 0)))) ?_
  · obtain rfl : j = 0 := by omega
    decide +kernel
  · have : (chained (std .debug) ⟨.moment (at_ 2017 1 9 0 0 0), .days 1, false⟩
        [.every (.day .friday), .every (.month .january), .times 3]).call 40 1 = some (.ok (.moment (at_ 2017 1 20 0 0 0))) := by
      decide +kernel
    rw [this]; rfl

/-- A step of no days, from a Monday, and only Fridays are wanted: the first call never returns. -/
example : (sourceChained (std .debug) ⟨.moment (at_ 2017 1 9 0 0 0), .days 0, false⟩ [.every (.day .friday)]).call 0 = .oof :=
  C153_adaptors (std .debug) (by decide) (at_ 2017 1 9 0 0 0) (by decide) .day 0 (by decide) _
    (by rw [Source.Iter.build_eq]; rfl) [.every (.day .friday)]
    (fun a ha => by simp only [List.mem_cons, List.not_mem_nil, or_false] at ha; rw [ha]; trivial) (fun _ => .never)
    (.step (a := .every (.day .friday)) (fun k => .inr ⟨fun i hi => by
      have := hi.1
      rw [same_day] at this
      exact absurd this (by decide +kernel), rfl⟩) (.none _)) 0 (fun j hj => by omega)

/-- `next` and `rollback` on 9 January, a Monday, then `times(2)`: `next` was called, so the first item is the day after the place, which
is the 8th. -/
example : sourceMoved (std .debug) ⟨.moment (at_ 2017 1 9 0 0 0), .days 1, false⟩ [.next, .rollback] =
      .ok ⟨.moment (at_ 2017 1 8 0 0 0), .days 1, true⟩ ∧
    (sourceChained (std .debug) ⟨.moment (at_ 2017 1 8 0 0 0), .days 1, true⟩ [.times 2]).call 0 =
      .ok (some (.ok (.moment (at_ 2017 1 9 0 0 0)))) := by
  have hm : sourceMoved (std .debug) ⟨.moment (at_ 2017 1 9 0 0 0), .days 1, false⟩ [.next, .rollback] =
      .ok ⟨.moment (at_ 2017 1 8 0 0 0), .days 1, true⟩ := by
    simp only [sourceMoved, sourceCall_eq]
    decide +kernel
  refine ⟨hm, ?_⟩
  rw [C153_moved (std .debug) (by decide) (at_ 2017 1 9 0 0 0) (by decide) .day 1 (by decide) _ _ (by rw [Source.Iter.build_eq]; rfl)
    [.next, .rollback] hm (.inl (by decide +kernel)) [.times 2]
    (fun a ha => by
      simp only [List.mem_cons, List.not_mem_nil, or_false] at ha
      rw [ha]
      exact ⟨by decide, by decide⟩) _ (.step (a := .times 2) rfl (.none _)) 0 (fun j hj => by omega)]
  decide +kernel

/-- The second Friday that is an odd day in June. -/
example : ∃ calls, TextCalls (std .debug) Tests.Parser.extIso (at_ 2017 6 15 0 0 0) (at_ 2017 6 15 0 0 0)
      "2017-06-01 every 2 days until 2017-07-01T00:00:00".toList [.every (.day .friday), .times 2] calls ∧
    ∃ ui, Source.Parser.parse (std .debug) Tests.Parser.extIso amountExpr (at_ 2017 6 15 0 0 0) (at_ 2017 6 15 0 0 0)
      "2017-06-01 every 2 days until 2017-07-01T00:00:00".toList = .ok (.iterator (.ok ui)) ∧
    (∀ j, j < 1 → calls j ≠ .never ∧ calls j ≠ .item .overflow) ∧
    calls 1 = .item (.value (.moment (at_ 2017 6 23 0 0 0))) ∧
    (sourceChainedRead (std .debug) ui [.every (.day .friday), .times 2]).call 1 = .ok (some (.ok (.moment (at_ 2017 6 23 0 0 0)))) := by
  have hp : Source.Parser.parse (std .debug) Tests.Parser.extIso amountExpr (at_ 2017 6 15 0 0 0) (at_ 2017 6 15 0 0 0)
      "2017-06-01 every 2 days until 2017-07-01T00:00:00".toList = .ok (.iterator (.ok (.untilIterator
        ⟨.moment (at_ 2017 6 1 0 0 0), .days 2, false⟩ (at_ 2017 7 1 0 0 0)))) := by
    rw [Source.Parser.parse_eq _ _ _ ((Source.Parser.amount_expr_unique _).2 rfl)]
    decide +kernel
  have hp' := hp
  rw [Source.Parser.parse_eq _ _ _ ((Source.Parser.amount_expr_unique _).2 rfl)] at hp'
  obtain ⟨calls, hs, -⟩ := C147_determined _ (by decide) _ Tests.Parser.isoSane_extIso _ _ (by decide) (by decide) _ _ hp'
    [.every (.day .friday), .times 2]
  have ht : ∀ a ∈ [Adaptor.every (.day .friday), .times 2], a.Typed (std .debug) := fun a ha => by
    simp only [List.mem_cons, List.not_mem_nil, or_false] at ha
    rcases ha with rfl | rfl
    · trivial
    · exact ⟨by decide, by decide⟩
  have hx := C153_texts _ (by decide) _ Tests.Parser.isoSane_extIso _ _ (by decide) (by decide) _
    ((Source.Parser.amount_expr_unique _).2 rfl) _ _ hp _ ht calls hs
  have w0 : (chainedRead (std .debug) (.untilIterator ⟨.moment (at_ 2017 6 1 0 0 0), .days 2, false⟩ (at_ 2017 7 1 0 0 0))
      [.every (.day .friday), .times 2]).call 40 0 = some (.ok (.moment (at_ 2017 6 9 0 0 0))) := by decide +kernel
  have w1 : (chainedRead (std .debug) (.untilIterator ⟨.moment (at_ 2017 6 1 0 0 0), .days 2, false⟩ (at_ 2017 7 1 0 0 0))
      [.every (.day .friday), .times 2]).call 40 1 = some (.ok (.moment (at_ 2017 6 23 0 0 0))) := by decide +kernel
  have h0 := (SourceChain.follows_call (SourceChain.follows_chainedRead (std .debug) (.untilIterator
    ⟨.moment (at_ 2017 6 1 0 0 0), .days 2, false⟩ (at_ 2017 7 1 0 0 0)) [.every (.day .friday), .times 2]) 40 0
    (fun j hj => by omega)).1 (.item (.value (.moment (at_ 2017 6 9 0 0 0)))) (by rw [w0]; rfl)
  have h1 := (SourceChain.follows_call (SourceChain.follows_chainedRead (std .debug) (.untilIterator
    ⟨.moment (at_ 2017 6 1 0 0 0), .days 2, false⟩ (at_ 2017 7 1 0 0 0)) [.every (.day .friday), .times 2]) 40 1
    (fun j hj => by obtain rfl : j = 0 := by omega
                    decide +kernel)).1 (.item (.value (.moment (at_ 2017 6 23 0 0 0)))) (by rw [w1]; rfl)
  have hj : ∀ j, j < 1 → calls j ≠ .never ∧ calls j ≠ .item .overflow := fun j hj => by
    obtain rfl : j = 0 := by omega
    have := (hx 0 (fun j hj => by omega)).symm.trans h0
    exact ⟨fun e => by rw [e] at this; exact absurd this (by simp [Response.inSource]),
      fun e => by rw [e] at this; exact absurd this (by simp [Response.inSource])⟩
  refine ⟨calls, hs, _, hp, hj, ?_, h1⟩
  have := (hx 1 hj).symm.trans h1
  revert this
  cases calls 1 with
  | item a => cases a <;> intro e <;> cases e; rfl
  | ended => intro e; cases e
  | never => intro e; cases e

example (rounds : Nat) (args : List (List Char)) := C153_program (std .debug) (by decide) Tests.Parser.extIso
  Tests.Parser.isoSane_extIso (at_ 2017 6 15 0 0 0) (at_ 2017 6 15 0 0 0) (by decide) (by decide) rounds args
  amountExpr ((Source.Parser.amount_expr_unique _).2 rfl)

end Props
