import Verif.Lemmas.Pipeline
import Verif.Props.FindAll

/-!
# C145: iterators with any number of adaptors
-/

namespace Props
open Kairos Spec

theorem plain_facts (c : Cfg) (hc : Sane c) (m : Moment) (hm : m.Valid c) (u : TUnit) (n : Int) (hn : InI64 n) (it : Iter)
    (hit : Iter.build m (amt u n) = .ok it) :
    Sound ⟨Iter, fun _ => Iter.next c, it⟩ (plainCalls c m (amt u n)) ∧ Conv ⟨Iter, fun _ => Iter.next c, it⟩ (plainCalls c m (amt u n)) ∧
      Dates c (plainCalls c m (amt u n)) := by
  have h : ∀ k, ∃ o, nth (Iter.next c) k it = some o ∧ Says (itemEnds c m (amt u n) k) o := by
    intro k
    have := C143_items c hc m hm u n hn it hit k
    cases ho : nth (Iter.next c) k it with
    | none => rw [ho] at this; exact this.elim
    | some o => rw [ho] at this; exact ⟨o, rfl, this⟩
  refine ⟨?_, ?_, ?_⟩
  · intro r k _
    obtain ⟨o, ho, hs⟩ := h k
    right
    show (plainCalls c m (amt u n) k).Was (nth (Iter.next c) k it)
    rw [ho]; exact hs
  · intro k _
    refine ⟨0, fun r _ => ?_⟩
    obtain ⟨o, ho, hs⟩ := h k
    show nth (Iter.next c) k it ≠ some .oof
    rw [ho]
    intro e
    cases e
    cases hi : itemEnds c m (amt u n) k <;> rw [hi] at hs <;> cases hs
  · intro k v hv
    have hv : itemEnds c m (amt u n) k = .value v := by
      unfold plainCalls at hv; injection hv
    obtain ⟨r, rfl⟩ := item_moment hv
    exact ⟨r, rfl, item_valid hc hm hn hv⟩

/-- **C145.** Every call of `next` on an iterator with adaptors – `times`, `until`, `every`, `without`, any number of them in any order,
with any arguments – returns what `Spec/Pipeline.lean` says, up to a call that never returns, if there is one. (Loops of filters are followed
for a number of rounds; the claim is that a certain number is enough.) -/
theorem C145_calls (c : Cfg) (hc : Sane c) (m : Moment) (hm : m.Valid c) (u : TUnit) (n : Int) (hn : InI64 n) (it : Iter)
    (hit : Iter.build m (amt u n) = .ok it) (as : List Adaptor) (ht : ∀ a ∈ as, a.Typed c) (calls : Nat → Response)
    (hs : Chain c.profile as (plainCalls c m (amt u n)) calls) (k : Nat) (hk : ∀ j, j ≤ k → calls j ≠ .never) :
    ∃ enough, ∀ rounds, enough ≤ rounds → (calls k).Was ((chained c it as).call rounds k) := by
  obtain ⟨h1, h2, h3⟩ := plain_facts c hc m hm u n hn it hit
  obtain ⟨g1, g2, -⟩ := chain_calls hs ht h1 h2 h3
  obtain ⟨B, hB⟩ := g2.upto hk
  refine ⟨B, fun r hr => ?_⟩
  rcases g1 r k (fun j hj => hB r hr j (by omega)) with ho | hw
  · exact absurd ho (hB r hr k (Nat.le_refl _))
  · exact hw

/-- **C145.** And a call that should not return does not: after the calls before it have returned, its loop has not ended after any number
of rounds. -/
theorem C145_never (c : Cfg) (hc : Sane c) (m : Moment) (hm : m.Valid c) (u : TUnit) (n : Int) (hn : InI64 n) (it : Iter)
    (hit : Iter.build m (amt u n) = .ok it) (as : List Adaptor) (ht : ∀ a ∈ as, a.Typed c) (calls : Nat → Response)
    (hs : Chain c.profile as (plainCalls c m (amt u n)) calls) (k : Nat) (hk : ∀ j, j < k → calls j ≠ .never) (hn' : calls k = .never) :
    ∃ enough, ∀ rounds, enough ≤ rounds → (∀ j, j < k → (calls j).Was ((chained c it as).call rounds j)) ∧
      (chained c it as).call rounds k = some .oof := by
  obtain ⟨h1, h2, h3⟩ := plain_facts c hc m hm u n hn it hit
  obtain ⟨g1, g2, -⟩ := chain_calls hs ht h1 h2 h3
  have hB : ∃ B, ∀ r, B ≤ r → ∀ j, j < k → (chained c it as).call r j ≠ some .oof := by
    cases k with
    | zero => exact ⟨0, fun r _ j hj => by omega⟩
    | succ k =>
      obtain ⟨B, hB⟩ := g2.upto (k := k) (fun j hj => hk j (by omega))
      exact ⟨B, fun r hr j hj => hB r hr j (by omega)⟩
  obtain ⟨B, hB⟩ := hB
  refine ⟨B, fun r hr => ⟨fun j hj => ?_, ?_⟩⟩
  · rcases g1 r j (fun i hi => hB r hr i (by omega)) with ho | hw
    · exact absurd ho (hB r hr j hj)
    · exact hw
  · rcases g1 r k (fun i hi => hB r hr i hi) with ho | hw
    · exact ho
    · rw [hn'] at hw
      cases hr' : (List.foldl (Chained.adapt c) ⟨Iter, fun _ => Iter.next c, it⟩ as).call r k <;> rw [hr'] at hw <;> exact hw.elim

/-- **C145.** There is exactly one sequence of calls for each chain of adaptors. -/
theorem C145_determined (p : Profile) (as : List Adaptor) (calls : Nat → Response) :
    ∃ calls', Chain p as calls calls' ∧ ∀ other, Chain p as calls other → other = calls' := by
  obtain ⟨T, hT⟩ := exists_chain p as calls
  exact ⟨T, hT, fun U hU => chain_unique hT hU⟩

/-- **C145.** On an iterator with a positive step (up to 4.29 billion years), whatever the adaptors, every call returns. -/
theorem C145_returns (c : Cfg) (hc : Sane c) (m : Moment) (hm : m.Valid c) (u : TUnit) (n : Int) (hn : 0 < n)
    (hmax : n * u.secs ≤ 133500000000000000) (it : Iter) (hit : Iter.build m (amt u n) = .ok it) (as : List Adaptor)
    (ht : ∀ a ∈ as, a.Typed c) (calls : Nat → Response) (hs : Chain c.profile as (plainCalls c m (amt u n)) calls) (k : Nat) :
    calls k ≠ .never ∧ ∃ enough, ∀ rounds, enough ≤ rounds → (calls k).Was ((chained c it as).call rounds k) := by
  have hn64 : InI64 n := by
    have : 1 ≤ u.secs := by cases u <;> decide
    have := Int.mul_le_mul_of_nonneg_left this (by omega : (0 : Int) ≤ n)
    unfold InI64; omega
  obtain ⟨L, Y, M, D, H, MI, S, -, herr⟩ := forward_ends c hc m hm u n hn hmax it hit
  have hr : RunsOut (plainCalls c m (amt u n)) := by
    refine ⟨fun k h => (by cases h), L, fun k hk v hv => ?_⟩
    have := C143_items c hc m hm u n hn64 it hit k
    rw [herr k hk] at this
    have hv : itemEnds c m (amt u n) k = .value v := by unfold plainCalls at hv; injection hv
    have this : Says (itemEnds c m (amt u n) k) (.err (.outOfBounds Y M D H MI S)) := this
    rw [hv] at this
    cases this
  have hne := (chain_runsOut hs hr).1
  exact ⟨hne k, C145_calls c hc m hm u n hn64 it hit as ht calls hs k (fun j _ => hne j)⟩

/-- The first three Fridays in January: a daily iterator, filtered twice and cut. -/
example : (List.range 5).map ((chained (std .debug) ⟨.moment (at_ 2017 1 9 0 0 0), .days 1, false⟩
      [.every (.day .friday), .every (.month .january), .times 3]).call 400) =
    [some (.ok (.moment (at_ 2017 1 13 0 0 0))), some (.ok (.moment (at_ 2017 1 20 0 0 0))), some (.ok (.moment (at_ 2017 1 27 0 0 0))),
      none, none] := by decide +kernel

/-- Its hypotheses are met. -/
example (k : Nat) : ∃ calls, Chain .debug [.every (.day .friday), .every (.month .january), .times 3]
      (plainCalls (std .debug) (at_ 2017 1 9 0 0 0) (amt .day 1)) calls ∧ calls k ≠ .never := by
  obtain ⟨S, hS, -⟩ := C145_determined .debug [.every (.day .friday), .every (.month .january), .times 3]
    (plainCalls (std .debug) (at_ 2017 1 9 0 0 0) (amt .day 1))
  exact ⟨S, hS, (C145_returns (std .debug) (by decide) (at_ 2017 1 9 0 0 0) (by decide) .day 1 (by decide) (by decide) _ rfl
    [.every (.day .friday), .every (.month .january), .times 3]
    (fun a ha => by
      simp only [List.mem_cons, List.not_mem_nil, or_false] at ha
      rcases ha with rfl | rfl | rfl
      · trivial
      · trivial
      · show InI64 3; decide) S hS k).1⟩

theorem same_day (k : Nat) : plainCalls (std .debug) (at_ 2017 1 9 0 0 0) (amt .day 0) k =
    .item (.value (.moment (at_ 2017 1 9 0 0 0))) := by
  have : itemEnds (std .debug) (at_ 2017 1 9 0 0 0) (amt .day 0) k = .value (.moment (at_ 2017 1 9 0 0 0)) := by
    induction k with
    | zero => rfl
    | succ k ih => rw [itemEnds, ih]; decide +kernel
  rw [plainCalls, this]

/-- A step of no days, from a Monday, and only Fridays are wanted: already the first call does not return. -/
example : ∃ enough, ∀ rounds, enough ≤ rounds → (∀ j, j < 0 → (Response.never).Was
        ((chained (std .debug) ⟨.moment (at_ 2017 1 9 0 0 0), .days 0, false⟩ [.every (.day .friday)]).call rounds j)) ∧
      (chained (std .debug) ⟨.moment (at_ 2017 1 9 0 0 0), .days 0, false⟩ [.every (.day .friday)]).call rounds 0 = some .oof :=
  C145_never (std .debug) (by decide) (at_ 2017 1 9 0 0 0) (by decide) .day 0 (by decide) _ rfl [.every (.day .friday)]
    (fun a ha => by simp only [List.mem_cons, List.not_mem_nil, or_false] at ha; rw [ha]; trivial) (fun _ => .never)
    (.step (a := .every (.day .friday)) (fun k => .inr ⟨fun i hi => by
      have := hi.1
      rw [same_day] at this
      exact absurd this (by decide +kernel), rfl⟩) (.none _)) 0 (fun j hj => by omega) rfl

end Props
