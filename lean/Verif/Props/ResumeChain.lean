import Verif.Lemmas.ResumeChain
import Verif.Props.FromSource

/-!
# C158: an iterator with adaptors can be taken up again from any of its items
-/

namespace Props
open Kairos Kairos.Parser Spec

/-- The calls that came before a value returned. -/
private theorem before_value {x : SourceChained} {T : Nat → Response} {j : Nat} {v : TT}
    (hx : ∀ k, (∀ i, i < k → T i ≠ .never ∧ T i ≠ .item .overflow) → x.call k = (T k).inSource)
    (h : x.call j = .ok (some (.ok v))) : (∀ i, i ≤ j → T i ≠ .never ∧ T i ≠ .item .overflow) ∧ T j = .item (.value v) := by
  rcases SourceChain.first_bad T (j + 1) with hf | ⟨b, hb, hf, hbad⟩
  · refine ⟨fun i hi => hf i (by omega), ?_⟩
    have := (hx j fun i hi => hf i (by omega)).symm.trans h
    revert this
    cases T j with
    | item a => cases a <;> intro e <;> cases e; rfl
    | ended => intro e; cases e
    | never => intro e; cases e
  · have h1 := hx b hf
    have hl := (SourceChain.final x).later (show b ≤ j by omega)
    rcases hbad with e | e <;> rw [e] at h1
    · rw [hl.2 h1] at h; cases h
    · rw [hl.1 h1] at h; cases h

private theorem resume (c : Cfg) (hc : Sane c) (m : Moment) (hm : m.Valid c) (u : TUnit) (n : Int) (hn : InI64 n) (it : Iter)
    (hit : Source.Iter.build c m (amt u n) = .ok it) (as : List Adaptor) (ht : ∀ a ∈ as, a.Typed c) (j : Nat) (r : Moment)
    (hj : (sourceChained c it as).call j = .ok (some (.ok (.moment r))))
    (it' : Iter) (hit' : Source.Iter.build c r (amt u n) = .ok it') (as' : List Adaptor) (ht' : ∀ a ∈ as', a.Typed c)
    (hs : ∀ T, Chain c.profile as (plainCalls c m (amt u n)) T → T j = .item (.value (.moment r)) →
      Chain c.profile as' (plainCalls c r (amt u n)) (fun k => T (j + k))) (k : Nat) :
    (sourceChained c it' as').call k = (sourceChained c it as).call (j + k) := by
  obtain ⟨T, hT⟩ := exists_chain c.profile as (plainCalls c m (amt u n))
  have hx := C153_adaptors c hc m hm u n hn it hit as ht T hT
  obtain ⟨hb, hv⟩ := before_value hx hj
  have hrv : r.Valid c := by
    rw [Source.Iter.build_eq] at hit
    obtain ⟨h1, h2, h3⟩ := plain_facts c hc m hm u n hn it hit
    obtain ⟨-, -, hd⟩ := chain_calls hT ht h1 h2 h3
    obtain ⟨r', e, hr'⟩ := hd j _ hv
    cases e
    exact hr'
  have hy := C153_adaptors c hc r hrv u n hn it' hit' as' ht' _ (hs T hT hv)
  refine SourceChain.calls_eq (SourceChain.final _) (SourceChain.final_call _ j) hy (fun k hk => hx (j + k) fun i hi => ?_) k
  by_cases hij : i < j
  · exact hb i (by omega)
  · obtain ⟨a, rfl⟩ : ∃ a, i = j + a := ⟨i - j, by omega⟩
    exact hk a (by omega)

/-- **C158.** If an iterator with adaptors – any chain without negative counts – returned the date `r` at call `j`, then from there on
it returns, call by call, what the same adaptors, with some of each count taken away, return on a new iterator from `r` with the same
step: the same items, errors and ends, a panic, or both never return. -/
theorem C158_resume (c : Cfg) (hc : Sane c) (m : Moment) (hm : m.Valid c) (u : TUnit) (n : Int) (hn : InI64 n) (it : Iter)
    (hit : Source.Iter.build c m (amt u n) = .ok it) (as : List Adaptor) (ht : ∀ a ∈ as, a.Typed c) (h0 : ∀ n, .times n ∈ as → 0 ≤ n)
    (j : Nat) (r : Moment) (hj : (sourceChained c it as).call j = .ok (some (.ok (.moment r))))
    (it' : Iter) (hit' : Source.Iter.build c r (amt u n) = .ok it') :
    ∃ as', CountedDown as as' ∧ ∀ k, (sourceChained c it' as').call k = (sourceChained c it as).call (j + k) := by
  obtain ⟨T, hT⟩ := exists_chain c.profile as (plainCalls c m (amt u n))
  obtain ⟨-, hv⟩ := before_value (C153_adaptors c hc m hm u n hn it hit as ht T hT) hj
  obtain ⟨i, as', hd, hi, hc'⟩ := chain_shift hT h0 hv
  rw [plain_shift c m r _ hi] at hc'
  refine ⟨as', hd, resume c hc m hm u n hn it hit as ht j r hj it' hit' as' (countedDown_typed hd ht) fun U hU _ => ?_⟩
  rw [chain_unique hT hU]
  exact hc'

/-- **C158.** Without counts the adaptors stay the same. -/
theorem C158_same_adaptors (c : Cfg) (hc : Sane c) (m : Moment) (hm : m.Valid c) (u : TUnit) (n : Int) (hn : InI64 n) (it : Iter)
    (hit : Source.Iter.build c m (amt u n) = .ok it) (as : List Adaptor) (ht : ∀ a ∈ as, a.Typed c) (h0 : NoTimes as)
    (j : Nat) (r : Moment) (hj : (sourceChained c it as).call j = .ok (some (.ok (.moment r))))
    (it' : Iter) (hit' : Source.Iter.build c r (amt u n) = .ok it') (k : Nat) :
    (sourceChained c it' as).call k = (sourceChained c it as).call (j + k) := by
  obtain ⟨as', hd, h⟩ := C158_resume c hc m hm u n hn it hit as ht (fun n hm => absurd hm (h0 n)) j r hj it' hit'
  rw [countedDown_noTimes hd h0] at h
  exact h k

/-- **C158.** A count that comes last in the chain has to be reduced by the calls made before. -/
theorem C158_times (c : Cfg) (hc : Sane c) (m : Moment) (hm : m.Valid c) (u : TUnit) (n : Int) (hn : InI64 n) (it : Iter)
    (hit : Source.Iter.build c m (amt u n) = .ok it) (as : List Adaptor) (ht : ∀ a ∈ as, a.Typed c) (h0 : NoTimes as) (q : Int)
    (hq : 0 ≤ q ∧ q < 2 ^ 63) (j : Nat) (r : Moment)
    (hj : (sourceChained c it (as ++ [.times q])).call j = .ok (some (.ok (.moment r))))
    (it' : Iter) (hit' : Source.Iter.build c r (amt u n) = .ok it') (k : Nat) :
    (sourceChained c it' (as ++ [.times (q - j)])).call k = (sourceChained c it (as ++ [.times q])).call (j + k) := by
  have typed : ∀ q' : Int, -(2 ^ 63) ≤ q' → q' < 2 ^ 63 → ∀ a ∈ as ++ [.times q'], a.Typed c := by
    intro q' h1 h2 a ha
    rcases List.mem_append.1 ha with ha | ha
    · exact ht a ha
    · simp only [List.mem_cons, List.not_mem_nil, or_false] at ha
      rw [ha]
      exact ⟨by omega, by omega⟩
  have hlt : (j : Int) < q := by
    obtain ⟨T, hT⟩ := exists_chain c.profile (as ++ [.times q]) (plainCalls c m (amt u n))
    obtain ⟨-, hv⟩ := before_value (C153_adaptors c hc m hm u n hn it hit _ (typed q (by omega) hq.2) T hT) hj
    obtain ⟨U, -, hU⟩ := Kairos.chain_append.1 hT
    cases hU with
    | step h hs =>
      cases hs
      obtain rfl : T = firstOnes _ q U := h
      unfold firstOnes at hv
      rw [if_pos hq.1] at hv
      split at hv
      · assumption
      · cases hv
  refine resume c hc m hm u n hn it hit _ (typed q (by omega) hq.2) j r hj it' hit' _ (typed (q - j) (by omega) (by omega)) (fun T hT hv => ?_) k
  obtain ⟨U, hU, hU'⟩ := Kairos.chain_append.1 hT
  cases hU' with
  | step h hs =>
    cases hs
    obtain rfl : T = firstOnes _ q U := h
    have hv' : U j = .item (.value (.moment r)) := by
      unfold firstOnes at hv
      rw [if_pos hq.1, if_pos hlt] at hv
      exact hv
    obtain ⟨i, as', hd, hi, hc'⟩ := chain_shift hU (fun n hm => absurd hm (h0 n)) hv'
    rw [plain_shift c m r _ hi, countedDown_noTimes hd h0] at hc'
    refine Kairos.chain_append.2 ⟨_, hc', .step ?_ (.none _)⟩
    show _ = firstOnes _ (q - j) fun k => U (j + k)
    funext a
    unfold firstOnes
    rw [if_pos hq.1, if_pos (by omega : 0 ≤ q - (j : Int))]
    by_cases h : ((j + a : Nat) : Int) < q
    · rw [if_pos h, if_pos (by omega)]
    · rw [if_neg h, if_neg (by omega)]

/-! ### cases -/

/-- `.every(Friday).times(3)` from Monday 9 January 2017: the second item is the 20th. -/
private theorem second : (sourceChained (std .debug) ⟨.moment (at_ 2017 1 9 0 0 0), .days 1, false⟩
    ([.every (.day .friday)] ++ [.times 3])).call 1 = .ok (some (.ok (.moment (at_ 2017 1 20 0 0 0)))) := by
  refine (SourceChain.follows_call (SourceChain.follows_chained _ _ _) 40 1 (fun j hj => ?_)).1
    (.item (.value (.moment (at_ 2017 1 20 0 0 0)))) ?_
  · obtain rfl : j = 0 := by omega
    decide +kernel
  · have : (chained (std .debug) ⟨.moment (at_ 2017 1 9 0 0 0), .days 1, false⟩
        ([.every (.day .friday)] ++ [.times 3])).call 40 1 = some (.ok (.moment (at_ 2017 1 20 0 0 0))) := by
      decide +kernel
    rw [this]; rfl

/-- So `.every(Friday).times(2)` from the 20th goes on like it. -/
example (k : Nat) : (sourceChained (std .debug) ⟨.moment (at_ 2017 1 20 0 0 0), .days 1, false⟩ [.every (.day .friday), .times 2]).call k =
    (sourceChained (std .debug) ⟨.moment (at_ 2017 1 9 0 0 0), .days 1, false⟩ [.every (.day .friday), .times 3]).call (1 + k) :=
  C158_times (std .debug) (by decide) (at_ 2017 1 9 0 0 0) (by decide) .day 1 (by decide) _ (by rw [Source.Iter.build_eq]; rfl)
    [.every (.day .friday)] (fun a ha => by simp only [List.mem_cons, List.not_mem_nil, or_false] at ha; rw [ha]; trivial)
    (fun n h => by simp only [List.mem_cons, List.not_mem_nil, or_false] at h; cases h) 3 (by decide) 1 _ second
    _ (by rw [Source.Iter.build_eq]; rfl) k

/-- `.every(Friday)` alone. -/
private theorem second_friday : (sourceChained (std .debug) ⟨.moment (at_ 2017 1 9 0 0 0), .days 1, false⟩
    [.every (.day .friday)]).call 1 = .ok (some (.ok (.moment (at_ 2017 1 20 0 0 0)))) := by
  refine (SourceChain.follows_call (SourceChain.follows_chained _ _ _) 40 1 (fun j hj => ?_)).1
    (.item (.value (.moment (at_ 2017 1 20 0 0 0)))) ?_
  · obtain rfl : j = 0 := by omega
    decide +kernel
  · have : (chained (std .debug) ⟨.moment (at_ 2017 1 9 0 0 0), .days 1, false⟩
        [.every (.day .friday)]).call 40 1 = some (.ok (.moment (at_ 2017 1 20 0 0 0))) := by
      decide +kernel
    rw [this]; rfl

example (k : Nat) : (sourceChained (std .debug) ⟨.moment (at_ 2017 1 20 0 0 0), .days 1, false⟩ [.every (.day .friday)]).call k =
    (sourceChained (std .debug) ⟨.moment (at_ 2017 1 9 0 0 0), .days 1, false⟩ [.every (.day .friday)]).call (1 + k) :=
  C158_same_adaptors (std .debug) (by decide) (at_ 2017 1 9 0 0 0) (by decide) .day 1 (by decide) _ (by rw [Source.Iter.build_eq]; rfl)
    [.every (.day .friday)] (fun a ha => by simp only [List.mem_cons, List.not_mem_nil, or_false] at ha; rw [ha]; trivial)
    (fun n h => by simp only [List.mem_cons, List.not_mem_nil, or_false] at h; cases h) 1 _ second_friday
    _ (by rw [Source.Iter.build_eq]; rfl) k

example := C158_resume (std .debug) (by decide) (at_ 2017 1 9 0 0 0) (by decide) .day 1 (by decide) _ (by rw [Source.Iter.build_eq]; rfl)
  [.every (.day .friday), .times 3]
  (fun a ha => by
    simp only [List.mem_cons, List.not_mem_nil, or_false] at ha
    rcases ha with rfl | rfl
    · trivial
    · exact (by decide : InI64 3))
  (fun n h => by simp only [List.mem_cons, List.not_mem_nil, or_false, reduceCtorEq, false_or, Adaptor.times.injEq] at h; omega)
  1 _ second ⟨.moment (at_ 2017 1 20 0 0 0), .days 1, false⟩ (by rw [Source.Iter.build_eq]; rfl)

/-- With the count first, `.times(30).every(Friday)`, what is taken from it is not 1 but the 11 days passed. -/
example : CountedDown [.times 30, .every (.day .friday)] [.times 19, .every (.day .friday)] :=
  .times 30 11 (by decide) (.every _ .nil)

end Props
