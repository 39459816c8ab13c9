import Verif.Lemmas.Loops
import Verif.Props.TextBuilt

/-!
# C161: loops over iterators with adaptors
-/

namespace Props
open Kairos Kairos.Parser Spec

/-- What an iterator without adaptors, with a positive step, comes to. -/
theorem forward_items (c : Cfg) (hc : Sane c) (m : Moment) (hm : m.Valid c) (u : TUnit) (n : Int) (hn : 0 < n)
    (hmax : n * u.secs ≤ 133500000000000000) :
    InI64 n ∧ RunsOut (plainCalls c m (amt u n)) ∧
    (∀ k, (∃ r, plainCalls c m (amt u n) k = .item (.value (.moment r))) ∨
      ∃ Y M D H MI S, plainCalls c m (amt u n) k = .item (.refused (.outOfBounds Y M D H MI S))) ∧
    ∀ i j a b, i < j → plainCalls c m (amt u n) i = .item (.value (.moment a)) → plainCalls c m (amt u n) j = .item (.value (.moment b)) →
      a.instant < b.instant := by
  have hn64 : InI64 n := by
    have : 1 ≤ u.secs := by cases u <;> decide
    have := Int.mul_le_mul_of_nonneg_left this (by omega : (0 : Int) ≤ n)
    unfold InI64; omega
  obtain ⟨it, hit⟩ : ∃ it, Iter.build m (amt u n) = .ok it := ⟨⟨.moment m, amt u n, false⟩, by cases u <;> rfl⟩
  have says : ∀ k o, nth (Iter.next c) k it = some o → Says (itemEnds c m (amt u n) k) o := by
    intro k o h
    have := C143_items c hc m hm u n hn64 it hit k
    rw [h] at this
    exact this
  obtain ⟨f1, f2⟩ := C36_strictly_forward_partial c hc m hm u n hn hmax it hit
  have each : ∀ k, (∃ r, plainCalls c m (amt u n) k = .item (.value (.moment r)) ∧ nth (Iter.next c) k it = some (.ok (.moment r))) ∨
      ∃ Y M D H MI S, plainCalls c m (amt u n) k = .item (.refused (.outOfBounds Y M D H MI S)) ∧
        nth (Iter.next c) k it = some (.err (.outOfBounds Y M D H MI S)) := by
    intro k
    rcases f1 k with ⟨r, h⟩ | ⟨Y, M, D, H, MI, S, h⟩
    · refine .inl ⟨r, ?_, h⟩
      have := says k _ h
      unfold plainCalls
      cases hi : itemEnds c m (amt u n) k <;> rw [hi] at this <;> cases this
      rfl
    · refine .inr ⟨Y, M, D, H, MI, S, ?_, h⟩
      have := says k _ h
      unfold plainCalls
      cases hi : itemEnds c m (amt u n) k <;> rw [hi] at this <;> cases this
      rfl
  refine ⟨hn64, ⟨fun k h => (by cases h), ?_⟩, fun k => ?_, fun i j a b hij hi hj => ?_⟩
  · obtain ⟨L, Y, M, D, H, MI, S, -, herr⟩ := forward_ends c hc m hm u n hn hmax it hit
    refine ⟨L, fun k hk v hv => ?_⟩
    rcases each k with ⟨r, -, h⟩ | ⟨_, _, _, _, _, _, h, -⟩
    · rw [herr k hk] at h; cases h
    · rw [h] at hv; cases hv
  · rcases each k with ⟨r, h, -⟩ | ⟨Y, M, D, H, MI, S, h, -⟩
    · exact .inl ⟨r, h⟩
    · exact .inr ⟨Y, M, D, H, MI, S, h⟩
  · rcases each i with ⟨r, h, g⟩ | ⟨_, _, _, _, _, _, h, -⟩
    · rcases each j with ⟨r', h', g'⟩ | ⟨_, _, _, _, _, _, h', -⟩
      · rw [hi] at h
        rw [hj] at h'
        cases h
        cases h'
        obtain ⟨_, _, e, e', hlt⟩ := f2 i j _ _ hij g g'
        cases e
        cases e'
        exact hlt
      · rw [hj] at h'; cases h'
    · rw [hi] at h; cases h

/-- Calls of a chain on it. -/
private theorem described (c : Cfg) (hc : Sane c) (m : Moment) (hm : m.Valid c) (u : TUnit) (n : Int) (hn : 0 < n)
    (hmax : n * u.secs ≤ 133500000000000000) (it : Iter) (hit : Source.Iter.build c m (amt u n) = .ok it) (as : List Adaptor)
    (ht : ∀ a ∈ as, a.Typed c) (h0 : ∀ n, .times n ∈ as → 0 ≤ n) {T : Nat → Response}
    (hT : Chain c.profile as (plainCalls c m (amt u n)) T) :
    (∀ k, T k ≠ .never ∧ T k ≠ .item .overflow) ∧ ∀ k, (sourceChained c it as).call k = (T k).inSource := by
  obtain ⟨h64, hr, hp, -⟩ := forward_items c hc m hm u n hn hmax
  have h : ∀ k, T k ≠ .never ∧ T k ≠ .item .overflow := by
    refine fun k => ⟨(chain_runsOut hT hr).1 k, fun e => ?_⟩
    obtain ⟨i, hi⟩ := chain_item hT h0 e
    rcases hp i with ⟨_, h⟩ | ⟨_, _, _, _, _, _, h⟩ <;> rw [h] at hi <;> cases hi
  exact ⟨h, fun k => C153_adaptors c hc m hm u n h64 it hit as ht T hT k fun j _ => h j⟩

/-- **C161.** A loop over an iterator with a positive step (up to 4.29 billion years), with any adaptors, that stops at the first error ends: after
some number of dates, each later than the one before, comes the end, or an error that says that the next date is out of range. -/
theorem C161_loop_ends (c : Cfg) (hc : Sane c) (m : Moment) (hm : m.Valid c) (u : TUnit) (n : Int) (hn : 0 < n)
    (hmax : n * u.secs ≤ 133500000000000000) (it : Iter) (hit : Source.Iter.build c m (amt u n) = .ok it) (as : List Adaptor)
    (ht : ∀ a ∈ as, a.Typed c) (h0 : ∀ n, .times n ∈ as → 0 ≤ n) :
    ∃ (N : Nat) (d : Nat → Moment), (∀ k, k < N → (sourceChained c it as).call k = .ok (some (.ok (.moment (d k))))) ∧
      (∀ i j, i < j → j < N → (d i).instant < (d j).instant) ∧
      ((sourceChained c it as).call N = .ok none ∨
        ∃ Y M D H MI S, (sourceChained c it as).call N = .ok (some (.error (.outOfBounds Y M D H MI S)))) := by
  obtain ⟨T, hT⟩ := exists_chain c.profile as (plainCalls c m (amt u n))
  obtain ⟨h64, hr, hp, hlt⟩ := forward_items c hc m hm u n hn hmax
  obtain ⟨hne, hcall⟩ := described c hc m hm u n hn hmax it hit as ht h0 hT
  have each : ∀ k, (∃ r, T k = .item (.value (.moment r))) ∨ T k = .ended ∨
      ∃ Y M D H MI S, T k = .item (.refused (.outOfBounds Y M D H MI S)) := by
    intro k
    cases h : T k with
    | never => exact absurd h (hne k).1
    | ended => exact .inr (.inl rfl)
    | item a =>
      obtain ⟨i, hi⟩ := chain_item hT h0 h
      rcases hp i with ⟨r, e⟩ | ⟨Y, M, D, H, MI, S, e⟩ <;> rw [e] at hi <;> cases hi
      · exact .inl ⟨r, rfl⟩
      · exact .inr (.inr ⟨Y, M, D, H, MI, S, rfl⟩)
  obtain ⟨-, K, hK⟩ := chain_runsOut hT hr
  have first : ∀ K, (∀ v, T K ≠ .item (.value v)) → ∃ N, (∀ k, k < N → ∃ r, T k = .item (.value (.moment r))) ∧ ∀ v, T N ≠ .item (.value v) := by
    intro K
    induction K using Nat.strongRecOn with
    | ind K ih =>
      intro hK
      by_cases h : ∃ j, j < K ∧ ∀ v, T j ≠ .item (.value v)
      · obtain ⟨j, hj, hv⟩ := h
        exact ih j hj hv
      · refine ⟨K, fun k hk => ?_, hK⟩
        rcases each k with h' | h' | ⟨_, _, _, _, _, _, h'⟩
        · exact h'
        · exact absurd ⟨k, hk, fun v e => by rw [e] at h'; cases h'⟩ h
        · exact absurd ⟨k, hk, fun v e => by rw [e] at h'; cases h'⟩ h
  obtain ⟨N, h1, h2⟩ := first K (hK K (Nat.le_refl _))
  refine ⟨N, fun k => match T k with | .item (.value (.moment r)) => r | _ => m, fun k hk => ?_, fun i j hij hj => ?_, ?_⟩
  · obtain ⟨r, e⟩ := h1 k hk
    simp only [hcall, e]
    rfl
  · obtain ⟨a, ea⟩ := h1 i (by omega)
    obtain ⟨b, eb⟩ := h1 j hj
    obtain ⟨i', j', hij', ha, hb⟩ := chain_items hT h0 hij ea eb
    simp only [ea, eb]
    exact hlt i' j' a b hij' ha hb
  · rcases each N with ⟨r, e⟩ | e | ⟨Y, M, D, H, MI, S, e⟩
    · exact absurd e (h2 _)
    · exact .inl (by rw [hcall, e]; rfl)
    · exact .inr ⟨Y, M, D, H, MI, S, by rw [hcall, e]; rfl⟩

/-- **C161.** A loop that goes on after errors ends exactly if there is a count among the adaptors, or an `until` that a date gets to that
is not before its end date; otherwise the error is repeated for ever. -/
theorem C161_none_iff (c : Cfg) (hc : Sane c) (m : Moment) (hm : m.Valid c) (u : TUnit) (n : Int) (hn : 0 < n)
    (hmax : n * u.secs ≤ 133500000000000000) (it : Iter) (hit : Source.Iter.build c m (amt u n) = .ok it) (as : List Adaptor)
    (ht : ∀ a ∈ as, a.Typed c) (h0 : ∀ n, .times n ∈ as → 0 ≤ n) :
    (∃ k, (sourceChained c it as).call k = .ok none) ↔
      (∃ n, .times n ∈ as) ∨ ∃ pre e post j r, as = pre ++ .until e :: post ∧
        (sourceChained c it pre).call j = .ok (some (.ok (.moment r))) ∧ ¬ Earlier r e := by
  obtain ⟨T, hT⟩ := exists_chain c.profile as (plainCalls c m (amt u n))
  obtain ⟨hne, hcall⟩ := described c hc m hm u n hn hmax it hit as ht h0 hT
  have hiff : (∃ k, (sourceChained c it as).call k = .ok none) ↔ ∃ k, T k = .ended := by
    constructor
    · rintro ⟨k, hk⟩
      refine ⟨k, ?_⟩
      rw [hcall] at hk
      revert hk
      cases T k with
      | item a => cases a <;> intro e <;> cases e
      | ended => intro _; rfl
      | never => intro e; cases e
    · rintro ⟨k, hk⟩
      exact ⟨k, by rw [hcall, hk]; rfl⟩
  rw [hiff]
  constructor
  · intro h
    rcases chain_ended_from hT h with ⟨i, hi⟩ | h | ⟨pre, e, post, U, j, r, rfl, hU, hj, hr⟩
    · cases hi
    · exact .inl h
    · refine .inr ⟨pre, e, post, j, r, rfl, ?_, hr⟩
      rw [(described c hc m hm u n hn hmax it hit pre (fun a ha => ht a (List.mem_append_left _ ha))
        (fun q hq => h0 q (List.mem_append_left _ hq)) hU).2, hj]
      rfl
  · rintro (h | ⟨pre, e, post, j, r, rfl, hj, hr⟩)
    · exact chain_times hT h0 h
    · obtain ⟨U, hU, hV⟩ := Kairos.chain_append.1 hT
      rw [(described c hc m hm u n hn hmax it hit pre (fun a ha => ht a (List.mem_append_left _ ha))
        (fun q hq => h0 q (List.mem_append_left _ hq)) hU).2] at hj
      have hj : U j = .item (.value (.moment r)) := by
        revert hj
        cases U j with
        | item a => cases a <;> intro e <;> cases e; rfl
        | ended => intro e; cases e
        | never => intro e; cases e
      cases hV with
      | step hs hp =>
        refine chain_ended hp (fun q hq => h0 q (List.mem_append_right _ (List.mem_cons_of_mem _ hq))) ⟨j, ?_⟩
        rw [show _ = upTo e U from hs]
        unfold upTo
        rw [hj]
        exact if_neg hr

/-- **C161.** So does a loop over an iterator read from a text, if the step that was written is positive (and at most 4.29 billion years),
with any adaptors. -/
theorem C161_texts (c : Cfg) (hc : Sane c) (iso : Iso) (hi : IsoSane iso) (now now' : Moment) (hn : now.Valid c) (hn' : now'.Valid c)
    (amount_expr : Nom.P AmountExpr) (hf : amount_expr = Source.Parser.amount_expr_body amount_expr) (t : List Char) (ui : UserIterator)
    (hp : Source.Parser.parse c iso amount_expr now now' t = .ok (.iterator (.ok ui))) (r : Repeated) (hr : read iso t = .iterator r)
    (u : TUnit) (n : Int) (hstep : amountMeans c r.step = .value (amt u n)) (hpos : 0 < n) (hmax : n * u.secs ≤ 133500000000000000)
    (as : List Adaptor) (ht : ∀ a ∈ as, a.Typed c) (h0 : ∀ n, .times n ∈ as → 0 ≤ n) :
    ∃ (N : Nat) (d : Nat → Moment), (∀ k, k < N → (sourceChainedRead c ui as).call k = .ok (some (.ok (.moment (d k))))) ∧
      (∀ i j, i < j → j < N → (d i).instant < (d j).instant) ∧
      ((sourceChainedRead c ui as).call N = .ok none ∨
        ∃ Y M D H MI S, (sourceChainedRead c ui as).call N = .ok (some (.error (.outOfBounds Y M D H MI S)))) := by
  obtain ⟨r', m, u', n', bound, it, h1, -, h3, h4, h5, -, h7, h8, h9⟩ := text_built c hc iso hi now now' hn hn' amount_expr hf t ui hp
  rw [hr] at h1
  cases h1
  rw [hstep] at h3
  injection h3 with h3
  rw [← h3] at h8
  have := C161_loop_ends c hc m h5 u n hpos hmax it h8 (bound ++ as) (fun a ha => (List.mem_append.1 ha).elim (h7 a) (ht a))
    (fun q hq => (List.mem_append.1 hq).elim (written_counts hi hr h4 q) (h0 q))
  simp only [h9 as ht]
  exact this

/-! ### cases -/

/-- The Fridays until 1 February: a loop ends either way. -/
example := C161_loop_ends (std .debug) (by decide) (at_ 2017 1 9 0 0 0) (by decide) .day 1 (by decide) (by decide) _
  (by rw [Source.Iter.build_eq]; rfl) [.every (.day .friday), .until (at_ 2017 2 1 0 0 0)]
  (fun a ha => by
    simp only [List.mem_cons, List.not_mem_nil, or_false] at ha
    rcases ha with rfl | rfl
    · trivial
    · show Moment.Valid _ _; decide)
  (fun n h => by simp only [List.mem_cons, List.not_mem_nil, or_false] at h; rcases h with h | h <;> cases h)

/-- In steps of a hundred thousand years until the last day: an error, for ever. The dates are the years 2017, 102017 and 202017. -/
example (k : Nat) : (sourceChained (std .debug) ⟨.moment (at_ 2017 1 1 0 0 0), .years 100000, false⟩
    [.until (at_ 262143 12 31 0 0 0)]).call k ≠ .ok none := by
  intro h
  have typed : ∀ a ∈ [Adaptor.until (at_ 262143 12 31 0 0 0)], a.Typed (std .debug) := fun a ha => by
    simp only [List.mem_cons, List.not_mem_nil, or_false] at ha
    rw [ha]
    show Moment.Valid _ _
    decide
  have hit : Source.Iter.build (std .debug) (at_ 2017 1 1 0 0 0) (amt .year 100000) =
      .ok ⟨.moment (at_ 2017 1 1 0 0 0), .years 100000, false⟩ := by rw [Source.Iter.build_eq]; rfl
  rcases (C161_none_iff (std .debug) (by decide) (at_ 2017 1 1 0 0 0) (by decide) .year 100000 (by decide) (by decide) _ hit _ typed
    (fun n h => by simp only [List.mem_cons, List.not_mem_nil, or_false] at h; cases h)).1 ⟨k, h⟩ with ⟨n, h⟩ | ⟨pre, e, post, j, r, h1, h2, h3⟩
  · simp only [List.mem_cons, List.not_mem_nil, or_false] at h
    cases h
  · cases pre with
    | cons a pre => cases pre <;> cases h1
    | nil =>
      cases h1
      rw [C153_adaptors (std .debug) (by decide) (at_ 2017 1 1 0 0 0) (by decide) .year 100000 (by decide) _ hit []
        (fun a ha => by cases ha) _ (.none _) j (fun i _ => (forward_items (std .debug) (by decide) (at_ 2017 1 1 0 0 0) (by decide) .year 100000
          (by decide) (by decide)).2.2.1 i |>.elim (fun ⟨_, e⟩ => by rw [e]; exact ⟨nofun, nofun⟩)
          (fun ⟨_, _, _, _, _, _, e⟩ => by rw [e]; exact ⟨nofun, nofun⟩))] at h2
      have later : ∀ j, itemEnds (std .debug) (at_ 2017 1 1 0 0 0) (amt .year 100000) (j + 3) = .refused (.outOfBounds 302017 1 0 0 0 0) := by
        intro j
        induction j with
        | zero => decide +kernel
        | succ j ih =>
          show (itemEnds _ _ _ (j + 3)).andThen _ = _
          rw [ih]
          rfl
      match j with
      | 0 => cases h2; exact h3 (by decide)
      | 1 =>
        rw [show plainCalls (std .debug) (at_ 2017 1 1 0 0 0) (amt .year 100000) 1 = .item (.value (.moment (at_ 102017 1 1 0 0 0))) by decide +kernel] at h2
        cases h2; exact h3 (by decide)
      | 2 =>
        rw [show plainCalls (std .debug) (at_ 2017 1 1 0 0 0) (amt .year 100000) 2 = .item (.value (.moment (at_ 202017 1 1 0 0 0))) by decide +kernel] at h2
        cases h2; exact h3 (by decide)
      | j + 3 =>
        unfold plainCalls at h2
        rw [later] at h2
        cases h2

/-- A text, with adaptors. -/
example (ui : UserIterator)
    (hp : Source.Parser.parse (std .debug) Tests.Parser.extIso amountExpr (at_ 2017 6 15 0 0 0) (at_ 2017 6 15 0 0 0)
      "2017-06-01 every 2 days until 2017-07-01T00:00:00".toList = .ok (.iterator (.ok ui))) :=
  C161_texts (std .debug) (by decide) _ Tests.Parser.isoSane_extIso _ _ (by decide) (by decide) _
    ((Source.Parser.amount_expr_unique _).2 rfl) _ _ hp _
    (by decide +kernel : read Tests.Parser.extIso "2017-06-01 every 2 days until 2017-07-01T00:00:00".toList = .iterator
      ⟨⟨.iso8601Date (.ymd 2017 6 1), none⟩, ⟨2, .day⟩, some (.exact (.iso8601DateTime ⟨.ymd 2017 7 1, 0, 0, 0, 0, 0, 0⟩))⟩)
    .day 2 (by decide +kernel) (by decide) (by decide) [.times 3]
    (fun a ha => by
      simp only [List.mem_cons, List.not_mem_nil, or_false] at ha
      rw [ha]
      exact ⟨by decide, by decide⟩)
    (fun n h => by
      simp only [List.mem_cons, List.not_mem_nil, or_false] at h
      cases h
      decide)

end Props
