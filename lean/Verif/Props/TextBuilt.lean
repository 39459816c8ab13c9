import Verif.Props.ResumeChain

/-!
# C160: an iterator read from a text is one that can be built
-/

namespace Props
open Kairos Kairos.Parser Spec

/-- The numbers in the text fit. -/
theorem read_typed {iso : Iso} (hi : IsoSane iso) {t : List Char} {r : Repeated} (hr : read iso t = .iterator r) : WrittenTyped r := by
  unfold Spec.read at hr
  cases hit : readIterator iso t with
  | some q => rw [hit] at hr; cases hr; exact iterator_typed hi hit
  | none =>
    rw [hit] at hr
    cases hd : readDate iso t with
    | some q => rw [hd] at hr; cases hr
    | none => rw [hd] at hr; cases he : readAmounts t <;> rw [he] at hr <;> cases hr

/-- The bound that was written is an adaptor with arguments that fit, and its count is not negative. -/
theorem written_counts {c : Cfg} {iso : Iso} (hi : IsoSane iso) {now' : Moment} {t : List Char} {r : Repeated} {bound : List Adaptor}
    (hr : read iso t = .iterator r) (hw : Written c now' r.bound bound) : ∀ n, .times n ∈ bound → 0 ≤ n := by
  obtain ⟨-, -, t4⟩ := read_typed hi hr
  intro n hn
  cases hb : r.bound with
  | none =>
    rw [hb] at hw
    obtain rfl : bound = [] := hw
    cases hn
  | some b =>
    rw [hb] at hw t4
    cases b with
    | times N =>
      obtain rfl : bound = [.times N] := hw
      simp only [List.mem_cons, List.not_mem_nil, or_false] at hn
      cases hn
      exact t4.1
    | exact e =>
      obtain ⟨m, -, rfl⟩ := hw
      simp only [List.mem_cons, List.not_mem_nil, or_false] at hn
      cases hn

/-- What is known of it. -/
theorem text_built (c : Cfg) (hc : Sane c) (iso : Iso) (hi : IsoSane iso) (now now' : Moment) (hn : now.Valid c) (hn' : now'.Valid c)
    (amount_expr : Nom.P AmountExpr) (hf : amount_expr = Source.Parser.amount_expr_body amount_expr) (t : List Char) (ui : UserIterator)
    (hp : Source.Parser.parse c iso amount_expr now now' t = .ok (.iterator (.ok ui))) :
    ∃ r m u n bound it, read iso t = .iterator r ∧ calculated c (dateMeans c now r.start) = .value (.moment m) ∧
      amountMeans c r.step = .value (amt u n) ∧ Written c now' r.bound bound ∧ m.Valid c ∧ InI64 n ∧ (∀ a ∈ bound, a.Typed c) ∧
      Source.Iter.build c m (amt u n) = .ok it ∧
      ∀ as, (∀ a ∈ as, a.Typed c) → ∀ k, (sourceChainedRead c ui as).call k = (sourceChained c it (bound ++ as)).call k := by
  have hp' := hp
  rw [Source.Parser.parse_eq c iso _ hf] at hp'
  obtain ⟨r, m, u, n, bound, h1, h2, h3, h4, h5, h6, h7, -⟩ := text_facts hc hi hn hn' hp'
  have hit : Source.Iter.build c m (amt u n) = .ok ⟨.moment m, amt u n, false⟩ := by
    rw [Source.Iter.build_eq]
    cases u <;> rfl
  refine ⟨r, m, u, n, bound, _, h1, h2, h3, h4, h5, h6, h7, hit, fun as ht k => ?_⟩
  obtain ⟨T, hT⟩ := exists_chain c.profile (bound ++ as) (plainCalls c m (amt u n))
  have ht' : ∀ a ∈ bound ++ as, a.Typed c := fun a ha => (List.mem_append.1 ha).elim (h7 a) (ht a)
  exact SourceChain.calls_eq (SourceChain.final _) (SourceChain.final _)
    (C153_texts c hc iso hi now now' hn hn' amount_expr hf t ui hp as ht T ⟨r, m, _, bound, h1, h2, h3, h4, hT⟩)
    (C153_adaptors c hc m h5 u n h6 _ hit (bound ++ as) ht' T hT) k

/-- **C160.** If `parse` returns an iterator, the start that was written is a date, the step an amount that an iterator is built from, and
the iterator read returns, with any adaptors on it, at every call, what the one built from that start with that step returns, with the
adaptor for the bound that was written, if one was, before the others. -/
theorem C160_built (c : Cfg) (hc : Sane c) (iso : Iso) (hi : IsoSane iso) (now now' : Moment) (hn : now.Valid c) (hn' : now'.Valid c)
    (amount_expr : Nom.P AmountExpr) (hf : amount_expr = Source.Parser.amount_expr_body amount_expr) (t : List Char) (ui : UserIterator)
    (hp : Source.Parser.parse c iso amount_expr now now' t = .ok (.iterator (.ok ui))) :
    ∃ r m step bound it, read iso t = .iterator r ∧ calculated c (dateMeans c now r.start) = .value (.moment m) ∧
      amountMeans c r.step = .value step ∧ Written c now' r.bound bound ∧ Source.Iter.build c m step = .ok it ∧
      ∀ as, (∀ a ∈ as, a.Typed c) → ∀ k, (sourceChainedRead c ui as).call k = (sourceChained c it (bound ++ as)).call k := by
  obtain ⟨r, m, u, n, bound, it, h1, h2, h3, h4, -, -, -, h8, h9⟩ := text_built c hc iso hi now now' hn hn' amount_expr hf t ui hp
  exact ⟨r, m, _, bound, it, h1, h2, h3, h4, h8, h9⟩

/-- **C160.** And it can be taken up again from any of its items: if it returned the date `d` at call `j`, then from there on it returns,
call by call, what an iterator built from `d` with the written step returns, with the bound that was written and the other adaptors, some
of each count taken away. -/
theorem C160_resume (c : Cfg) (hc : Sane c) (iso : Iso) (hi : IsoSane iso) (now now' : Moment) (hn : now.Valid c) (hn' : now'.Valid c)
    (amount_expr : Nom.P AmountExpr) (hf : amount_expr = Source.Parser.amount_expr_body amount_expr) (t : List Char) (ui : UserIterator)
    (hp : Source.Parser.parse c iso amount_expr now now' t = .ok (.iterator (.ok ui))) (as : List Adaptor) (ht : ∀ a ∈ as, a.Typed c)
    (h0 : ∀ n, .times n ∈ as → 0 ≤ n) (j : Nat) (d : Moment) (hj : (sourceChainedRead c ui as).call j = .ok (some (.ok (.moment d)))) :
    ∃ r step bound it as', read iso t = .iterator r ∧ amountMeans c r.step = .value step ∧ Written c now' r.bound bound ∧
      Source.Iter.build c d step = .ok it ∧ CountedDown (bound ++ as) as' ∧
      ∀ k, (sourceChained c it as').call k = (sourceChainedRead c ui as).call (j + k) := by
  obtain ⟨r, m, u, n, bound, it, h1, h2, h3, h4, h5, h6, h7, h8, h9⟩ := text_built c hc iso hi now now' hn hn' amount_expr hf t ui hp
  have hit : Source.Iter.build c d (amt u n) = .ok ⟨.moment d, amt u n, false⟩ := by
    rw [Source.Iter.build_eq]
    cases u <;> rfl
  rw [h9 as ht] at hj
  obtain ⟨as', hd, h⟩ := C158_resume c hc m h5 u n h6 it h8 (bound ++ as) (fun a ha => (List.mem_append.1 ha).elim (h7 a) (ht a))
    (fun q hq => (List.mem_append.1 hq).elim (written_counts hi h1 h4 q) (h0 q)) j d hj _ hit
  exact ⟨r, _, bound, _, as', h1, h3, h4, hit, hd, fun k => by rw [h, h9 as ht]⟩

/-! ### cases -/

private theorem june : Source.Parser.parse (std .debug) Tests.Parser.extIso amountExpr (at_ 2017 6 15 0 0 0) (at_ 2017 6 15 0 0 0)
      "2017-06-01 every 2 days until 2017-07-01T00:00:00".toList = .ok (.iterator (.ok (.untilIterator
        ⟨.moment (at_ 2017 6 1 0 0 0), .days 2, false⟩ (at_ 2017 7 1 0 0 0)))) := by
  rw [Source.Parser.parse_eq _ _ _ ((Source.Parser.amount_expr_unique _).2 rfl)]
  decide +kernel

private theorem fridays : ∀ a ∈ [Adaptor.every (.day .friday)], a.Typed (std .debug) := fun a ha => by
  simp only [List.mem_cons, List.not_mem_nil, or_false] at ha
  rw [ha]
  trivial

/-- Every other day in June 2017, the Fridays among them: the second is the 23rd. -/
private theorem second : (sourceChainedRead (std .debug) (.untilIterator ⟨.moment (at_ 2017 6 1 0 0 0), .days 2, false⟩ (at_ 2017 7 1 0 0 0))
    [.every (.day .friday)]).call 1 = .ok (some (.ok (.moment (at_ 2017 6 23 0 0 0)))) := by
  refine (SourceChain.follows_call (SourceChain.follows_chainedRead _ _ _) 40 1 (fun j hj => ?_)).1
    (.item (.value (.moment (at_ 2017 6 23 0 0 0)))) ?_
  · obtain rfl : j = 0 := by omega
    decide +kernel
  · have : (chainedRead (std .debug) (.untilIterator ⟨.moment (at_ 2017 6 1 0 0 0), .days 2, false⟩ (at_ 2017 7 1 0 0 0))
        [.every (.day .friday)]).call 40 1 = some (.ok (.moment (at_ 2017 6 23 0 0 0))) := by
      decide +kernel
    rw [this]; rfl

/-- The iterator built from what was read. -/
example (k : Nat) : ∃ it, Source.Iter.build (std .debug) (at_ 2017 6 1 0 0 0) (.days 2) = .ok it ∧
    (sourceChainedRead (std .debug) (.untilIterator ⟨.moment (at_ 2017 6 1 0 0 0), .days 2, false⟩ (at_ 2017 7 1 0 0 0))
      [.every (.day .friday)]).call k =
    (sourceChained (std .debug) it [.until (at_ 2017 7 1 0 0 0), .every (.day .friday)]).call k := by
  obtain ⟨r, m, step, bound, it, h1, h2, h3, h4, h5, h6⟩ := C160_built (std .debug) (by decide) _ Tests.Parser.isoSane_extIso _ _ (by decide)
    (by decide) _ ((Source.Parser.amount_expr_unique _).2 rfl) _ _ june
  have hr := h1.symm.trans (by decide +kernel : read Tests.Parser.extIso "2017-06-01 every 2 days until 2017-07-01T00:00:00".toList =
    .iterator ⟨⟨.iso8601Date (.ymd 2017 6 1), none⟩, ⟨2, .day⟩, some (.exact (.iso8601DateTime ⟨.ymd 2017 7 1, 0, 0, 0, 0, 0, 0⟩))⟩)
  cases hr
  have hm := h2.symm.trans (by decide +kernel : _ = Answer.value (TT.moment (at_ 2017 6 1 0 0 0)))
  cases hm
  have hs := h3.symm.trans (by decide +kernel : _ = Answer.value (TT.days 2))
  cases hs
  obtain ⟨e, he, rfl⟩ := h4
  have hb := he.symm.trans (by decide +kernel : _ = Answer.value (TT.moment (at_ 2017 7 1 0 0 0)))
  cases hb
  exact ⟨it, h5, h6 _ fridays k⟩

/-- Taken up again from the 23rd. -/
example := C160_resume (std .debug) (by decide) _ Tests.Parser.isoSane_extIso _ _ (by decide) (by decide) _
  ((Source.Parser.amount_expr_unique _).2 rfl) _ _ june _ fridays
  (fun n h => by simp only [List.mem_cons, List.not_mem_nil, or_false] at h; cases h) 1 _ second

end Props
