import Verif.Spec.PipelineText
import Verif.Props.Pipeline
import Verif.Props.WholeProgram
import Verif.Props.SameSteps
import Verif.Tests.Parser

/-!
# C147: from a text to the items of any chain of adaptors
-/

namespace Props
open Kairos Kairos.Parser Spec

/-! ### the same calls, with adaptors on top -/

private theorem adapt_same (c : Cfg) {x y : Chained} (h : ∀ rounds k, x.call rounds k = y.call rounds k) (a : Adaptor) (rounds k : Nat) :
    (x.adapt c a).call rounds k = (y.adapt c a).call rounds k := by
  have := C110_adaptors_see_items c (x.next rounds) (y.next rounds) x.state y.state (h rounds) k
  cases a with
  | times n => exact this.1 n
  | «until» e => exact this.2.1 e
  | every t => exact this.2.2.1 t.matcher rounds
  | without t => exact this.2.2.2 t.matcher rounds

private theorem chain_same (c : Cfg) (as : List Adaptor) : ∀ {x y : Chained}, (∀ rounds k, x.call rounds k = y.call rounds k) →
    ∀ rounds k, (as.foldl (Chained.adapt c) x).call rounds k = (as.foldl (Chained.adapt c) y).call rounds k := by
  induction as with
  | nil => intro x y h; exact h
  | cons a as ih => intro x y h; exact ih (fun rounds k => adapt_same c h a rounds k)

/-! ### what the text is read as -/

/-- What is known of an iterator that `parse` returned. -/
theorem text_facts {c : Cfg} (hc : Sane c) {iso : Iso} (hi : IsoSane iso) {now now' : Moment} (hn : now.Valid c) (hn' : now'.Valid c)
    {t : List Char} {ui : UserIterator} (hp : parse c iso now now' t = .ok (.iterator (.ok ui))) :
    ∃ r m u n bound, read iso t = .iterator r ∧ calculated c (dateMeans c now r.start) = .value (.moment m) ∧
      amountMeans c r.step = .value (amt u n) ∧ Written c now' r.bound bound ∧ m.Valid c ∧ InI64 n ∧ (∀ a ∈ bound, a.Typed c) ∧
      ∀ as rounds k, (chainedRead c ui as).call rounds k = (chained c ⟨.moment m, amt u n, false⟩ (bound ++ as)).call rounds k := by
  rw [C142_every_text] at hp
  cases hr : Spec.read iso t with
  | nothing => rw [hr] at hp; cases hp
  | amounts e => rw [hr] at hp; simp only [Reading.result] at hp; cases ha : amountsMean c e <;> rw [ha] at hp <;> cases hp
  | date d => rw [hr] at hp; simp only [Reading.result] at hp; cases ha : dateMeans c now d <;> rw [ha] at hp <;> cases hp
  | iterator r =>
    rw [hr] at hp
    have ht : WrittenTyped r := by
      unfold Spec.read at hr
      cases hit : readIterator iso t with
      | some q => rw [hit] at hr; cases hr; exact iterator_typed hi hit
      | none =>
        rw [hit] at hr
        cases hd : readDate iso t with
        | some q => rw [hd] at hr; cases hr
        | none => rw [hd] at hr; cases he : readAmounts t <;> rw [he] at hr <;> cases hr
    obtain ⟨⟨t1, t2⟩, t3, t4⟩ := ht
    have hrep : repeats c now now' r = .ok ui := by
      simp only [Reading.result] at hp
      cases hx : repeats c now now' r <;> rw [hx] at hp <;> cases hp
      rfl
    unfold repeats at hrep
    cases hs : amountMeans c r.step with
    | refused e => rw [hs] at hrep; cases hrep
    | overflow => rw [hs] at hrep; cases hrep
    | value step =>
      obtain ⟨-, u, n, rfl, hin⟩ := amount_fit t3 hs
      rw [hs] at hrep
      have hm := momentOf_calculated hc (fun v hv => date_fit hn t1 t2 hv)
      simp only at hrep
      cases hcal : calculated c (dateMeans c now r.start) with
      | refused e => rw [hcal] at hm; rw [show momentOf c (dateMeans c now r.start) = .err e from hm] at hrep; cases hrep
      | overflow => rw [hcal] at hm; rw [show momentOf c (dateMeans c now r.start) = .panic from hm] at hrep; cases hrep
      | value w =>
        rw [hcal] at hm
        cases w
        case moment m =>
          obtain ⟨h1, h2⟩ := hm
          rw [h1] at hrep
          simp only at hrep
          have fin : ∀ bound, (∀ rounds k, (chainedRead c ui []).call rounds k = (chained c ⟨.moment m, amt u n, false⟩ bound).call rounds k) →
              ∀ as rounds k, (chainedRead c ui as).call rounds k = (chained c ⟨.moment m, amt u n, false⟩ (bound ++ as)).call rounds k := by
            intro bound h as rounds k
            unfold chained
            rw [List.foldl_append]
            exact chain_same c as h rounds k
          cases hb : r.bound with
          | none =>
            rw [hb] at hrep
            cases hrep
            exact ⟨r, m, u, n, [], rfl, hcal, hs, by unfold Written; rw [hb], h2, hin, fun a ha => (by cases ha),
              fin [] fun rounds k => (C45_user_iterator c ⟨.moment m, amt u n, false⟩ 0 m k).1⟩
          | some b =>
            rw [hb] at hrep t4
            cases b with
            | times N =>
              cases hrep
              refine ⟨r, m, u, n, [.times N], rfl, hcal, hs, by unfold Written; rw [hb], h2, hin, fun a ha => ?_,
                fin [.times N] fun rounds k => (C45_user_iterator c ⟨.moment m, amt u n, false⟩ N m k).2.1⟩
              simp only [List.mem_cons, List.not_mem_nil, or_false] at ha
              subst ha
              show InI64 N
              unfold InI64
              have := t4.1
              have := t4.2
              omega
            | exact e =>
              have hm' := momentOf_calculated hc (fun v hv => exact_fit hn' t4 hv)
              simp only at hrep
              cases hcal' : calculated c (exactMeans c now' e) with
              | refused e' => rw [hcal'] at hm'; rw [show momentOf c (exactMeans c now' e) = .err e' from hm'] at hrep; cases hrep
              | overflow => rw [hcal'] at hm'; rw [show momentOf c (exactMeans c now' e) = .panic from hm'] at hrep; cases hrep
              | value w' =>
                rw [hcal'] at hm'
                cases w'
                case moment limit =>
                  obtain ⟨g1, g2⟩ := hm'
                  rw [g1] at hrep
                  cases hrep
                  refine ⟨r, m, u, n, [.until limit], rfl, hcal, hs, by unfold Written; rw [hb]; exact ⟨limit, hcal', rfl⟩, h2, hin, fun a ha => ?_,
                    fin [.until limit] fun rounds k => (C45_user_iterator c ⟨.moment m, amt u n, false⟩ 0 limit k).2.2⟩
                  simp only [List.mem_cons, List.not_mem_nil, or_false] at ha
                  subst ha
                  exact g2
                all_goals exact hm'.elim
        all_goals exact hm.elim

private theorem build_amt (m : Moment) (u : TUnit) (n : Int) : Iter.build m (amt u n) = .ok ⟨.moment m, amt u n, false⟩ := by cases u <;> rfl

theorem written_unique {c : Cfg} {now' : Moment} {b : Option UntilSpec} {as bs : List Adaptor} (ha : Written c now' b as)
    (hb : Written c now' b bs) : as = bs := by
  cases b with
  | none => exact ha.trans hb.symm
  | some x =>
    cases x with
    | times n => exact ha.trans hb.symm
    | exact e =>
      obtain ⟨m, h1, rfl⟩ := ha
      obtain ⟨m', h2, rfl⟩ := hb
      rw [h1] at h2
      cases h2
      rfl

private theorem textCalls_chain {c : Cfg} {iso : Iso} {now now' : Moment} {t : List Char} {as : List Adaptor} {calls : Nat → Response}
    (hs : TextCalls c iso now now' t as calls) {r : Repeated} {m : Moment} {step : TT} {bound : List Adaptor} (hr : read iso t = .iterator r)
    (hcal : calculated c (dateMeans c now r.start) = .value (.moment m)) (hst : amountMeans c r.step = .value step)
    (hw : Written c now' r.bound bound) : Chain c.profile (bound ++ as) (plainCalls c m step) calls := by
  obtain ⟨r', m', step', bound', g1, g2, g3, g4, g5⟩ := hs
  rw [hr] at g1
  cases g1
  rw [hcal] at g2
  cases g2
  rw [hst] at g3
  cases g3
  rw [written_unique hw g4]
  exact g5

private theorem typed_append {c : Cfg} {bs as : List Adaptor} (hb : ∀ a ∈ bs, a.Typed c) (ha : ∀ a ∈ as, a.Typed c) :
    ∀ a ∈ bs ++ as, a.Typed c := by
  intro a h
  rcases List.mem_append.1 h with h | h
  · exact hb a h
  · exact ha a h

/-- **C147.** From a text to what comes out of any chain of adaptors: if `parse` returns an iterator, then every call of `next` on it, with
`times`, `until`, `every` and `without` on it, any number of them in any order, returns what `Spec/PipelineText.lean` says, up to a call that
never returns, if there is one. -/
theorem C147_calls (c : Cfg) (hc : Sane c) (iso : Iso) (hi : IsoSane iso) (now now' : Moment) (hn : now.Valid c) (hn' : now'.Valid c)
    (t : List Char) (ui : UserIterator) (hp : parse c iso now now' t = .ok (.iterator (.ok ui))) (as : List Adaptor)
    (ht : ∀ a ∈ as, a.Typed c) (calls : Nat → Response) (hs : TextCalls c iso now now' t as calls) (k : Nat)
    (hk : ∀ j, j ≤ k → calls j ≠ .never) :
    ∃ enough, ∀ rounds, enough ≤ rounds → (calls k).Was ((chainedRead c ui as).call rounds k) := by
  obtain ⟨r, m, u, n, bound, h1, h2, h3, h4, h5, h6, h7, h8⟩ := text_facts hc hi hn hn' hp
  obtain ⟨B, hB⟩ := C145_calls c hc m h5 u n h6 _ (build_amt m u n) (bound ++ as) (typed_append h7 ht) calls
    (textCalls_chain hs h1 h2 h3 h4) k hk
  exact ⟨B, fun rounds hr => by rw [h8]; exact hB rounds hr⟩

/-- **C147.** And a call that should not return does not, after any number of rounds of its loop. -/
theorem C147_never (c : Cfg) (hc : Sane c) (iso : Iso) (hi : IsoSane iso) (now now' : Moment) (hn : now.Valid c) (hn' : now'.Valid c)
    (t : List Char) (ui : UserIterator) (hp : parse c iso now now' t = .ok (.iterator (.ok ui))) (as : List Adaptor)
    (ht : ∀ a ∈ as, a.Typed c) (calls : Nat → Response) (hs : TextCalls c iso now now' t as calls) (k : Nat)
    (hk : ∀ j, j < k → calls j ≠ .never) (hnever : calls k = .never) :
    ∃ enough, ∀ rounds, enough ≤ rounds → (∀ j, j < k → (calls j).Was ((chainedRead c ui as).call rounds j)) ∧
      (chainedRead c ui as).call rounds k = some .oof := by
  obtain ⟨r, m, u, n, bound, h1, h2, h3, h4, h5, h6, h7, h8⟩ := text_facts hc hi hn hn' hp
  obtain ⟨B, hB⟩ := C145_never c hc m h5 u n h6 _ (build_amt m u n) (bound ++ as) (typed_append h7 ht) calls
    (textCalls_chain hs h1 h2 h3 h4) k hk hnever
  refine ⟨B, fun rounds hr => ?_⟩
  obtain ⟨g1, g2⟩ := hB rounds hr
  exact ⟨fun j hj => by rw [h8]; exact g1 j hj, by rw [h8]; exact g2⟩

/-- **C147.** Whenever `parse` returns an iterator, there is such a description for every chain of adaptors, and only one. -/
theorem C147_determined (c : Cfg) (hc : Sane c) (iso : Iso) (hi : IsoSane iso) (now now' : Moment) (hn : now.Valid c) (hn' : now'.Valid c)
    (t : List Char) (ui : UserIterator) (hp : parse c iso now now' t = .ok (.iterator (.ok ui))) (as : List Adaptor) :
    ∃ calls, TextCalls c iso now now' t as calls ∧ ∀ other, TextCalls c iso now now' t as other → other = calls := by
  obtain ⟨r, m, u, n, bound, h1, h2, h3, h4, -⟩ := text_facts hc hi hn hn' hp
  obtain ⟨calls, hs, huniq⟩ := C145_determined c.profile (bound ++ as) (plainCalls c m (amt u n))
  exact ⟨calls, ⟨r, m, _, bound, h1, h2, h3, h4, hs⟩, fun other ho => huniq other (textCalls_chain ho h1 h2 h3 h4)⟩

/-- **C147.** If the step that was written is positive (and at most 4.29 billion years), every call returns, whatever the adaptors. -/
theorem C147_returns (c : Cfg) (hc : Sane c) (iso : Iso) (hi : IsoSane iso) (now now' : Moment) (hn : now.Valid c) (hn' : now'.Valid c)
    (t : List Char) (ui : UserIterator) (hp : parse c iso now now' t = .ok (.iterator (.ok ui))) (r : Repeated)
    (hr : read iso t = .iterator r) (u : TUnit) (n : Int) (hstep : amountMeans c r.step = .value (amt u n)) (hpos : 0 < n)
    (hmax : n * u.secs ≤ 133500000000000000) (as : List Adaptor) (ht : ∀ a ∈ as, a.Typed c) (calls : Nat → Response)
    (hs : TextCalls c iso now now' t as calls) (k : Nat) :
    calls k ≠ .never ∧ ∃ enough, ∀ rounds, enough ≤ rounds → (calls k).Was ((chainedRead c ui as).call rounds k) := by
  obtain ⟨r', m, u', n', bound, h1, h2, h3, h4, h5, h6, h7, h8⟩ := text_facts hc hi hn hn' hp
  rw [hr] at h1
  cases h1
  rw [hstep] at h3
  have he : amt u n = amt u' n' := by injection h3
  have hchain := textCalls_chain hs hr h2 hstep h4
  rw [he] at hchain
  obtain ⟨rfl, rfl⟩ : u = u' ∧ n = n' := by
    cases u <;> cases u' <;> simp only [amt, TT.seconds.injEq, TT.minutes.injEq, TT.hours.injEq, TT.days.injEq, TT.months.injEq,
      TT.years.injEq, reduceCtorEq] at he <;> exact ⟨rfl, he⟩
  obtain ⟨g1, B, hB⟩ := C145_returns c hc m h5 u n hpos hmax _ (build_amt m u n) (bound ++ as) (typed_append h7 ht) calls hchain k
  exact ⟨g1, B, fun rounds hr => by rw [h8]; exact hB rounds hr⟩

/-- Every other day in June 2017 that is a Friday, the first two of them. -/
example : ∃ ui, parse (std .debug) Tests.Parser.extIso (at_ 2017 6 15 0 0 0) (at_ 2017 6 15 0 0 0)
      "2017-06-01 every 2 days until 2017-07-01T00:00:00".toList = .ok (.iterator (.ok ui)) ∧
    (List.range 4).map ((chainedRead (std .debug) ui [.every (.day .friday), .times 2]).call 40) =
      [some (.ok (.moment (at_ 2017 6 9 0 0 0))), some (.ok (.moment (at_ 2017 6 23 0 0 0))), none, none] :=
  ⟨.untilIterator ⟨.moment (at_ 2017 6 1 0 0 0), .days 2, false⟩ (at_ 2017 7 1 0 0 0), by decide +kernel, by decide +kernel⟩

/-- The hypotheses are met by that text and those adaptors. -/
example (k : Nat) : ∃ ui calls, parse (std .debug) Tests.Parser.extIso (at_ 2017 6 15 0 0 0) (at_ 2017 6 15 0 0 0)
        "2017-06-01 every 2 days until 2017-07-01T00:00:00".toList = .ok (.iterator (.ok ui)) ∧
      TextCalls (std .debug) Tests.Parser.extIso (at_ 2017 6 15 0 0 0) (at_ 2017 6 15 0 0 0)
        "2017-06-01 every 2 days until 2017-07-01T00:00:00".toList [.every (.day .friday), .times 2] calls ∧ calls k ≠ .never := by
  have hp : parse (std .debug) Tests.Parser.extIso (at_ 2017 6 15 0 0 0) (at_ 2017 6 15 0 0 0)
      "2017-06-01 every 2 days until 2017-07-01T00:00:00".toList = .ok (.iterator (.ok (.untilIterator
        ⟨.moment (at_ 2017 6 1 0 0 0), .days 2, false⟩ (at_ 2017 7 1 0 0 0)))) := by decide +kernel
  obtain ⟨calls, hs, -⟩ := C147_determined _ (by decide) _ Tests.Parser.isoSane_extIso _ _ (by decide) (by decide) _ _ hp
    [.every (.day .friday), .times 2]
  refine ⟨_, calls, hp, hs, (C147_returns _ (by decide) _ Tests.Parser.isoSane_extIso _ _ (by decide) (by decide) _ _ hp
    _ (by decide +kernel : read Tests.Parser.extIso "2017-06-01 every 2 days until 2017-07-01T00:00:00".toList = .iterator
      ⟨⟨.iso8601Date (.ymd 2017 6 1), none⟩, ⟨2, .day⟩, some (.exact (.iso8601DateTime ⟨.ymd 2017 7 1, 0, 0, 0, 0, 0, 0⟩))⟩)
    .day 2 (by decide +kernel) (by decide) (by decide) _ (fun a ha => ?_) calls hs k).1⟩
  simp only [List.mem_cons, List.not_mem_nil, or_false] at ha
  rcases ha with rfl | rfl
  · trivial
  · show InI64 2; decide

end Props
