import Verif.Lemmas.Simplify
import Verif.Props.FromSource

/-!
# C157: chains of adaptors that do the same
-/

namespace Props
open Kairos Kairos.Parser Spec

/-- **C157.** Two chains of adaptors that can be rewritten into each other by the rules of `Spec/Simplify.lean` – in any place of the chain, any
number of times – are the same in every call of the translated `next`: the same item, the same error, the end, a panic, or both never
return. -/
theorem C157_rewrites (c : Cfg) (hc : Sane c) (m : Moment) (hm : m.Valid c) (u : TUnit) (n : Int) (hn : InI64 n) (it : Iter)
    (hit : Source.Iter.build c m (amt u n) = .ok it) (as bs : List Adaptor) (hs : Rewrites as bs) (ha : ∀ a ∈ as, a.Typed c)
    (hb : ∀ b ∈ bs, b.Typed c) (k : Nat) : (sourceChained c it as).call k = (sourceChained c it bs).call k := by
  obtain ⟨calls, h⟩ := exists_chain c.profile as (plainCalls c m (amt u n))
  exact SourceChain.calls_eq (SourceChain.final _) (SourceChain.final _) (C153_adaptors c hc m hm u n hn it hit as ha calls h)
    (C153_adaptors c hc m hm u n hn it hit bs hb calls ((rewrites_chains _ hs _ _).1 h)) k

/-- **C157.** The same on an iterator that was moved before the adaptors were put on it. -/
theorem C157_moved (c : Cfg) (hc : Sane c) (m : Moment) (hm : m.Valid c) (u : TUnit) (n : Int) (hn : InI64 n) (it it' : Iter)
    (hit : Source.Iter.build c m (amt u n) = .ok it) (ops : List IterOp) (hops : sourceMoved c it ops = .ok it')
    (hr : ((Cursor.begin m).after c (amt u n) ops).started = true ∨ ∃ v, ((Cursor.begin m).after c (amt u n) ops).place = .value v)
    (as bs : List Adaptor) (hs : Rewrites as bs) (ha : ∀ a ∈ as, a.Typed c) (hb : ∀ b ∈ bs, b.Typed c) (k : Nat) :
    (sourceChained c it' as).call k = (sourceChained c it' bs).call k := by
  obtain ⟨calls, h⟩ := exists_chain c.profile as (((Cursor.begin m).after c (amt u n) ops).nextCalls c (amt u n))
  exact SourceChain.calls_eq (SourceChain.final _) (SourceChain.final _) (C153_moved c hc m hm u n hn it it' hit ops hops hr as ha calls h)
    (C153_moved c hc m hm u n hn it it' hit ops hops hr bs hb calls ((rewrites_chains _ hs _ _).1 h)) k

/-- **C157.** The same on an iterator that was read from a text. -/
theorem C157_texts (c : Cfg) (hc : Sane c) (iso : Iso) (hi : IsoSane iso) (now now' : Moment) (hn : now.Valid c) (hn' : now'.Valid c)
    (amount_expr : Nom.P AmountExpr) (hf : amount_expr = Source.Parser.amount_expr_body amount_expr) (t : List Char) (ui : UserIterator)
    (hp : Source.Parser.parse c iso amount_expr now now' t = .ok (.iterator (.ok ui))) (as bs : List Adaptor) (hs : Rewrites as bs)
    (ha : ∀ a ∈ as, a.Typed c) (hb : ∀ b ∈ bs, b.Typed c) (k : Nat) :
    (sourceChainedRead c ui as).call k = (sourceChainedRead c ui bs).call k := by
  have hp' := hp
  rw [Source.Parser.parse_eq c iso _ hf] at hp'
  obtain ⟨calls, h, -⟩ := C147_determined c hc iso hi now now' hn hn' t ui hp' as
  refine SourceChain.calls_eq (SourceChain.final _) (SourceChain.final _) (C153_texts c hc iso hi now now' hn hn' amount_expr hf t ui hp as ha calls h)
    (C153_texts c hc iso hi now now' hn hn' amount_expr hf t ui hp bs hb calls ?_) k
  obtain ⟨r, start, step, bound, h1, h2, h3, h4, h5⟩ := h
  refine ⟨r, start, step, bound, h1, h2, h3, h4, ?_⟩
  have := (rewrites_chains c.profile hs).within bound []
  rw [List.append_nil, List.append_nil] at this
  exact (this _ _).1 h5

/-! ### cases -/

/-- `.until(d).every(Friday).every(January).times(3)` is `.until(d).every(January and Friday).times(3)`: swap, then join. -/
example : Rewrites [.until (at_ 2018 1 1 0 0 0), .every (.day .friday), .every (.month .january), .times 3]
    [.until (at_ 2018 1 1 0 0 0), .every (Test.and (.month .january) (.day .friday)), .times 3] :=
  .forth (pre := [.until (at_ 2018 1 1 0 0 0)]) (post := [.times 3]) (.every_swap (.day .friday) (.month .january))
    (.forth (pre := [.until (at_ 2018 1 1 0 0 0)]) (post := [.times 3]) (.every_every (.month .january) (.day .friday)) (.same _))

/-- No Saturdays and no Sundays, from a Friday: the second item is the Monday, with either chain. -/
example : (sourceChained (std .debug) ⟨.moment (at_ 2017 1 13 0 0 0), .days 1, false⟩
      [.every (Test.nor (.day .saturday) (.day .sunday))]).call 1 = .ok (some (.ok (.moment (at_ 2017 1 16 0 0 0)))) := by
  rw [← C157_rewrites (std .debug) (by decide) (at_ 2017 1 13 0 0 0) (by decide) .day 1 (by decide) _ (by rw [Source.Iter.build_eq]; rfl)
    [.without (.day .saturday), .without (.day .sunday)] [.every (Test.nor (.day .saturday) (.day .sunday))]
    (.forth (pre := []) (post := []) (.without_without (.day .saturday) (.day .sunday)) (.same _))
    (fun a ha => by simp only [List.mem_cons, List.not_mem_nil, or_false] at ha; rcases ha with rfl | rfl <;> trivial)
    (fun a ha => by simp only [List.mem_cons, List.not_mem_nil, or_false] at ha; rw [ha]; trivial)]
  refine (SourceChain.follows_call (SourceChain.follows_chained _ _ _) 40 1 (fun j hj => ?_)).1
    (.item (.value (.moment (at_ 2017 1 16 0 0 0)))) ?_
  · obtain rfl : j = 0 := by omega
    decide +kernel
  · have : (chained (std .debug) ⟨.moment (at_ 2017 1 13 0 0 0), .days 1, false⟩
        [.without (.day .saturday), .without (.day .sunday)]).call 40 1 = some (.ok (.moment (at_ 2017 1 16 0 0 0))) := by
      decide +kernel
    rw [this]; rfl

/-- And after the iterator has been moved by two days. -/
example (k : Nat) : ∃ it', sourceMoved (std .debug) ⟨.moment (at_ 2017 1 13 0 0 0), .days 1, false⟩ [.next, .skip, .skip] = .ok it' ∧
    (sourceChained (std .debug) it' [.without (.day .saturday), .without (.day .sunday)]).call k =
      (sourceChained (std .debug) it' [.every (Test.nor (.day .saturday) (.day .sunday))]).call k := by
  have hm : sourceMoved (std .debug) ⟨.moment (at_ 2017 1 13 0 0 0), .days 1, false⟩ [.next, .skip, .skip] =
      .ok ⟨.moment (at_ 2017 1 15 0 0 0), .days 1, true⟩ := by
    simp only [sourceMoved, sourceCall, Source.Iter.skip_eq]
    decide +kernel
  refine ⟨_, hm, ?_⟩
  exact C157_moved (std .debug) (by decide) (at_ 2017 1 13 0 0 0) (by decide) .day 1 (by decide)
    ⟨.moment (at_ 2017 1 13 0 0 0), .days 1, false⟩ _ (by rw [Source.Iter.build_eq]; rfl) [.next, .skip, .skip] hm
    (.inl (by decide +kernel))
    [.without (.day .saturday), .without (.day .sunday)] [.every (Test.nor (.day .saturday) (.day .sunday))]
    (.forth (pre := []) (post := []) (.without_without (.day .saturday) (.day .sunday)) (.same _))
    (fun a ha => by simp only [List.mem_cons, List.not_mem_nil, or_false] at ha; rcases ha with rfl | rfl <;> trivial)
    (fun a ha => by simp only [List.mem_cons, List.not_mem_nil, or_false] at ha; rw [ha]; trivial) k

/-- The rules do not join what is different: `.times(3).every(Friday)` and `.every(Friday).times(3)` are not the same. -/
example : ¬ Rewrites [.times 3, .every (.day .friday)] [.every (.day .friday), .times 3] := by
  intro h
  have hc := rewrites_chains .debug h
  obtain ⟨T, hT⟩ := exists_chain .debug [.times 3, .every (.day .friday)] (fun _ => .item (.value (.moment (at_ 2017 1 9 0 0 0))))
  have h2 := (hc _ _).1 hT
  cases hT with
  | step h hs =>
    cases hs with
    | step h' hs =>
      cases hs
      cases h2 with
      | step g gs =>
        cases gs with
        | step g' gs =>
          cases gs
          obtain rfl := h
          obtain rfl : _ = _ := g'
          have a := h' 0
          have b := g 0
          rcases a with ⟨i, hi, e⟩ | ⟨hno, -⟩
          · rcases b with ⟨j, hj, e'⟩ | ⟨-, e'⟩
            · have : passedOn (Test.passes (.day .friday)) (.item (.value (.moment (at_ 2017 1 9 0 0 0)))) = true := hj.1
              exact absurd this (by decide +kernel)
            · have e : Response.never = firstOnes .debug 3 (fun _ => .item (.value (.moment (at_ 2017 1 9 0 0 0)))) i := e'.symm.trans e
              have : i = 3 := by
                have h3 : IsKept (Test.passes (.day .friday)) (firstOnes .debug 3 fun _ => .item (.value (.moment (at_ 2017 1 9 0 0 0)))) 0 3 := by
                  constructor <;> decide +kernel
                exact isKept_unique hi h3
              subst this
              exact absurd e (by decide +kernel)
          · exact hno 3 (by constructor <;> decide +kernel)

end Props
