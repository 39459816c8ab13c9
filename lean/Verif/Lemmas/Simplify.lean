import Verif.Spec.Simplify
import Verif.Lemmas.Pipeline
import Verif.Lemmas.SourceChain

/-!
# Chains of adaptors that do the same
-/

namespace Kairos
open Spec

theorem passedOn_and (f g : Moment → Bool) (r : Response) : passedOn (fun m => f m && g m) r = (passedOn f r && passedOn g r) := by
  unfold passedOn
  split <;> rfl

private theorem count_through {f g : Moment → Bool} {S T : Nat → Response} (h : Filtered f S T) (i : Nat) :
    (List.range i).countP (fun j => passedOn (fun m => f m && g m) (S j)) =
      (List.range ((List.range i).countP (fun j => passedOn f (S j)))).countP (fun j => passedOn g (T j)) := by
  induction i with
  | zero => rfl
  | succ i ih =>
    rw [List.range_succ, List.countP_append, List.countP_append, ih]
    by_cases hf : passedOn f (S i) = true
    · have hT := h.at (k := (List.range i).countP (fun j => passedOn f (S j))) (i := i) ⟨hf, rfl⟩
      simp only [List.countP_cons, List.countP_nil, hf, if_true, passedOn_and, Bool.true_and]
      rw [List.range_succ, List.countP_append]
      simp only [List.countP_cons, List.countP_nil, hT]
    · simp only [List.countP_cons, List.countP_nil, hf, passedOn_and]
      simp

theorem filtered_both {f g : Moment → Bool} {S T U : Nat → Response} (h : Filtered f S T) (h' : Filtered g T U) :
    Filtered (fun m => f m && g m) S U := by
  have key : ∀ {k i}, IsKept (fun m => f m && g m) S k i → IsKept f S ((List.range i).countP (fun j => passedOn f (S j))) i ∧
      IsKept g T k ((List.range i).countP (fun j => passedOn f (S j))) := by
    intro k i hk
    obtain ⟨h1, h2⟩ := hk
    rw [passedOn_and, Bool.and_eq_true] at h1
    have hi : IsKept f S ((List.range i).countP (fun j => passedOn f (S j))) i := ⟨h1.1, rfl⟩
    refine ⟨hi, ?_, by rw [← count_through h i]; exact h2⟩
    rw [h.at hi]
    exact h1.2
  intro k
  rcases h' k with ⟨j, hj, e⟩ | ⟨hno, e⟩
  · rcases h j with ⟨i, hi, e'⟩ | ⟨hno, e'⟩
    · refine .inl ⟨i, ⟨?_, ?_⟩, e.trans e'⟩
      · rw [passedOn_and, hi.1, ← e', hj.1]; rfl
      · rw [count_through h i, hi.2, hj.2]
    · refine .inr ⟨fun i hi => ?_, e.trans e'⟩
      obtain ⟨g1, g2⟩ := key hi
      rw [isKept_unique g2 hj] at g1
      exact hno i g1
  · exact .inr ⟨fun i hi => hno _ (key hi).2, e⟩

/-- Two chains make the same of the calls of any iterator. -/
def SameChains (p : Profile) (as bs : List Adaptor) : Prop := ∀ S T, Chain p as S T ↔ Chain p bs S T

theorem SameChains.of_imp {p : Profile} {as bs : List Adaptor} (h : ∀ S T, Chain p as S T → Chain p bs S T) : SameChains p as bs := by
  intro S T
  refine ⟨h S T, fun hb => ?_⟩
  obtain ⟨U, hU⟩ := exists_chain p as S
  rw [chain_unique (h S U hU) hb]
  exact hU

theorem chain_append {p : Profile} {as bs : List Adaptor} {S T : Nat → Response} :
    Chain p (as ++ bs) S T ↔ ∃ U, Chain p as S U ∧ Chain p bs U T := by
  induction as generalizing S with
  | nil => exact ⟨fun h => ⟨S, .none _, h⟩, fun ⟨U, h, h'⟩ => by cases h; exact h'⟩
  | cons a as ih =>
    constructor
    · intro h
      cases h with
      | step h hs =>
        obtain ⟨U, h1, h2⟩ := ih.1 hs
        exact ⟨U, .step h h1, h2⟩
    · rintro ⟨U, h, h'⟩
      cases h with
      | step h hs => exact .step h (ih.2 ⟨U, hs, h'⟩)

theorem SameChains.within {p : Profile} {xs ys : List Adaptor} (h : SameChains p xs ys) (pre post : List Adaptor) :
    SameChains p (pre ++ xs ++ post) (pre ++ ys ++ post) := by
  intro S T
  simp only [chain_append]
  constructor
  · rintro ⟨U, ⟨V, h1, h2⟩, h3⟩; exact ⟨U, ⟨V, h1, (h _ _).1 h2⟩, h3⟩
  · rintro ⟨U, ⟨V, h1, h2⟩, h3⟩; exact ⟨U, ⟨V, h1, (h _ _).2 h2⟩, h3⟩

private theorem two {p : Profile} {a b : Adaptor} {S T : Nat → Response} (h : Chain p [a, b] S T) :
    ∃ U, a.Makes p S U ∧ b.Makes p U T := by
  cases h with
  | step h hs =>
    cases hs with
    | step h' hs => cases hs; exact ⟨_, h, h'⟩

private theorem one {p : Profile} {a : Adaptor} {S T : Nat → Response} (h : Chain p [a] S T) : a.Makes p S T := by
  cases h with
  | step h hs => cases hs; exact h

private theorem to_one {p : Profile} {a : Adaptor} {S T : Nat → Response} (h : a.Makes p S T) : Chain p [a] S T := .step h (.none _)

/-- Two filters in a row, and the same two the other way round. -/
private theorem filters_swap {p : Profile} {x y : Adaptor} {f g : Moment → Bool} (hx : ∀ S T, x.Makes p S T ↔ Filtered f S T)
    (hy : ∀ S T, y.Makes p S T ↔ Filtered g S T) : SameChains p [x, y] [y, x] := by
  refine .of_imp fun S T h => ?_
  obtain ⟨U, h1, h2⟩ := two h
  have hT := filtered_both ((hx _ _).1 h1) ((hy _ _).1 h2)
  obtain ⟨V, hV⟩ := exists_filtered g S
  obtain ⟨W, hW⟩ := exists_filtered f V
  have hT' := filtered_both hV hW
  have e : (fun m => g m && f m) = (fun m => f m && g m) := by funext m; exact Bool.and_comm _ _
  rw [e] at hT'
  obtain rfl : T = W := by
    have c1 : Chain p [.every (.own fun | .moment m => f m && g m | _ => false)] S T := to_one hT
    have c2 : Chain p [.every (.own fun | .moment m => f m && g m | _ => false)] S W := to_one hT'
    exact (chain_unique c1 c2).symm
  exact .step ((hy _ _).2 hV) (.step ((hx _ _).2 hW) (.none _))

private theorem earlier_both (m d e : Moment) : (Earlier m d ∧ Earlier m e) ↔ Earlier m (earlierOf d e) := by
  unfold earlierOf
  by_cases h : Earlier d e
  · rw [if_pos h]; unfold Earlier at *; omega
  · rw [if_neg h]; unfold Earlier at *; omega

private def cut (e : Moment) : Response → Response
  | .item (.value (.moment m)) => if Earlier m e then .item (.value (.moment m)) else .ended
  | a => a

private theorem upTo_cut (e : Moment) (S : Nat → Response) (k : Nat) : upTo e S k = cut e (S k) := by
  unfold upTo
  split
  · next m h => rw [h]; rfl
  · next h =>
    unfold cut
    split
    · next m h' => exact absurd h' (h m)
    · rfl

private theorem cut_cut (d e : Moment) (r : Response) : cut e (cut d r) = cut (earlierOf d e) r := by
  have key : ∀ m, cut e (cut d (.item (.value (.moment m)))) = cut (earlierOf d e) (.item (.value (.moment m))) := by
    intro m
    have h := earlier_both m d e
    simp only [cut]
    by_cases h1 : Earlier m d
    · by_cases h2 : Earlier m e
      · rw [if_pos h1, if_pos (h.1 ⟨h1, h2⟩)]; simp only [if_pos h2]
      · rw [if_pos h1, if_neg (fun x => h2 (h.2 x).2)]; simp only [if_neg h2]
    · rw [if_neg h1, if_neg (fun x => h1 (h.2 x).1)]
  cases r with
  | item a =>
    cases a with
    | value v => cases v <;> first | rfl | exact key _
    | _ => rfl
  | _ => rfl

theorem sameEffect_chains (p : Profile) {xs ys : List Adaptor} (h : SameEffect xs ys) : SameChains p xs ys := by
  cases h with
  | every_every a b =>
    refine .of_imp fun S T h => ?_
    obtain ⟨U, h1, h2⟩ := two h
    exact to_one (filtered_both h1 h2)
  | without_without a b =>
    refine .of_imp fun S T h => ?_
    obtain ⟨U, h1, h2⟩ := two h
    exact to_one (filtered_both h1 h2)
  | without_every a => 
    refine .of_imp fun S T h => ?_
    have h' : Filtered (fun m => !a.passes m) S T := one h
    exact to_one (a := .every a.not) h'
  | every_twice a =>
    refine .of_imp fun S T h => ?_
    obtain ⟨U, h1, h2⟩ := two h
    have := filtered_both h1 h2
    have e : (fun m => a.passes m && a.passes m) = a.passes := by funext m; exact Bool.and_self _
    rw [e] at this
    exact to_one this
  | every_swap a b => exact filters_swap (fun _ _ => Iff.rfl) (fun _ _ => Iff.rfl)
  | without_swap a b => exact filters_swap (fun _ _ => Iff.rfl) (fun _ _ => Iff.rfl)
  | every_without_swap a b => exact filters_swap (fun _ _ => Iff.rfl) (fun _ _ => Iff.rfl)
  | times_times m n hm hn =>
    refine .of_imp fun S T h => ?_
    obtain ⟨U, h1, h2⟩ := two h
    obtain rfl : U = _ := h1
    obtain rfl : T = _ := h2
    refine to_one (?_ : firstOnes p n (firstOnes p m S) = firstOnes p (min m n) S)
    funext k
    simp only [firstOnes, hm, hn, if_true, (by omega : 0 ≤ min m n)]
    by_cases h1 : (k : Int) < n <;> by_cases h2 : (k : Int) < m <;> simp [h1, h2] <;> omega
  | until_until d e =>
    refine .of_imp fun S T h => ?_
    obtain ⟨U, h1, h2⟩ := two h
    obtain rfl : U = _ := h1
    obtain rfl : T = _ := h2
    refine to_one (?_ : upTo e (upTo d S) = upTo (earlierOf d e) S)
    funext k
    rw [upTo_cut, upTo_cut, upTo_cut, cut_cut]
  | times_until n e =>
    refine .of_imp fun S T h => ?_
    obtain ⟨U, h1, h2⟩ := two h
    obtain rfl : U = _ := h1
    obtain rfl : T = _ := h2
    refine .step (calls' := upTo e S) rfl (to_one (?_ : upTo e (firstOnes p n S) = firstOnes p n (upTo e S)))
    funext k
    rw [upTo_cut]
    unfold firstOnes
    rw [upTo_cut]
    cases p <;> simp only [] <;> repeat' split
    all_goals rfl

theorem rewrites_chains (p : Profile) {as bs : List Adaptor} (h : Rewrites as bs) : SameChains p as bs := by
  induction h with
  | same as => exact fun _ _ => Iff.rfl
  | forth h _ ih => exact fun S T => ((sameEffect_chains p h).within _ _ S T).trans (ih S T)
  | back h _ ih => exact fun S T => ((sameEffect_chains p h).within _ _ S T).symm.trans (ih S T)

/-! ### calls after a panic or after a call that never returns -/

namespace SourceChain

variable {σ : Type}

private theorem stuck_succ (next : Rs.M σ (Option (Except ErrorKind TT))) (k : Nat) : ∀ s,
    (sourceNth next k s = .panic → sourceNth next (k + 1) s = .panic) ∧
      (sourceNth next k s = .oof → sourceNth next (k + 1) s = .oof) := by
  induction k with
  | zero =>
    intro s
    rw [sourceNth_zero]
    have e : sourceNth next (0 + 1) s = (next s >>= fun x => sourceNth next 0 x.2) := rfl
    rw [e]
    rcases next s with ⟨r, s'⟩ | x | _ | _
    · exact ⟨fun h => (nomatch h), fun h => (nomatch h)⟩
    · exact x.elim
    · exact ⟨fun _ => rfl, fun h => (nomatch h)⟩
    · exact ⟨fun h => (nomatch h), fun _ => rfl⟩
  | succ k ih =>
    intro s
    have e : ∀ k, sourceNth next (k + 1) s = (next s >>= fun x => sourceNth next k x.2) := fun _ => rfl
    rw [e, e]
    rcases next s with ⟨r, s'⟩ | x | _ | _
    · exact ih s'
    · exact x.elim
    · exact ⟨fun _ => rfl, fun h => (nomatch h)⟩
    · exact ⟨fun h => (nomatch h), fun _ => rfl⟩

/-- After a panic, or a call that never returned, nothing else comes. -/
def Final (f : Nat → OutE Empty (Option (Except ErrorKind TT))) : Prop :=
  ∀ k, (f k = .panic → f (k + 1) = .panic) ∧ (f k = .oof → f (k + 1) = .oof)

theorem final_call (x : SourceChained) (j : Nat) : Final fun k => x.call (j + k) := fun k => stuck_succ x.next (j + k) x.state

theorem Final.later {f : Nat → OutE Empty (Option (Except ErrorKind TT))} (hf : Final f) {j k : Nat} (h : j ≤ k) :
    (f j = .panic → f k = .panic) ∧ (f j = .oof → f k = .oof) := by
  induction h with
  | refl => exact ⟨id, id⟩
  | step _ ih => exact ⟨fun h => (hf _).1 (ih.1 h), fun h => (hf _).2 (ih.2 h)⟩

/-- The call panics or never returns. -/
def Bad (r : Response) : Prop := r = .never ∨ r = .item .overflow

theorem first_bad (T : Nat → Response) (k : Nat) : (∀ j, j < k → T j ≠ .never ∧ T j ≠ .item .overflow) ∨
    ∃ j, j < k ∧ (∀ i, i < j → T i ≠ .never ∧ T i ≠ .item .overflow) ∧ Bad (T j) := by
  induction k with
  | zero => exact .inl fun j hj => by omega
  | succ k ih =>
    rcases ih with h | ⟨j, h1, h2, h3⟩
    · by_cases hb : Bad (T k)
      · exact .inr ⟨k, by omega, h, hb⟩
      · refine .inl fun j hj => ?_
        rcases Nat.lt_or_eq_of_le (Nat.le_of_lt_succ hj) with hj | rfl
        · exact h j hj
        · exact ⟨fun e => hb (.inl e), fun e => hb (.inr e)⟩
    · exact .inr ⟨j, by omega, h2, h3⟩

/-- If two sequences of calls are described by the same responses, up to the first that panics or never returns, they are equal. -/
theorem calls_eq {f g : Nat → OutE Empty (Option (Except ErrorKind TT))} (hf : Final f) (hg : Final g) {T : Nat → Response}
    (hx : ∀ k, (∀ j, j < k → T j ≠ .never ∧ T j ≠ .item .overflow) → f k = (T k).inSource)
    (hy : ∀ k, (∀ j, j < k → T j ≠ .never ∧ T j ≠ .item .overflow) → g k = (T k).inSource) (k : Nat) : f k = g k := by
  rcases first_bad T k with h | ⟨j, hj, h, hb⟩
  · rw [hx k h, hy k h]
  · have h1 := hx j h
    have h2 := hy j h
    rcases hb with e | e <;> rw [e] at h1 h2
    · rw [(hf.later (Nat.le_of_lt hj)).2 h1, (hg.later (Nat.le_of_lt hj)).2 h2]
    · rw [(hf.later (Nat.le_of_lt hj)).1 h1, (hg.later (Nat.le_of_lt hj)).1 h2]

theorem final (x : SourceChained) : Final x.call := fun k => stuck_succ x.next k x.state

end SourceChain
end Kairos
