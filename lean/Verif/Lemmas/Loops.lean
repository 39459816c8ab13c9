import Verif.Lemmas.Simplify

/-!
# Where the items and the end of a chain of adaptors come from
-/

namespace Kairos
open Spec

private theorem filtered_items {keep : Moment → Bool} {S T : Nat → Response} (h : Filtered keep S T) {j j' : Nat} {a b : Answer} (hj : j < j')
    (ha : T j = .item a) (hb : T j' = .item b) : ∃ i i', i < i' ∧ S i = .item a ∧ S i' = .item b := by
  rcases h j with ⟨i, hi, e⟩ | ⟨-, e⟩
  · rcases h j' with ⟨i', hi', e'⟩ | ⟨-, e'⟩
    · refine ⟨i, i', Nat.lt_of_not_le fun hle => ?_, e.symm.trans ha, e'.symm.trans hb⟩
      have := count_mono (P := fun j => passedOn keep (S j)) hle
      rw [hi.2, hi'.2] at this
      omega
    · rw [e'] at hb; cases hb
  · rw [e] at ha; cases ha

private theorem firstOnes_item {p : Profile} {n : Int} (h0 : 0 ≤ n) {S : Nat → Response} {j : Nat} {a : Answer}
    (h : firstOnes p n S j = .item a) : S j = .item a := by
  unfold firstOnes at h
  rw [if_pos h0] at h
  split at h
  · exact h
  · cases h

private theorem upTo_item {e : Moment} {S : Nat → Response} {j : Nat} {a : Answer} (h : upTo e S j = .item a) : S j = .item a := by
  unfold upTo at h
  split at h
  · split at h
    · exact h
    · cases h
  · exact h

/-- Items of a chain are items of what is below, in the same order. -/
theorem chain_items {p : Profile} {as : List Adaptor} {S T : Nat → Response} (h : Chain p as S T) :
    (∀ n, .times n ∈ as → 0 ≤ n) → ∀ {j j' : Nat} {a b : Answer}, j < j' → T j = .item a → T j' = .item b →
    ∃ i i', i < i' ∧ S i = .item a ∧ S i' = .item b := by
  induction h with
  | none S => exact fun _ j j' a b hj ha hb => ⟨j, j', hj, ha, hb⟩
  | @step x as S U T h hs ih =>
    intro hn j j' a b hj ha hb
    obtain ⟨i, i', hi, h1, h2⟩ := ih (fun n hm => hn n (List.mem_cons_of_mem _ hm)) hj ha hb
    cases x with
    | times n =>
      obtain rfl : U = firstOnes p n S := h
      have h0 := hn n (List.mem_cons_self ..)
      exact ⟨i, i', hi, firstOnes_item h0 h1, firstOnes_item h0 h2⟩
    | «until» e =>
      obtain rfl : U = upTo e S := h
      exact ⟨i, i', hi, upTo_item h1, upTo_item h2⟩
    | every t => exact filtered_items h hi h1 h2
    | without t => exact filtered_items h hi h1 h2

/-- And so is one alone. -/
theorem chain_item {p : Profile} {as : List Adaptor} {S T : Nat → Response} (h : Chain p as S T) :
    (∀ n, .times n ∈ as → 0 ≤ n) → ∀ {j : Nat} {a : Answer}, T j = .item a → ∃ i, S i = .item a := by
  induction h with
  | none S => exact fun _ j a ha => ⟨j, ha⟩
  | @step x as S U T h hs ih =>
    intro hn j a ha
    obtain ⟨i, h1⟩ := ih (fun n hm => hn n (List.mem_cons_of_mem _ hm)) ha
    have filter : ∀ {keep : Moment → Bool}, Filtered keep S U → ∃ i, S i = .item a := by
      intro keep hf
      rcases hf i with ⟨b, -, e⟩ | ⟨-, e⟩
      · exact ⟨b, e.symm.trans h1⟩
      · rw [e] at h1; cases h1
    cases x with
    | times n =>
      obtain rfl : U = firstOnes p n S := h
      exact ⟨i, firstOnes_item (hn n (List.mem_cons_self ..)) h1⟩
    | «until» e =>
      obtain rfl : U = upTo e S := h
      exact ⟨i, upTo_item h1⟩
    | every t => exact filter h
    | without t => exact filter h

private theorem filtered_ended {keep : Moment → Bool} {S T : Nat → Response} (h : Filtered keep S T) {i : Nat} (hi : S i = .ended) :
    ∃ k, T k = .ended :=
  ⟨_, (h.at (i := i) ⟨by rw [hi]; rfl, rfl⟩).trans hi⟩

/-- An end is passed on. -/
theorem chain_ended {p : Profile} {as : List Adaptor} {S T : Nat → Response} (h : Chain p as S T) :
    (∀ n, .times n ∈ as → 0 ≤ n) → (∃ i, S i = .ended) → ∃ k, T k = .ended := by
  induction h with
  | none S => exact fun _ h => h
  | @step x as S U T h hs ih =>
    intro hn ⟨i, hi⟩
    refine ih (fun n hm => hn n (List.mem_cons_of_mem _ hm)) ?_
    cases x with
    | times n =>
      obtain rfl : U = firstOnes p n S := h
      have h0 := hn n (List.mem_cons_self ..)
      exact ⟨n.toNat, by unfold firstOnes; rw [if_pos h0, if_neg (by omega)]⟩
    | «until» e =>
      obtain rfl : U = upTo e S := h
      exact ⟨i, by unfold upTo; rw [hi]⟩
    | every t => exact filtered_ended h hi
    | without t => exact filtered_ended h hi

/-- A count ends. -/
theorem chain_times {p : Profile} {as : List Adaptor} {S T : Nat → Response} (h : Chain p as S T) :
    (∀ n, .times n ∈ as → 0 ≤ n) → (∃ n, .times n ∈ as) → ∃ k, T k = .ended := by
  induction h with
  | none S => intro _ ⟨n, h⟩; cases h
  | @step x as S U T h hs ih =>
    intro hn ⟨n, hm⟩
    have hn' : ∀ n, .times n ∈ as → 0 ≤ n := fun n hm => hn n (List.mem_cons_of_mem _ hm)
    rcases List.mem_cons.1 hm with rfl | hm
    · obtain rfl : U = firstOnes p n S := h
      have h0 := hn n (List.mem_cons_self ..)
      exact chain_ended hs hn' ⟨n.toNat, by unfold firstOnes; rw [if_pos h0, if_neg (by omega)]⟩
    · exact ih hn' ⟨n, hm⟩

/-- Where an end comes from: from below, from a count, or from a date that reached an `until`. -/
theorem chain_ended_from {p : Profile} {as : List Adaptor} {S T : Nat → Response} (h : Chain p as S T) :
    (∃ k, T k = .ended) → (∃ i, S i = .ended) ∨ (∃ n, .times n ∈ as) ∨
      ∃ pre e post U j r, as = pre ++ .until e :: post ∧ Chain p pre S U ∧ U j = .item (.value (.moment r)) ∧ ¬ Earlier r e := by
  induction h with
  | none S => exact fun h => .inl h
  | @step x as S U T h hs ih =>
    intro hk
    have filter : ∀ {keep : Moment → Bool}, Filtered keep S U → ∀ i, U i = .ended → ∃ i, S i = .ended := by
      intro keep hf i hi
      rcases hf i with ⟨b, -, e⟩ | ⟨-, e⟩
      · exact ⟨b, e.symm.trans hi⟩
      · rw [e] at hi; cases hi
    rcases ih hk with ⟨i, hi⟩ | ⟨n, hn⟩ | ⟨pre, e, post, V, j, r, rfl, hV, hj, hr⟩
    · cases x with
      | times n => exact .inr (.inl ⟨n, List.mem_cons_self ..⟩)
      | «until» e =>
        obtain rfl : U = upTo e S := h
        unfold upTo at hi
        split at hi
        · next m hm =>
          split at hi
          · rw [hm] at hi; cases hi
          · next hne => exact .inr (.inr ⟨[], e, as, S, i, m, rfl, .none _, hm, hne⟩)
        · exact .inl ⟨i, hi⟩
      | every t => exact .inl (filter h i hi)
      | without t => exact .inl (filter h i hi)
    · exact .inr (.inl ⟨n, List.mem_cons_of_mem _ hn⟩)
    · exact .inr (.inr ⟨x :: pre, e, post, V, j, r, rfl, .step h hV, hj, hr⟩)

end Kairos
