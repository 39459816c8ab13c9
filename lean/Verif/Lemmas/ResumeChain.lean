import Verif.Spec.Resumed
import Verif.Lemmas.Simplify

/-!
# A chain of adaptors seen from one of its items on
-/

namespace Kairos
open Spec

theorem countP_shift (P : Nat → Bool) (i a : Nat) :
    (List.range (i + a)).countP P = (List.range i).countP P + (List.range a).countP (fun j => P (i + j)) := by
  induction a with
  | zero => simp
  | succ a ih => rw [← Nat.add_assoc, count_succ, count_succ, ih]; omega

theorem filtered_shift {keep : Moment → Bool} {S T : Nat → Response} (h : Filtered keep S T) {i j : Nat} (hi : IsKept keep S j i) :
    Filtered keep (fun a => S (i + a)) (fun k => T (j + k)) := by
  have key : ∀ k a, IsKept keep (fun a => S (i + a)) k a ↔ IsKept keep S (j + k) (i + a) := by
    intro k a
    unfold IsKept
    rw [countP_shift, hi.2]
    constructor
    · exact fun ⟨h1, h2⟩ => ⟨h1, congrArg (j + ·) h2⟩
    · exact fun ⟨h1, h2⟩ => ⟨h1, Nat.add_left_cancel h2⟩
  intro k
  rcases h (j + k) with ⟨b, hb, e⟩ | ⟨hno, e⟩
  · have hle : i ≤ b := by
      refine Classical.byContradiction fun hlt => ?_
      have := count_mono (P := fun j => passedOn keep (S j)) (show b + 1 ≤ i by omega)
      rw [count_succ, hb.2, hi.2, if_pos hb.1] at this
      omega
    obtain ⟨a, rfl⟩ : ∃ a, b = i + a := ⟨b - i, by omega⟩
    exact .inl ⟨a, (key k a).2 hb, e⟩
  · exact .inr ⟨fun a ha => hno _ ((key k a).1 ha), e⟩

theorem chain_shift {p : Profile} {as : List Adaptor} {S T : Nat → Response} (h : Chain p as S T) :
    (∀ n, .times n ∈ as → 0 ≤ n) → ∀ {j : Nat} {v : TT}, T j = .item (.value v) →
    ∃ i as', CountedDown as as' ∧ S i = .item (.value v) ∧ Chain p as' (fun a => S (i + a)) (fun k => T (j + k)) := by
  induction h with
  | none S => exact fun _ j v hj => ⟨j, [], .nil, hj, .none _⟩
  | @step a as S U T h hs ih =>
    intro hn j v hj
    obtain ⟨i, as', hd, hi, hc⟩ := ih (fun n hm => hn n (List.mem_cons_of_mem _ hm)) hj
    have filter : ∀ {keep : Moment → Bool}, Filtered keep S U → ∃ b, S b = .item (.value v) ∧
        Filtered keep (fun a => S (b + a)) (fun k => U (i + k)) := by
      intro keep hf
      rcases hf i with ⟨b, hb, e⟩ | ⟨-, e⟩
      · exact ⟨b, e.symm.trans hi, filtered_shift hf hb⟩
      · rw [e] at hi; cases hi
    cases a with
    | times n =>
      have h0 := hn n (List.mem_cons_self ..)
      obtain rfl : U = firstOnes p n S := h
      have hi' : (i : Int) < n ∧ S i = .item (.value v) := by
        unfold firstOnes at hi
        rw [if_pos h0] at hi
        split at hi
        · next hlt => exact ⟨hlt, hi⟩
        · cases hi
      refine ⟨i, .times (n - i) :: as', .times n i ⟨by omega, hi'.1⟩ hd, hi'.2, .step (calls' := fun a => firstOnes p n S (i + a)) ?_ hc⟩
      show _ = firstOnes p (n - i) fun a => S (i + a)
      funext a
      unfold firstOnes
      rw [if_pos h0, if_pos (by omega : 0 ≤ n - (i : Int))]
      by_cases hlt : ((i + a : Nat) : Int) < n
      · rw [if_pos hlt, if_pos (by omega)]
      · rw [if_neg hlt, if_neg (by omega)]
    | «until» e =>
      obtain rfl : U = upTo e S := h
      refine ⟨i, .until e :: as', .until e hd, ?_, .step (calls' := fun a => upTo e S (i + a)) rfl hc⟩
      unfold upTo at hi
      split at hi
      · split at hi
        · exact hi
        · cases hi
      · exact hi
    | every t =>
      obtain ⟨b, h1, h2⟩ := filter h
      exact ⟨b, .every t :: as', .every t hd, h1, .step h2 hc⟩
    | without t =>
      obtain ⟨b, h1, h2⟩ := filter h
      exact ⟨b, .without t :: as', .without t hd, h1, .step h2 hc⟩

theorem countedDown_noTimes {as as' : List Adaptor} (h : CountedDown as as') (hn : NoTimes as) : as' = as := by
  induction h with
  | nil => rfl
  | «until» e _ ih => rw [ih fun n hm => hn n (List.mem_cons_of_mem _ hm)]
  | every t _ ih => rw [ih fun n hm => hn n (List.mem_cons_of_mem _ hm)]
  | without t _ ih => rw [ih fun n hm => hn n (List.mem_cons_of_mem _ hm)]
  | times n taken ht _ _ => exact absurd (List.mem_cons_self ..) (hn n)

theorem countedDown_typed {c : Cfg} {as as' : List Adaptor} (h : CountedDown as as') (ht : ∀ a ∈ as, a.Typed c) :
    ∀ a ∈ as', a.Typed c := by
  induction h with
  | nil => exact ht
  | «until» e _ ih =>
    intro a ha
    rcases List.mem_cons.1 ha with rfl | ha
    · exact ht _ (List.mem_cons_self ..)
    · exact ih (fun a ha => ht a (List.mem_cons_of_mem _ ha)) a ha
  | every t _ ih =>
    intro a ha
    rcases List.mem_cons.1 ha with rfl | ha
    · trivial
    · exact ih (fun a ha => ht a (List.mem_cons_of_mem _ ha)) a ha
  | without t _ ih =>
    intro a ha
    rcases List.mem_cons.1 ha with rfl | ha
    · trivial
    · exact ih (fun a ha => ht a (List.mem_cons_of_mem _ ha)) a ha
  | times n taken hk _ ih =>
    intro a ha
    rcases List.mem_cons.1 ha with rfl | ha
    · have h : InI64 n := ht _ (List.mem_cons_self ..)
      show InI64 (n - taken)
      unfold InI64 at *
      omega
    · exact ih (fun a ha => ht a (List.mem_cons_of_mem _ ha)) a ha

theorem plain_shift (c : Cfg) (m r : Moment) (step : TT) {i : Nat} (h : plainCalls c m step i = .item (.value (.moment r))) :
    (fun a => plainCalls c m step (i + a)) = plainCalls c r step := by
  have h : itemEnds c m step i = .value (.moment r) := by unfold plainCalls at h; injection h
  funext a
  unfold plainCalls
  congr 1
  induction a with
  | zero => exact h
  | succ a ih =>
    show itemEnds c m step (i + a + 1) = _
    unfold itemEnds
    rw [ih]

end Kairos
