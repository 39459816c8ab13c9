import Verif.Spec.Pipeline
import Verif.Props.Walk
import Verif.Props.Latching
import Verif.Props.Values

/-!
# Lemmas on chains of adaptors (C145)
-/

namespace Spec
open Kairos Props

/-! ### positions that a filter keeps -/

section Count
variable {P : Nat → Bool}

theorem count_succ (i : Nat) :
    (List.range (i + 1)).countP P = (List.range i).countP P + (if P i = true then 1 else 0) := by
  rw [List.range_succ, List.countP_append]
  by_cases h : P i = true <;> simp [h]

theorem count_mono {i j : Nat} (h : i ≤ j) : (List.range i).countP P ≤ (List.range j).countP P := by
  induction j with
  | zero => have : i = 0 := by omega
            subst this; exact Nat.le_refl _
  | succ j ih =>
    by_cases e : i = j + 1
    · subst e; exact Nat.le_refl _
    · have := ih (by omega)
      rw [count_succ]; omega

theorem count_same {a j : Nat} (h : a ≤ j) (hn : ∀ i, a ≤ i → i < j → P i = false) :
    (List.range j).countP P = (List.range a).countP P := by
  induction j with
  | zero => have : a = 0 := by omega
            subst this; rfl
  | succ j ih =>
    by_cases e : a = j + 1
    · subst e; rfl
    · rw [count_succ, ih (by omega) (fun i h1 h2 => hn i h1 (by omega)), hn j (by omega) (by omega)]
      rfl

end Count

theorem isKept_unique {keep : Moment → Bool} {S : Nat → Response} {k i j : Nat} (hi : IsKept keep S k i) (hj : IsKept keep S k j) :
    i = j := by
  have key : ∀ {i j : Nat}, IsKept keep S k i → IsKept keep S k j → ¬ i < j := by
    intro i j hi hj hlt
    have h := count_mono (P := fun j => passedOn keep (S j)) (show i + 1 ≤ j from hlt)
    rw [count_succ, hi.2, hj.2, if_pos hi.1] at h
    omega
  have h1 := key hi hj
  have h2 := key hj hi
  omega

theorem Filtered.at {keep : Moment → Bool} {S S' : Nat → Response} (h : Filtered keep S S') {k i : Nat} (hi : IsKept keep S k i) :
    S' k = S i := by
  rcases h k with ⟨j, hj, e⟩ | ⟨hn, -⟩
  · rw [e, isKept_unique hj hi]
  · exact absurd hi (hn i)

theorem exists_filtered (keep : Moment → Bool) (S : Nat → Response) : ∃ S', Filtered keep S S' := by
  refine ⟨fun k => @dite _ (∃ i, IsKept keep S k i) (Classical.propDecidable _) (fun h => S h.choose) (fun _ => .never), fun k => ?_⟩
  by_cases h : ∃ i, IsKept keep S k i
  · exact .inl ⟨h.choose, h.choose_spec, by simp only [dif_pos h]⟩
  · exact .inr ⟨fun i hi => h ⟨i, hi⟩, by simp only [dif_neg h]⟩

/-! ### what is claimed of a chain -/

/-- As far as loops are followed, calls return what they should. -/
def Sound (x : Chained) (S : Nat → Response) : Prop :=
  ∀ r k, (∀ j, j < k → x.call r j ≠ some .oof) → x.call r k = some .oof ∨ (S k).Was (x.call r k)

/-- Calls that should return do, if loops are followed for long enough. -/
def Conv (x : Chained) (S : Nat → Response) : Prop :=
  ∀ k, (∀ j, j ≤ k → S j ≠ .never) → ∃ B, ∀ r, B ≤ r → x.call r k ≠ some .oof

/-- All items are dates. -/
def Dates (c : Cfg) (S : Nat → Response) : Prop :=
  ∀ k v, S k = .item (.value v) → ∃ m : Moment, v = .moment m ∧ m.Valid c

theorem Conv.upto {x : Chained} {S : Nat → Response} (h : Conv x S) {k : Nat} (hk : ∀ j, j ≤ k → S j ≠ .never) :
    ∃ B, ∀ r, B ≤ r → ∀ j, j ≤ k → x.call r j ≠ some .oof := by
  induction k with
  | zero =>
    obtain ⟨B, hB⟩ := h 0 hk
    refine ⟨B, fun r hr j hj => ?_⟩
    have : j = 0 := by omega
    subst this; exact hB r hr
  | succ k ih =>
    obtain ⟨B, hB⟩ := ih (fun j hj => hk j (by omega))
    obtain ⟨B', hB'⟩ := h (k + 1) hk
    refine ⟨max B B', fun r hr j hj => ?_⟩
    by_cases e : j = k + 1
    · subst e; exact hB' r (by omega)
    · exact hB r (by omega) j (by omega)

/-! ### filters -/

section Filter
variable {σ : Type} {nx : σ → σ × Item} {M : TT → Out Bool} {keep : Moment → Bool} {c : Cfg} {S : Nat → Response} {s : σ}

/-- What the sieve makes of an item that was the right one. -/
private theorem sieve_was (hM : ∀ m, M (.moment m) = .ok (keep m)) (hd : Dates c S) {k : Nat} {r : Item} (h : (S k).Was r) :
    sieve M r = if passedOn keep (S k) = true then some r else none := by
  cases hS : S k with
  | never => rw [hS] at h; cases r <;> exact h.elim
  | ended => rw [hS] at h; cases r with
    | none => rfl
    | some o => exact h.elim
  | item a =>
    rw [hS] at h
    cases r with
    | none => exact h.elim
    | some o =>
      cases a with
      | refused e => rw [show o = .err e from h]; rfl
      | overflow => rw [show o = .panic from h]; rfl
      | value v =>
        obtain ⟨m, rfl, -⟩ := hd k v hS
        rw [show o = .ok (.moment m) from h]
        have hM := hM m
        have hp : passedOn keep (.item (.value (.moment m))) = keep m := rfl
        by_cases hb : keep m = true
        · rw [hb] at hM hp
          rw [if_pos hp]; simp only [sieve]; rw [hM]
        · rw [Bool.eq_false_iff.2 hb] at hM
          rw [if_neg (by rw [hp]; exact hb)]; simp only [sieve]; rw [hM]

/-- One call of a filter. -/
private theorem one_call (hM : ∀ m, M (.moment m) = .ok (keep m)) (hd : Dates c S)
    (hs : ∀ k, (∀ j, j < k → nth nx j s ≠ some .oof) → nth nx k s = some .oof ∨ (S k).Was (nth nx k s)) (f : Nat) :
    ∀ a, (∀ j, j < a → nth nx j s ≠ some .oof) →
    (∃ j, a ≤ j ∧ (∀ i, a ≤ i → i < j → passedOn keep (S i) = false) ∧ (∀ i, i ≤ j → nth nx i s ≠ some .oof) ∧
      passedOn keep (S j) = true ∧ filterNext nx M f (after nx a s) = (after nx (j + 1) s, nth nx j s)) ∨
    ((filterNext nx M f (after nx a s)).2 = some .oof ∧
      ((∃ j, a ≤ j ∧ nth nx j s = some .oof ∧ ∀ i, a ≤ i → i < j → passedOn keep (S i) = false) ∨
        ∀ j, a ≤ j → j < a + f → passedOn keep (S j) = false)) := by
  induction f with
  | zero => exact fun a _ => .inr ⟨rfl, .inr fun j h1 h2 => by omega⟩
  | succ f ih =>
    intro a ha
    rw [filter_round, ← nth_eq, ← after_succ']
    rcases hs a ha with ho | hw
    · rw [ho]
      exact .inr ⟨rfl, .inl ⟨a, Nat.le_refl _, ho, fun i h1 h2 => by omega⟩⟩
    · rw [sieve_was hM hd hw]
      have hno : nth nx a s ≠ some .oof := by
        intro e
        rw [e] at hw
        cases hS : S a with
        | item q => rw [hS] at hw; cases q <;> cases hw
        | ended => rw [hS] at hw; exact hw
        | never => rw [hS] at hw; exact hw
      have ha' : ∀ j, j < a + 1 → nth nx j s ≠ some .oof := by
        intro j hj
        by_cases e : j = a
        · subst e; exact hno
        · exact ha j (by omega)
      cases hp : passedOn keep (S a) with
      | true =>
        simp only [if_true]
        exact .inl ⟨a, Nat.le_refl _, fun i h1 h2 => by omega, fun i hi => ha' i (by omega), hp, rfl⟩
      | false =>
        simp only [Bool.false_eq_true, if_false]
        rcases ih (a + 1) ha' with ⟨j, h1, h2, h3, h4, h5⟩ | ⟨h1, h2⟩
        · refine .inl ⟨j, by omega, fun i g1 g2 => ?_, h3, h4, h5⟩
          by_cases e : i = a
          · subst e; exact hp
          · exact h2 i (by omega) g2
        · refine .inr ⟨h1, ?_⟩
          rcases h2 with ⟨j, g1, g2, g3⟩ | g
          · refine .inl ⟨j, by omega, g2, fun i k1 k2 => ?_⟩
            by_cases e : i = a
            · subst e; exact hp
            · exact g3 i (by omega) k2
          · refine .inr fun i k1 k2 => ?_
            by_cases e : i = a
            · subst e; exact hp
            · exact g i (by omega) (by omega)

/-- Where a filter is after some calls. -/
private theorem calls_state (hM : ∀ m, M (.moment m) = .ok (keep m)) (hd : Dates c S)
    (hs : ∀ k, (∀ j, j < k → nth nx j s ≠ some .oof) → nth nx k s = some .oof ∨ (S k).Was (nth nx k s)) (f q : Nat)
    (hq : ∀ j, j < q → nth (filterNext nx M f) j s ≠ some .oof) :
    ∃ a, after (filterNext nx M f) q s = after nx a s ∧ (∀ j, j < a → nth nx j s ≠ some .oof) ∧
      (List.range a).countP (fun j => passedOn keep (S j)) = q := by
  induction q with
  | zero => exact ⟨0, rfl, fun j hj => by omega, rfl⟩
  | succ q ih =>
    obtain ⟨a, h1, h2, h3⟩ := ih (fun j hj => hq j (by omega))
    have hne := hq q (by omega)
    rw [nth_eq, h1] at hne
    rcases one_call hM hd hs f a h2 with ⟨j, g1, g2, g3, g4, g5⟩ | ⟨g, -⟩
    · refine ⟨j + 1, ?_, fun i hi => g3 i (by omega), ?_⟩
      · rw [after_succ', h1, g5]
      · rw [count_succ, if_pos g4, count_same g1 g2, h3]
    · exact absurd g hne

end Filter

private theorem filter_chain {c : Cfg} {x : Chained} {S S' : Nat → Response} {M : TT → Out Bool} {keep : Moment → Bool}
    (hM : ∀ m, M (.moment m) = .ok (keep m)) (hF : Filtered keep S S') (h1 : Sound x S) (h2 : Conv x S) (h3 : Dates c S) :
    Sound ⟨x.σ, fun r => filterNext (x.next r) M r, x.state⟩ S' ∧ Conv ⟨x.σ, fun r => filterNext (x.next r) M r, x.state⟩ S' ∧
      Dates c S' := by
  refine ⟨?_, ?_, ?_⟩
  · intro r k hk
    obtain ⟨a, g1, g2, g3⟩ := calls_state hM h3 (h1 r) r k hk
    have e : Chained.call ⟨x.σ, fun r => filterNext (x.next r) M r, x.state⟩ r k =
      (filterNext (x.next r) M r (after (x.next r) a x.state)).2 := by rw [← g1]; exact nth_eq _ _ _
    rcases one_call hM h3 (h1 r) r a g2 with ⟨j, k1, k2, k3, k4, k5⟩ | ⟨k1, -⟩
    · right
      rw [e, k5, hF.at (i := j) ⟨k4, by rw [count_same k1 k2, g3]⟩]
      rcases h1 r j (fun i hi => k3 i (by omega)) with ho | hw
      · exact absurd ho (k3 j (Nat.le_refl _))
      · exact hw
    · left; rw [e, k1]
  · intro k hk
    rcases hF k with ⟨i, hi, -⟩ | ⟨-, hn⟩
    · have hne : ∀ j, j ≤ i → S j ≠ .never := by
        intro j hj e
        have hp : passedOn keep (S j) = true := by rw [e]; rfl
        have hc := count_mono (P := fun j => passedOn keep (S j)) hj
        rw [hi.2] at hc
        exact hk _ hc (by rw [hF.at (i := j) ⟨hp, rfl⟩, e])
      obtain ⟨B, hB⟩ := h2.upto hne
      refine ⟨max B (i + 1), fun r hr => ?_⟩
      have all : ∀ q, q ≤ k → Chained.call ⟨x.σ, fun r => filterNext (x.next r) M r, x.state⟩ r q ≠ some .oof := by
        intro q
        induction q using Nat.strongRecOn with
        | ind q ih =>
          intro hq
          obtain ⟨a, g1, g2, g3⟩ := calls_state hM h3 (h1 r) r q (fun j hj => ih j hj (by omega))
          have e : Chained.call ⟨x.σ, fun r => filterNext (x.next r) M r, x.state⟩ r q =
            (filterNext (x.next r) M r (after (x.next r) a x.state)).2 := by rw [← g1]; exact nth_eq _ _ _
          have hai : a ≤ i := by
            refine Nat.le_of_not_lt fun hlt => ?_
            have hc := count_mono (P := fun j => passedOn keep (S j)) (show i + 1 ≤ a from hlt)
            rw [count_succ, if_pos hi.1, hi.2, g3] at hc
            omega
          rw [e]
          rcases one_call hM h3 (h1 r) r a g2 with ⟨j, k1, k2, k3, k4, k5⟩ | ⟨-, ⟨j, k1, k2, k3⟩ | k1⟩
          · rw [k5]; exact k3 j (Nat.le_refl _)
          · exfalso
            by_cases hji : j ≤ i
            · exact hB r (by omega) j hji k2
            · have := k3 i hai (by omega)
              rw [hi.1] at this; cases this
          · have := k1 i hai (by omega)
            rw [hi.1] at this; cases this
      exact all k (Nat.le_refl _)
    · exact absurd hn (hk k (Nat.le_refl _))
  · intro k v hv
    rcases hF k with ⟨i, -, e⟩ | ⟨-, hn⟩
    · rw [e] at hv; exact h3 i v hv
    · rw [hn] at hv; cases hv

/-! ### the tests -/

theorem Test.matcher_eq (t : Test) (m : Moment) : t.matcher (.moment m) = .ok (t.passes m) := by
  cases t with
  | day d =>
    show d.matches (.moment m) = _
    rw [(C32_matchers m d .january).1, C31_weekday]
    rfl
  | month mo =>
    show mo.matches (.moment m) = _
    rw [(C32_matchers m .monday mo).2.1]
    simp only [TT.isIn, Test.passes, OutE.ok.injEq]
    cases mo <;> rfl
  | own f => rfl

/-! ### one more adaptor -/

private theorem times_call (c : Cfg) (x : Chained) (n : Int) (r k : Nat) (hn : InI64 n) :
    (x.adapt c (.times n)).call r k =
      if 0 ≤ n then (if (k : Int) < n then x.call r k else none)
      else match c.profile with
        | .debug => if (k : Int) < 2 ^ 63 - 1 then x.call r k else some .panic
        | .release => if (k : Int) < 2 ^ 64 + n then x.call r k else none := by
  show nth (timesNext c (x.next r)) k (timesNew x.state n) = _
  by_cases h : 0 ≤ n
  · rw [if_pos h, (C40_times_partial c _ _ n h hn.2 k).1]; rfl
  · rw [if_neg h]
    cases hp : c.profile with
    | debug => simp only; rw [C40_negative_debug_partial c hp _ _ n (by omega) k]; rfl
    | release => simp only; rw [C40_negative_release_partial c hp _ _ n (by omega) hn.1 k]; rfl

private theorem times_chain {c : Cfg} {x : Chained} {S : Nat → Response} {n : Int} (hn : InI64 n)
    (h1 : Sound x S) (h2 : Conv x S) (h3 : Dates c S) :
    Sound (x.adapt c (.times n)) (firstOnes c.profile n S) ∧ Conv (x.adapt c (.times n)) (firstOnes c.profile n S) ∧
      Dates c (firstOnes c.profile n S) := by
  -- either the inner call with everything before it, or one answer for good
  have key : ∀ k : Nat, (∃ r, ∀ q, (x.adapt c (.times n)).call q k = r ∧ r ≠ some .oof ∧ (firstOnes c.profile n S k).Was r ∧
        ∀ v, firstOnes c.profile n S k ≠ .item (.value v)) ∨
      (∀ j, j ≤ k → firstOnes c.profile n S j = S j ∧ ∀ q, (x.adapt c (.times n)).call q j = x.call q j) := by
    intro k
    simp only [times_call c x n _ _ hn, firstOnes]
    by_cases h : 0 ≤ n
    · simp only [if_pos h]
      by_cases hk : (k : Int) < n
      · exact .inr fun j hj => by simp only [if_pos (show (j : Int) < n by omega)]; simp
      · exact .inl ⟨none, fun q => by simp only [if_neg hk]; simp [Response.Was]⟩
    · simp only [if_neg h]
      cases c.profile with
      | debug =>
        simp only
        by_cases hk : (k : Int) < 2 ^ 63 - 1
        · exact .inr fun j hj => by simp only [if_pos (show (j : Int) < 2 ^ 63 - 1 by omega)]; simp
        · exact .inl ⟨some .panic, fun q => by simp only [if_neg hk]; simp [Response.Was, Says]⟩
      | release =>
        simp only
        by_cases hk : (k : Int) < 2 ^ 64 + n
        · exact .inr fun j hj => by simp only [if_pos (show (j : Int) < 2 ^ 64 + n by omega)]; simp
        · exact .inl ⟨none, fun q => by simp only [if_neg hk]; simp [Response.Was]⟩
  refine ⟨?_, ?_, ?_⟩
  · intro r k hk
    rcases key k with ⟨y, hy⟩ | hy
    · obtain ⟨e, -, hw, -⟩ := hy r
      rw [e]; exact .inr hw
    · rw [(hy k (Nat.le_refl _)).1, (hy k (Nat.le_refl _)).2 r]
      refine h1 r k fun j hj => ?_
      rw [← (hy j (by omega)).2 r]; exact hk j hj
  · intro k hk
    rcases key k with ⟨y, hy⟩ | hy
    · refine ⟨0, fun r _ => ?_⟩
      obtain ⟨e, hne, -, -⟩ := hy r
      rw [e]; exact hne
    · obtain ⟨B, hB⟩ := h2 k (fun j hj => by rw [← (hy j hj).1]; exact hk j hj)
      exact ⟨B, fun r hr => by rw [(hy k (Nat.le_refl _)).2 r]; exact hB r hr⟩
  · intro k v hv
    rcases key k with ⟨y, hy⟩ | hy
    · exact absurd hv ((hy 0).2.2.2 v)
    · rw [(hy k (Nat.le_refl _)).1] at hv
      exact h3 k v hv

private theorem until_chain {c : Cfg} {x : Chained} {S : Nat → Response} {e : Moment} (he : e.Valid c)
    (h1 : Sound x S) (h2 : Conv x S) (h3 : Dates c S) :
    Sound (x.adapt c (.until e)) (upTo e S) ∧ Conv (x.adapt c (.until e)) (upTo e S) ∧ Dates c (upTo e S) := by
  have hoof : ∀ r k, x.call r k = some .oof → (x.adapt c (.until e)).call r k = some .oof := by
    intro r k h
    show nth (untilNext c (x.next r) e) k x.state = _
    have h : nth (x.next r) k x.state = some .oof := h
    rw [nth_eq] at h ⊢
    rw [until_after]
    unfold untilNext
    generalize x.next r (after (x.next r) k x.state) = p at h
    obtain ⟨s', o⟩ := p
    subst h; rfl
  have hwas : ∀ r k, (S k).Was (x.call r k) →
      (upTo e S k).Was ((x.adapt c (.until e)).call r k) ∧ (x.adapt c (.until e)).call r k ≠ some .oof := by
    intro r k h
    have hu := C41_until c (x.next r) e x.state k
    have ec : (x.adapt c (.until e)).call r k = nth (untilNext c (x.next r) e) k x.state := rfl
    have ex : x.call r k = nth (x.next r) k x.state := rfl
    rw [ec]; rw [ex] at h
    unfold upTo
    cases hS : S k with
    | never => rw [hS] at h; cases hr : nth (x.next r) k x.state <;> rw [hr] at h <;> exact h.elim
    | ended =>
      rw [hS] at h
      cases hr : nth (x.next r) k x.state with
      | none => rw [hu.2.2.1 hr]; exact ⟨trivial, by simp⟩
      | some o => rw [hr] at h; exact h.elim
    | item a =>
      rw [hS] at h
      cases hr : nth (x.next r) k x.state with
      | none => rw [hr] at h; exact h.elim
      | some o =>
        rw [hr] at h
        cases a with
        | refused er =>
          rw [show o = .err er from h] at hr
          rw [hu.2.1 er hr]
          exact ⟨rfl, by simp⟩
        | overflow =>
          rw [show o = .panic from h] at hr
          have : nth (untilNext c (x.next r) e) k x.state = some .panic := by
            rw [nth_eq] at hr ⊢
            rw [until_after]
            unfold untilNext
            generalize x.next r (after (x.next r) k x.state) = p at hr
            obtain ⟨s', o'⟩ := p
            have hr : o' = some .panic := hr
            subst hr; rfl
          rw [this]
          exact ⟨rfl, by simp⟩
        | value v =>
          obtain ⟨m, rfl, hm⟩ := h3 k v hS
          rw [show o = .ok (.moment m) from h] at hr
          rw [hu.1 m hr hm he]
          by_cases hlt : Earlier m e
          · rw [if_pos (show m.instant < e.instant ∨ (m.instant = e.instant ∧ m.nano < e.nano) from hlt)]
            simp only [if_pos hlt]
            exact ⟨rfl, by simp⟩
          · rw [if_neg (show ¬ (m.instant < e.instant ∨ (m.instant = e.instant ∧ m.nano < e.nano)) from hlt)]
            simp only [if_neg hlt]
            exact ⟨trivial, by simp⟩
  have hnev : ∀ k, S k = .never → upTo e S k = .never := by
    intro k h; unfold upTo; rw [h]
  refine ⟨?_, ?_, ?_⟩
  · intro r k hk
    rcases h1 r k (fun j hj e' => hk j hj (hoof r j e')) with ho | hw
    · exact .inl (hoof r k ho)
    · exact .inr (hwas r k hw).1
  · intro k hk
    obtain ⟨B, hB⟩ := h2.upto (k := k) (fun j hj e' => hk j hj (hnev j e'))
    refine ⟨B, fun r hr => ?_⟩
    rcases h1 r k (fun j hj => hB r hr j (by omega)) with ho | hw
    · exact absurd ho (hB r hr k (Nat.le_refl _))
    · exact (hwas r k hw).2
  · intro k v hv
    unfold upTo at hv
    split at hv
    · split at hv
      · exact h3 k v hv
      · cases hv
    · rename_i a hn
      cases hS : S k with
      | never => rw [hS] at hv; cases hv
      | ended => rw [hS] at hv; cases hv
      | item b =>
        rw [hS] at hv
        cases hv
        exact h3 k v hS

theorem adapt_chain {c : Cfg} {x : Chained} {S S' : Nat → Response} {a : Adaptor} (ha : a.Typed c) (hm : a.Makes c.profile S S')
    (h1 : Sound x S) (h2 : Conv x S) (h3 : Dates c S) :
    Sound (x.adapt c a) S' ∧ Conv (x.adapt c a) S' ∧ Dates c S' := by
  cases a with
  | times n => cases hm; exact times_chain ha h1 h2 h3
  | «until» e => cases hm; exact until_chain ha h1 h2 h3
  | every t => exact filter_chain t.matcher_eq hm h1 h2 h3
  | without t =>
    have e : x.adapt c (.without t) = ⟨x.σ, fun r => filterNext (x.next r) (negated t.matcher) r, x.state⟩ := by
      unfold Chained.adapt
      simp only [Chained.mk.injEq, heq_eq_eq, true_and, and_true]
      funext r s
      exact without_eq_filter _ _ _ _
    rw [e]
    refine filter_chain (fun m => ?_) hm h1 h2 h3
    unfold negated
    rw [t.matcher_eq]

theorem chain_calls {c : Cfg} {as : List Adaptor} {S S' : Nat → Response} (h : Chain c.profile as S S') :
    ∀ {x : Chained}, (∀ a ∈ as, a.Typed c) → Sound x S → Conv x S → Dates c S →
      Sound (as.foldl (Chained.adapt c) x) S' ∧ Conv (as.foldl (Chained.adapt c) x) S' ∧ Dates c S' := by
  induction h with
  | none S => exact fun _ h1 h2 h3 => ⟨h1, h2, h3⟩
  | step hm _ ih =>
    intro x ht h1 h2 h3
    obtain ⟨g1, g2, g3⟩ := adapt_chain (ht _ (by simp)) hm h1 h2 h3
    exact ih (fun a ha => ht a (by simp [ha])) g1 g2 g3

/-! ### from some call on nothing but errors or the end -/

/-- Every call returns, and from some call on it returns no value. -/
def RunsOut (S : Nat → Response) : Prop :=
  (∀ k, S k ≠ .never) ∧ ∃ K, ∀ k, K ≤ k → ∀ v, S k ≠ .item (.value v)

private theorem filter_runsOut {keep : Moment → Bool} {S S' : Nat → Response} (hF : Filtered keep S S') (h : RunsOut S) : RunsOut S' := by
  obtain ⟨h1, K, hK⟩ := h
  have hp : ∀ k, K ≤ k → passedOn keep (S k) = true := by
    intro k hk
    have := hK k hk
    unfold passedOn
    split
    · rename_i m e; exact absurd e (this _)
    · rfl
  have hcount : ∀ d, (List.range (K + d)).countP (fun j => passedOn keep (S j)) =
      (List.range K).countP (fun j => passedOn keep (S j)) + d := by
    intro d
    induction d with
    | zero => rfl
    | succ d ih => rw [← Nat.add_assoc, count_succ, ih, if_pos (hp _ (by omega))]; omega
  have hlate : ∀ k, (List.range K).countP (fun j => passedOn keep (S j)) ≤ k → ∃ i, K ≤ i ∧ IsKept keep S k i := by
    intro k hk
    exact ⟨K + (k - (List.range K).countP (fun j => passedOn keep (S j))), by omega, hp _ (by omega), by rw [hcount]; omega⟩
  have hall : ∀ k, ∃ i, IsKept keep S k i := by
    intro k
    by_cases hk : (List.range K).countP (fun j => passedOn keep (S j)) ≤ k
    · obtain ⟨i, -, hi⟩ := hlate k hk; exact ⟨i, hi⟩
    · have find : ∀ n, k < (List.range n).countP (fun j => passedOn keep (S j)) → ∃ i, IsKept keep S k i := by
        intro n
        induction n with
        | zero => intro h; simp at h
        | succ n ih =>
          intro h
          by_cases h' : k < (List.range n).countP (fun j => passedOn keep (S j))
          · exact ih h'
          · rw [count_succ] at h
            by_cases hpn : passedOn keep (S n) = true
            · rw [if_pos hpn] at h
              exact ⟨n, hpn, by omega⟩
            · rw [if_neg hpn] at h; omega
      exact find K (by omega)
  refine ⟨fun k => ?_, (List.range K).countP (fun j => passedOn keep (S j)), fun k hk v => ?_⟩
  · obtain ⟨i, hi⟩ := hall k
    rw [hF.at hi]; exact h1 i
  · obtain ⟨i, hKi, hi⟩ := hlate k hk
    rw [hF.at hi]; exact hK i hKi v

private theorem makes_runsOut {p : Profile} {a : Adaptor} {S S' : Nat → Response} (hm : a.Makes p S S') (h : RunsOut S) : RunsOut S' := by
  cases a with
  | times n =>
    cases hm
    obtain ⟨h1, K, hK⟩ := h
    have cases' : ∀ k, firstOnes p n S k = S k ∨ firstOnes p n S k = .ended ∨ firstOnes p n S k = .item .overflow := by
      intro k
      unfold firstOnes
      cases p <;> simp only <;> repeat' split
      all_goals first | exact .inl rfl | exact .inr (.inl rfl) | exact .inr (.inr rfl)
    refine ⟨fun k => ?_, K, fun k hk v => ?_⟩
    · rcases cases' k with e | e | e <;> rw [e]
      · exact h1 k
      all_goals simp
    · rcases cases' k with e | e | e <;> rw [e]
      · exact hK k hk v
      all_goals simp
  | «until» e =>
    cases hm
    obtain ⟨h1, K, hK⟩ := h
    have cases' : ∀ k, upTo e S k = S k ∨ upTo e S k = .ended := by
      intro k
      unfold upTo
      split
      · split
        · exact .inl rfl
        · exact .inr rfl
      · exact .inl rfl
    refine ⟨fun k => ?_, K, fun k hk v => ?_⟩
    · rcases cases' k with e | e <;> rw [e]
      · exact h1 k
      · simp
    · rcases cases' k with e | e <;> rw [e]
      · exact hK k hk v
      · simp
  | every t => exact filter_runsOut hm h
  | without t => exact filter_runsOut hm h

theorem chain_runsOut {p : Profile} {as : List Adaptor} {S S' : Nat → Response} (h : Chain p as S S') : RunsOut S → RunsOut S' := by
  induction h with
  | none S => exact id
  | step hm _ ih => exact fun h => ih (makes_runsOut hm h)

/-! ### there is exactly one sequence of calls -/

theorem exists_chain (p : Profile) (as : List Adaptor) : ∀ S, ∃ S', Chain p as S S' := by
  induction as with
  | nil => exact fun S => ⟨S, .none S⟩
  | cons a as ih =>
    intro S
    have : ∃ T, a.Makes p S T := by
      cases a with
      | times n => exact ⟨_, rfl⟩
      | «until» e => exact ⟨_, rfl⟩
      | every t => exact exists_filtered _ S
      | without t => exact exists_filtered _ S
    obtain ⟨T, hT⟩ := this
    obtain ⟨U, hU⟩ := ih T
    exact ⟨U, .step hT hU⟩

private theorem filtered_unique {keep : Moment → Bool} {S T U : Nat → Response} (hT : Filtered keep S T) (hU : Filtered keep S U) : T = U := by
  funext k
  rcases hT k with ⟨i, hi, e⟩ | ⟨hn, e⟩
  · rw [e, hU.at hi]
  · rcases hU k with ⟨i, hi, -⟩ | ⟨-, e'⟩
    · exact absurd hi (hn i)
    · rw [e, e']

theorem chain_unique {p : Profile} {as : List Adaptor} {S T : Nat → Response} (h : Chain p as S T) : ∀ {U}, Chain p as S U → U = T := by
  induction h with
  | none S => intro U hU; cases hU; rfl
  | @step a as S T V hm _ ih =>
    intro U hU
    cases hU with
    | @step _ _ _ T' _ hm' hs' =>
      have : T' = T := by
        cases a with
        | times n => exact Eq.trans hm' hm.symm
        | «until» e => exact Eq.trans hm' hm.symm
        | every t => exact filtered_unique hm' hm
        | without t => exact filtered_unique hm' hm
      subst this
      exact ih hs'

end Spec
