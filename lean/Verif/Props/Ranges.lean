import Verif.Props.FindBetween
import Verif.Props.Resume
import Verif.Spec.Yields

/-!
# C128: stretches of time can be split and sorted
-/

namespace Props
open Kairos Spec

/-- A filter that lets everything through is no filter. -/
private theorem filter_all {σ : Type} (nx : σ → σ × Item) (fuel : Nat) : filterNext nx (fun _ => .ok true) (fuel + 1) = nx := by
  funext s
  unfold filterNext
  split
  · next h => rw [h]
  · next h => rw [h]
  · next h => rw [h]

/-- Everything before an end. -/
private theorem all_before (c : Cfg) (hc : Sane c) (m e : Moment) (hm : m.Valid c) (he : e.Valid c) (u : TUnit) (n : Int) (hn : 0 < n)
    (hmax : n * u.secs ≤ 133500000000000000) (it : Iter) (hit : Iter.build m (amt u n) = .ok it) :
    ∃ l, Yields (untilNext c (Iter.next c) e) it l ∧ l.Pairwise (fun r r' => r.instant < r'.instant) ∧
      ∀ r, r ∈ l ↔ (∃ k, nth (Iter.next c) k it = some (.ok (.moment r))) ∧ Before r e := by
  obtain ⟨l, B, h1, h2, h3⟩ := C123_every_between c hc m e hm he u n hn hmax it hit (fun _ => .ok true) (fun _ => true) (fun _ => rfl)
  obtain ⟨h4, h5, -⟩ := h3 (B + 1) (by omega)
  rw [filter_all] at h4 h5
  exact ⟨l, ⟨h4, h5⟩, h2, fun r => by rw [h1]; simp⟩

/-- What `until` yields is what the iterator yields. -/
private theorem until_passes (c : Cfg) (hc : Sane c) (m : Moment) (hm : m.Valid c) (u : TUnit) (n : Int) (hn : 0 < n)
    (hmax : n * u.secs ≤ 133500000000000000) (it : Iter) (hit : Iter.build m (amt u n) = .ok it) (e : Moment) (he : e.Valid c) (q : Nat) (r : Moment)
    (h : nth (untilNext c (Iter.next c) e) q it = some (.ok (.moment r))) : nth (Iter.next c) q it = some (.ok (.moment r)) := by
  have hit' : it = ⟨.moment m, amt u n, false⟩ := by
    rw [(C33_build m (amt u n)).1 ⟨_, _, rfl⟩] at hit; cases hit; rfl
  rw [hit'] at h ⊢
  rcases forward_run c hc m hm u n hn hmax q with ⟨r', v, -, -, h'⟩ | ⟨_, _, _, _, _, _, -, h'⟩
  · rw [(C41_until c _ e _ q).1 r' h' v he] at h
    split at h
    · cases h; exact h'
    · cases h
  · rw [(C41_until c _ e _ q).2.1 _ h'] at h; cases h

/-- In order of time, what is before the earlier end comes first. -/
private theorem split_at (P : Moment → Bool) : ∀ (l : List Moment), l.Pairwise (fun r r' => P r' = true → P r = true) →
    l = l.filter P ++ l.filter (fun r => !P r)
  | [], _ => rfl
  | a :: l, h => by
    rw [List.pairwise_cons] at h
    have ih := split_at P l h.2
    by_cases ha : P a = true
    · simp only [List.filter_cons, ha, if_true, Bool.not_true, Bool.false_eq_true, if_false, List.cons_append]
      rw [← ih]
    · have hn : l.filter P = [] := by
        rw [List.filter_eq_nil_iff]
        exact fun b hb hb' => ha (h.1 b hb hb')
      rw [hn, List.nil_append] at ih
      have ha' : P a = false := by simpa using ha
      simp only [List.filter_cons, ha', Bool.false_eq_true, if_false, Bool.not_false, if_true, hn, List.nil_append]
      rw [← ih]

/-- **C128 (one after the other).** `e₁` is not after `e₂`. `until(e₁)` yields a beginning of what `until(e₂)` yields: all of it before `e₁`. The rest is not
before `e₁`, and it is what an iterator yields that is built from the first date of the rest, with the same step, `until(e₂)`. So nothing is lost
and nothing comes twice where two stretches of time meet. -/
theorem C128_split (c : Cfg) (hc : Sane c) (m e₁ e₂ : Moment) (hm : m.Valid c) (he₁ : e₁.Valid c) (he₂ : e₂.Valid c) (hle : ¬ Before e₂ e₁)
    (u : TUnit) (n : Int) (hn : 0 < n) (hmax : n * u.secs ≤ 133500000000000000) (it : Iter) (hit : Iter.build m (amt u n) = .ok it) :
    ∃ first rest : List Moment,
      Yields (untilNext c (Iter.next c) e₁) it first ∧ Yields (untilNext c (Iter.next c) e₂) it (first ++ rest) ∧
      (∀ r ∈ first, Before r e₁) ∧ (∀ r ∈ rest, ¬ Before r e₁ ∧ Before r e₂) ∧
      ∀ r more it', rest = r :: more → Iter.build r (amt u n) = .ok it' → Yields (untilNext c (Iter.next c) e₂) it' rest := by
  obtain ⟨l₁, y₁, o₁, h₁⟩ := all_before c hc m e₁ hm he₁ u n hn hmax it hit
  obtain ⟨l₂, y₂, o₂, h₂⟩ := all_before c hc m e₂ hm he₂ u n hn hmax it hit
  have hsp := split_at (fun r => decide (Before r e₁)) l₂ (o₂.imp (fun {a b} hab h => by
    simp only [decide_eq_true_eq] at h ⊢
    unfold Before at h ⊢
    omega))
  have hl₁ : l₁ = l₂.filter (fun r => decide (Before r e₁)) := by
    refine same_list o₁ (o₂.sublist List.filter_sublist) (fun r => ?_)
    rw [List.mem_filter, h₁, h₂]
    simp only [decide_eq_true_eq]
    constructor
    · rintro ⟨hk, hb⟩
      refine ⟨⟨hk, ?_⟩, hb⟩
      unfold Before at hb hle ⊢
      omega
    · rintro ⟨⟨hk, -⟩, hb⟩
      exact ⟨hk, hb⟩
  refine ⟨l₁, l₂.filter (fun r => !decide (Before r e₁)), y₁, ?_, fun r hr => ((h₁ r).1 hr).2, fun r hr => ?_, ?_⟩
  · rw [hl₁, ← hsp]; exact y₂
  · rw [List.mem_filter, h₂] at hr
    exact ⟨by simpa using hr.2, hr.1.2⟩
  · generalize hrest : l₂.filter (fun r => !decide (Before r e₁)) = rest at hsp
    rw [← hl₁] at hsp
    intro r more it' hr hit'
    subst hr
    -- where the rest begins
    have hlen : l₂.length = l₁.length + (more.length + 1) := by rw [hsp]; simp
    have hat : ∀ j (hj : j < more.length + 1), nth (untilNext c (Iter.next c) e₂) (l₁.length + j) it = some (.ok (.moment ((r :: more)[j]'(by simpa using hj)))) := by
      intro j hj
      have h6 := congrArg (fun l => l[l₁.length + j]?) y₂.1
      unfold items at h6
      rw [List.getElem?_map, List.getElem?_map, List.getElem?_range (by omega), hsp, List.getElem?_append_right (by omega)] at h6
      rw [show l₁.length + j - l₁.length = j by omega, List.getElem?_eq_getElem (by simpa using hj)] at h6
      simpa using h6
    have h0 : nth (Iter.next c) l₁.length it = some (.ok (.moment r)) := by
      have hu := hat 0 (by omega)
      rw [Nat.add_zero] at hu
      exact until_passes c hc m hm u n hn hmax it hit e₂ he₂ _ _ hu
    have res := C102_until c m r e₂ (amt u n) it it' hit l₁.length h0 hit'
    refine ⟨?_, fun q t hq h => ?_⟩
    · unfold items
      apply List.ext_getElem
      · simp
      · intro j h1 h2
        simp only [List.length_map, List.length_range] at h1
        simp only [List.getElem_map, List.getElem_range]
        rw [res j, hat j (by simpa using h1)]
    · rw [res q] at h
      exact y₂.2 _ t (by simp only [List.length_cons] at hq; omega) h

/-- Business hours of one day and the next in steps of 8 hours: before and from noon of the 2nd on. -/
example := C128_split (std .debug) (sane_std _) (at_ 2017 6 1 9 0 0) (at_ 2017 6 2 12 0 0) (at_ 2017 6 4 0 0 0) (by decide) (by decide) (by decide) (by decide)
  .hour 8 (by decide) (by decide) ⟨.moment (at_ 2017 6 1 9 0 0), .hours 8, false⟩ rfl

example : Yields (untilNext (std .debug) (Iter.next (std .debug)) (at_ 2017 6 2 12 0 0)) ⟨.moment (at_ 2017 6 1 9 0 0), .hours 8, false⟩
    [at_ 2017 6 1 9 0 0, at_ 2017 6 1 17 0 0, at_ 2017 6 2 1 0 0, at_ 2017 6 2 9 0 0] := by
  obtain ⟨l, r, y, -⟩ := C128_split (std .debug) (sane_std _) (at_ 2017 6 1 9 0 0) (at_ 2017 6 2 12 0 0) (at_ 2017 6 4 0 0 0) (by decide) (by decide)
    (by decide) (by decide) .hour 8 (by decide) (by decide) ⟨.moment (at_ 2017 6 1 9 0 0), .hours 8, false⟩ rfl
  have h4 : nth (untilNext (std .debug) (Iter.next (std .debug)) (at_ 2017 6 2 12 0 0)) 4 ⟨.moment (at_ 2017 6 1 9 0 0), .hours 8, false⟩ = none := by decide +kernel
  have h3 : nth (untilNext (std .debug) (Iter.next (std .debug)) (at_ 2017 6 2 12 0 0)) 3 ⟨.moment (at_ 2017 6 1 9 0 0), .hours 8, false⟩ =
    some (.ok (.moment (at_ 2017 6 2 9 0 0))) := by decide +kernel
  have hlen : l.length = 4 := by
    rcases Nat.lt_trichotomy l.length 4 with h | h | h
    · exact absurd h3 (y.2 3 _ (by omega))
    · exact h
    · have := congrArg (fun l => l[4]?) y.1
      simp only [items, List.getElem?_map, List.getElem?_range h, Option.map_some, h4, List.getElem?_eq_getElem h] at this
      simp at this
  have hl := y.1
  rw [hlen] at hl
  refine ⟨by decide +kernel, fun q t hq => y.2 q t (by rw [hlen]; exact hq)⟩

/-- **C128 (sorted by a test).** Of the dates an iterator yields before an end, `every(test)` yields those that pass and `without(test)` the others, both in the
same order: each date is yielded by exactly one of the two, and together they yield as many as the unfiltered iterator. -/
theorem C128_sorted (c : Cfg) (hc : Sane c) (m e : Moment) (hm : m.Valid c) (he : e.Valid c) (u : TUnit) (n : Int) (hn : 0 < n)
    (hmax : n * u.secs ≤ 133500000000000000) (it : Iter) (hit : Iter.build m (amt u n) = .ok it) (test : TT → Out Bool) (p : Moment → Bool)
    (hp : ∀ r : Moment, test (.moment r) = .ok (p r)) :
    ∃ (all yes no : List Moment) (B : Nat),
      Yields (untilNext c (Iter.next c) e) it all ∧ yes = all.filter p ∧ no = all.filter (fun r => !p r) ∧ yes.length + no.length = all.length ∧
      ∀ fuel, B ≤ fuel →
        Yields (untilNext c (filterNext (Iter.next c) test fuel) e) it yes ∧ Yields (untilNext c (withoutNext (Iter.next c) test fuel) e) it no ∧
        Yields (filterNext (untilNext c (Iter.next c) e) test fuel) it yes ∧ Yields (withoutNext (untilNext c (Iter.next c) e) test fuel) it no := by
  obtain ⟨l, y, o, h⟩ := all_before c hc m e hm he u n hn hmax it hit
  obtain ⟨l₁, B₁, h₁, o₁, y₁⟩ := C123_every_between c hc m e hm he u n hn hmax it hit test p hp
  obtain ⟨l₂, B₂, h₂, o₂, y₂⟩ := C123_without_between c hc m e hm he u n hn hmax it hit test p hp
  have e₁ : l₁ = l.filter p := same_list o₁ (o.sublist List.filter_sublist) (fun r => by
    rw [List.mem_filter, h₁, h]
    constructor
    · rintro ⟨a, b, d⟩; exact ⟨⟨a, d⟩, b⟩
    · rintro ⟨⟨a, d⟩, b⟩; exact ⟨a, b, d⟩)
  have e₂ : l₂ = l.filter (fun r => !p r) := same_list o₂ (o.sublist List.filter_sublist) (fun r => by
    rw [List.mem_filter, h₂, h]
    constructor
    · rintro ⟨a, b, d⟩; exact ⟨⟨a, d⟩, by simp [b]⟩
    · rintro ⟨⟨a, d⟩, b⟩; exact ⟨a, by simpa using b, d⟩)
  refine ⟨l, l₁, l₂, B₁ + B₂, y, e₁, e₂, ?_, fun fuel hf => ?_⟩
  · rw [e₁, e₂]
    clear y o h h₁ o₁ y₁ h₂ o₂ y₂ e₁ e₂
    induction l with
    | nil => rfl
    | cons a l ih =>
      by_cases ha : p a = true
      · simp [ha]; omega
      · simp [ha]; omega
  · obtain ⟨a1, a2, -, a4, a5⟩ := y₁ fuel (by omega)
    obtain ⟨b1, b2, -, b4, b5⟩ := y₂ fuel (by omega)
    exact ⟨⟨a1, a2⟩, ⟨b1, b2⟩, ⟨a4, a5⟩, ⟨b4, b5⟩⟩

/-- The Fridays of June 2017 and the other days. -/
example := C128_sorted (std .debug) (sane_std _) (at_ 2017 6 1 12 0 0) (at_ 2017 7 1 0 0 0) (by decide) (by decide) .day 1 (by decide) (by decide)
  ⟨.moment (at_ 2017 6 1 12 0 0), .days 1, false⟩ rfl (Day.matches .friday) (fun r => Day.into .friday == r.weekday) (fun _ => rfl)

end Props
