import Verif.Lemmas.Adaptors

/-!
# Lemmas: filters and `until` in either order
-/

namespace Kairos
open Spec
variable {σ : Type} {c : Cfg}

/-- What `until` makes of an item, if values are moments. -/
def cut (d : Moment) : Item → Item
  | some (.ok (.moment m)) => if m.lt d then some (.ok (.moment m)) else none
  | r => r

/-- The values are moments. -/
def OnlyMoments (nx : σ → σ × Item) (s : σ) : Prop := ∀ k t, nth nx k s = some (.ok t) → ∃ m, t = .moment m

/-- Those before `d` come first. -/
def FirstBefore (nx : σ → σ × Item) (s : σ) (d : Moment) : Prop :=
  ∀ i j a b, i < j → nth nx i s = some (.ok (.moment a)) → nth nx j s = some (.ok (.moment b)) → b.lt d = true → a.lt d = true

/-- There are none before `d`. -/
def NoneBefore (nx : σ → σ × Item) (s : σ) (d : Moment) : Prop := ∀ k m, nth nx k s = some (.ok (.moment m)) → m.lt d = false

theorem OnlyMoments.after {nx : σ → σ × Item} {s : σ} (h : OnlyMoments nx s) (k : Nat) : OnlyMoments nx (after nx k s) := by
  intro i t hi
  rw [← nth_add] at hi
  exact h _ _ hi

theorem FirstBefore.after {nx : σ → σ × Item} {s : σ} {d : Moment} (h : FirstBefore nx s d) (k : Nat) :
    FirstBefore nx (after nx k s) d := by
  intro i j a b hij ha hb
  rw [← nth_add] at ha hb
  exact h _ _ _ _ (by omega) ha hb

theorem NoneBefore.after {nx : σ → σ × Item} {s : σ} {d : Moment} (h : NoneBefore nx s d) (k : Nat) :
    NoneBefore nx (after nx k s) d := by
  intro i m hi
  rw [← nth_add] at hi
  exact h _ _ hi

theorem until_item {nx : σ → σ × Item} {s : σ} {d : Moment} (h : ∀ t, (nx s).2 = some (.ok t) → ∃ m, t = .moment m) :
    untilNext c nx d s = ((nx s).1, cut d (nx s).2) := by
  unfold untilNext
  revert h
  generalize nx s = p
  obtain ⟨s', r⟩ := p
  intro h
  match r with
  | none => rfl
  | some (.err _) => rfl
  | some .panic => rfl
  | some .oof => rfl
  | some (.ok t) =>
    obtain ⟨m, rfl⟩ := h t rfl
    have hc : calculate c (.moment m) = .ok (.moment m) := rfl
    simp only [hc, TT.getMoment, cut]
    split <;> rfl

theorem until_nth {nx : σ → σ × Item} {s : σ} {d : Moment} (h : OnlyMoments nx s) (k : Nat) :
    nth (untilNext c nx d) k s = cut d (nth nx k s) := by
  have e := (h.after k) 0
  rw [nth_eq, until_after, until_item (fun t ht => e t (by rw [nth]; exact ht)), nth_eq]

theorem sieve_value {M : TT → Out Bool} {r : Item} {t : TT} (h : sieve M r = some (some (.ok t))) : r = some (.ok t) := by
  unfold sieve at h
  split at h
  · split at h <;> simp_all
  · simp_all

theorem cut_value {d : Moment} {r : Item} {t : TT} (h : cut d r = some (.ok t)) : r = some (.ok t) := by
  unfold cut at h
  split at h
  · split at h <;> simp_all
  · exact h

/-- From a state without anything before `d` on, neither order yields a value. -/
theorem dead_ends {nx : σ → σ × Item} {s : σ} {d : Moment} (hv : OnlyMoments nx s) (h : NoneBefore nx s d) (M : TT → Out Bool) (fuel q : Nat) (t : TT) :
    nth (filterNext (untilNext c nx d) M fuel) q s ≠ some (.ok t) ∧ nth (untilNext c (filterNext nx M fuel) d) q s ≠ some (.ok t) := by
  constructor
  · intro hh
    obtain ⟨k, hk⟩ := filter_after (untilNext c nx d) M fuel q s
    rw [nth_eq, hk, until_after] at hh
    have hv' := hv.after k
    have h' := h.after k
    rcases first_hit (untilNext c nx d) M fuel (after nx k s) with h0 | ⟨j, r, hj, h0, h1, -⟩
    · rw [filter_miss h0] at hh
      cases hh
    · rw [filter_hit j h0 h1 hj] at hh
      simp only at hh
      subst hh
      have hu := sieve_value h1
      rw [until_nth hv'] at hu
      have hn := cut_value hu
      obtain ⟨m, rfl⟩ := hv' _ _ hn
      rw [hn] at hu
      simp [cut, h' _ _ hn] at hu
  · intro hh
    obtain ⟨k, hk⟩ := filter_after nx M fuel q s
    rw [nth_eq, until_after, hk] at hh
    have hv' := hv.after k
    have h' := h.after k
    rcases first_hit nx M fuel (after nx k s) with h0 | ⟨j, r, hj, h0, h1, -⟩
    · rw [until_item (by rw [filter_miss h0]; intro t h; cases h), filter_miss h0] at hh
      cases hh
    · have hm : ∀ t, r = some (.ok t) → ∃ m, t = .moment m := by
        rintro t rfl
        exact hv' _ _ (sieve_value h1)
      rw [until_item (by rw [filter_hit j h0 h1 hj]; exact hm), filter_hit j h0 h1 hj] at hh
      have hr := cut_value hh
      simp only at hr
      subst hr
      have hn := sieve_value h1
      obtain ⟨m, rfl⟩ := hv' _ _ hn
      simp [cut, h' _ _ hn] at hh

/-- One call in either order: the same, or nothing and nothing from now on. -/
theorem one_call {nx : σ → σ × Item} {s : σ} {d : Moment} (hv : OnlyMoments nx s) (hs : FirstBefore nx s d) (M : TT → Out Bool) (fuel : Nat) :
    (filterNext (untilNext c nx d) M fuel s = untilNext c (filterNext nx M fuel) d s ∧
      ∃ k, (filterNext (untilNext c nx d) M fuel s).1 = after nx k s) ∨
    (∃ k k' r, filterNext (untilNext c nx d) M fuel s = (after nx k s, none) ∧ NoneBefore nx (after nx k s) d ∧
      untilNext c (filterNext nx M fuel) d s = (after nx k' s, r) ∧ (∀ t, r ≠ some (.ok t)) ∧ NoneBefore nx (after nx k' s) d) := by
  have later : ∀ i k m, nth nx i s = some (.ok (.moment m)) → m.lt d = false → i < k → NoneBefore nx (after nx k s) d := by
    intro i k m hi hm hik j b hb
    rw [← nth_add] at hb
    by_cases hlt : b.lt d = true
    · have := hs i (k + j) m b (by omega) hi hb hlt
      rw [hm] at this; cases this
    · simpa using hlt
  -- the first answer of the filter on `until`, if there is an item not before `d` that no match precedes
  have first : ∀ i m, nth nx i s = some (.ok (.moment m)) → m.lt d = false → i < fuel → (∀ l, l < i → sieve M (nth nx l s) = none) →
      ∃ k, filterNext (untilNext c nx d) M fuel s = (after nx k s, none) ∧ NoneBefore nx (after nx k s) d := by
    intro i m hi hm hif hno
    have hui : nth (untilNext c nx d) i s = none := by rw [until_nth hv, hi]; simp [cut, hm]
    rcases first_hit (untilNext c nx d) M fuel s with h0 | ⟨j, r, hj, h0, h1, -⟩
    · have := h0 i hif
      rw [hui] at this; cases this
    · have hji : j ≤ i := by
        apply Nat.le_of_not_lt
        intro hlt
        have := h0 i hlt
        rw [hui] at this; cases this
      rw [filter_hit j h0 h1 hj, until_after]
      by_cases hlt : j < i
      · have hn := hno j hlt
        rw [until_nth hv] at h1
        match hx : nth nx j s with
        | none => rw [hx] at hn; cases hn
        | some (.err _) => rw [hx] at hn; cases hn
        | some .panic => rw [hx] at hn; cases hn
        | some .oof => rw [hx] at hn; cases hn
        | some (.ok t) =>
          obtain ⟨b, rfl⟩ := hv _ _ hx
          by_cases hb : b.lt d = true
          · rw [hx] at h1 hn
            simp only [cut, hb, if_true] at h1
            rw [hn] at h1; cases h1
          · have hb : b.lt d = false := by simpa using hb
            rw [hx] at h1
            simp [cut, hb, sieve] at h1
            subst h1
            exact ⟨j + 1, rfl, later j (j + 1) b hx hb (by omega)⟩
      · have : j = i := by omega
        subst this
        rw [hui] at h1
        cases h1
        exact ⟨j + 1, rfl, later j (j + 1) m hi hm (by omega)⟩
  -- an item before `d`, or no value, is not changed by `until`
  have same : ∀ l, (∀ m, nth nx l s = some (.ok (.moment m)) → m.lt d = true) → nth (untilNext c nx d) l s = nth nx l s := by
    intro l hl
    rw [until_nth hv]
    unfold cut
    split
    · rename_i m hx
      rw [hl m hx, if_pos rfl, hx]
    · rfl
  rcases first_hit nx M fuel s with h0 | ⟨j, r, hj, h0, h1, -⟩
  · have hB : untilNext c (filterNext nx M fuel) d s = (after nx fuel s, some .oof) := by
      rw [until_item (by rw [filter_miss h0]; intro t h; cases h), filter_miss h0]; rfl
    rcases Classical.em (∃ i m, i < fuel ∧ nth nx i s = some (.ok (.moment m)) ∧ m.lt d = false) with ⟨i, m, hif, hi, hm⟩ | hall
    · right
      obtain ⟨k, hk, hd⟩ := first i m hi hm hif (fun l hl => h0 l (by omega))
      exact ⟨k, fuel, some .oof, hk, hd, hB, by simp, later i fuel m hi hm hif⟩
    · left
      have hA : filterNext (untilNext c nx d) M fuel s = (after nx fuel s, some .oof) := by
        rw [filter_miss (fun i hi => ?_), until_after]
        rw [same i (fun m hm => ?_)]
        · exact h0 i hi
        · by_cases hlt : m.lt d = true
          · exact hlt
          · exact absurd ⟨i, m, hi, hm, by simpa using hlt⟩ hall
      rw [hA, hB]
      exact ⟨rfl, fuel, rfl⟩
  · have hm : ∀ t, r = some (.ok t) → ∃ m, t = .moment m := by
      rintro t rfl
      exact hv _ _ (sieve_value h1)
    have hB : untilNext c (filterNext nx M fuel) d s = (after nx (j + 1) s, cut d r) := by
      rw [until_item (by rw [filter_hit j h0 h1 hj]; exact hm), filter_hit j h0 h1 hj]
    rcases Classical.em (∃ i m, i ≤ j ∧ nth nx i s = some (.ok (.moment m)) ∧ m.lt d = false) with ⟨i, m, hij, hi, hm'⟩ | hall
    · right
      obtain ⟨k, hk, hd⟩ := first i m hi hm' (by omega) (fun l hl => h0 l (by omega))
      refine ⟨k, j + 1, _, hk, hd, hB, ?_, later i (j + 1) m hi hm' (by omega)⟩
      intro t ht
      have hr := cut_value ht
      subst hr
      obtain ⟨b, rfl⟩ := hm t rfl
      have hn := sieve_value h1
      have hb : b.lt d = false := by
        by_cases e : i = j
        · subst e
          rw [hi] at hn
          cases hn
          exact hm'
        · by_cases hlt : b.lt d = true
          · have := hs i j m b (by omega) hi hn hlt
            rw [hm'] at this; cases this
          · simpa using hlt
      simp [cut, hb] at ht
    · left
      have hsame : ∀ l, l ≤ j → nth (untilNext c nx d) l s = nth nx l s := by
        intro l hl
        refine same l (fun m hm => ?_)
        by_cases hlt : m.lt d = true
        · exact hlt
        · exact absurd ⟨l, m, hl, hm, by simpa using hlt⟩ hall
      have hA : filterNext (untilNext c nx d) M fuel s = (after nx (j + 1) s, r) := by
        rw [filter_hit j (r := r) (fun i hi => by rw [hsame i (by omega)]; exact h0 i hi) (by rw [hsame j (by omega)]; exact h1) hj, until_after]
      have hcut : cut d r = r := by
        unfold cut
        split
        · rename_i m
          have hn := sieve_value h1
          have : m.lt d = true := by
            by_cases hlt : m.lt d = true
            · exact hlt
            · exact absurd ⟨j, m, Nat.le_refl _, hn, by simpa using hlt⟩ hall
          rw [this, if_pos rfl]
        · rfl
      rw [hA, hB, hcut]
      exact ⟨rfl, j + 1, rfl⟩

/-- The values are the same in either order. -/
theorem values_same {nx : σ → σ × Item} (d : Moment) (M : TT → Out Bool) (fuel q : Nat) (t : TT) :
    ∀ {s : σ}, OnlyMoments nx s → FirstBefore nx s d →
      (nth (filterNext (untilNext c nx d) M fuel) q s = some (.ok t) ↔ nth (untilNext c (filterNext nx M fuel) d) q s = some (.ok t)) := by
  induction q with
  | zero =>
    intro s hv hs
    rcases one_call (c := c) hv hs M fuel with ⟨h, -⟩ | ⟨k, k', r, hA, -, hB, hr, -⟩
    · simp only [nth, h]
    · simp only [nth, hA, hB]
      exact ⟨fun h => (nomatch h), fun h => absurd h (hr t)⟩
  | succ q ih =>
    intro s hv hs
    rcases one_call (c := c) hv hs M fuel with ⟨h, k, hk⟩ | ⟨k, k', r, hA, dA, hB, -, dB⟩
    · simp only [nth, ← h, hk]
      exact ih (hv.after k) (hs.after k)
    · simp only [nth, hA, hB]
      exact ⟨fun h => absurd h (dead_ends (hv.after k) dA M fuel q t).1, fun h => absurd h (dead_ends (hv.after k') dB M fuel q t).2⟩

end Kairos

namespace Kairos
open Spec
variable {σ τ : Type} {c : Cfg}

/-- A filter on the first `n` items yields a beginning of what the filter on all of them yields. -/
theorem filter_prefix {nx : σ → σ × Item} {nx' : τ → τ × Item} {M : TT → Out Bool} {fuel : Nat} {t : TT} (q : Nat) :
    ∀ {n : Nat} {s : σ} {s' : τ}, (∀ k, nth nx' k s' = if k < n then nth nx k s else none) →
      nth (filterNext nx' M fuel) q s' = some (.ok t) → q < n ∧ nth (filterNext nx M fuel) q s = some (.ok t) := by
  induction q with
  | zero =>
    intro n s s' h hq
    rw [nth] at hq
    rcases first_hit nx' M fuel s' with h0 | ⟨j, r, hj, h0, h1, -⟩
    · rw [filter_miss h0] at hq; cases hq
    · rw [filter_hit j h0 h1 hj] at hq
      simp only at hq
      subst hq
      have hn : j < n := by
        apply Classical.byContradiction
        intro hlt
        rw [h, if_neg hlt] at h1
        cases h1
      refine ⟨by omega, ?_⟩
      rw [h, if_pos hn] at h1
      rw [nth, filter_hit j (fun i hi => ?_) h1 hj]
      have := h0 i hi
      rwa [h, if_pos (by omega)] at this
  | succ q ih =>
    intro n s s' h hq
    rw [nth] at hq
    have shift : ∀ i k, nth nx' k (after nx' i s') = if k < n - i then nth nx k (after nx i s) else none := by
      intro i k
      rw [← nth_add, ← nth_add, h]
      by_cases hlt : i + k < n
      · rw [if_pos hlt, if_pos (by omega)]
      · rw [if_neg hlt, if_neg (by omega)]
    rcases first_hit nx' M fuel s' with h0 | ⟨j, r, hj, h0, h1, -⟩
    · rw [filter_miss h0] at hq
      have hle : fuel ≤ n := by
        apply Nat.le_of_not_lt
        intro hlt
        have := h0 n hlt
        rw [h, if_neg (by omega)] at this
        cases this
      have hpos : 0 < fuel := by
        apply Nat.pos_of_ne_zero
        rintro rfl
        rw [nth_eq, filterNext] at hq
        cases hq
      obtain ⟨h2, h3⟩ := ih (shift fuel) hq
      refine ⟨by omega, ?_⟩
      rw [nth, filter_miss (fun i hi => ?_)]
      · exact h3
      · have := h0 i hi
        rwa [h, if_pos (by omega)] at this
    · rw [filter_hit j h0 h1 hj] at hq
      obtain ⟨h2, h3⟩ := ih (shift (j + 1)) hq
      refine ⟨by omega, ?_⟩
      rw [h, if_pos (by omega)] at h1
      rw [nth, filter_hit j (fun i hi => ?_) h1 hj]
      · exact h3
      · have := h0 i hi
        rwa [h, if_pos (by omega)] at this

/-- `until` and `times` can be exchanged, call by call. -/
theorem until_times (nx : σ → σ × Item) (d : Moment) (s : TimesState σ) :
    untilNext c (timesNext c nx) d s = timesNext c (untilNext c nx d) s := by
  have hs := until_state (c := c) (nx := nx) (e := d) s.inner
  by_cases h : s.times = s.count
  · simp only [untilNext, timesNext, h, if_true]
  · cases ha : (c.add s.count 1 : Out Int) with
    | ok count =>
      have e1 : timesNext c nx s = ({ s with inner := (nx s.inner).1, count := count }, (nx s.inner).2) := by
        simp only [timesNext, h, if_false, ha]
      have e2 : timesNext c (untilNext c nx d) s = ({ s with inner := (untilNext c nx d s.inner).1, count := count }, (untilNext c nx d s.inner).2) := by
        simp only [timesNext, h, if_false, ha]
      rw [e2, hs]
      unfold untilNext
      rw [e1]
      generalize nx s.inner = p
      obtain ⟨s', r⟩ := p
      match r with
      | none => rfl
      | some (.err _) => rfl
      | some .panic => rfl
      | some .oof => rfl
      | some (.ok t) =>
        simp only
        cases calculate c t with
        | ok v =>
          simp only
          cases v.getMoment with
          | none => rfl
          | some m =>
            simp only
            split <;> rfl
        | _ => rfl
    | _ => simp only [untilNext, timesNext, h, if_false, ha]

end Kairos
