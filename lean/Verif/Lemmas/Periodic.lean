import Verif.Lemmas.Adaptors

/-! Filters on iterators whose matching items come at regular positions. -/

namespace Kairos
open Spec
variable {σ : Type}

/-- Items are values until, possibly, one error is repeated for ever; `pos` lists the matching positions, at most `g` apart.
Then the filtered items are the items at these positions. -/
theorem filter_positions {nx : σ → σ × Item} {M : TT → Out Bool} {s : σ} {P : Nat → Bool} {pos : Nat → Nat} {g fuel : Nat} (hf : g ≤ fuel)
    (h0 : pos 0 < g) (hinc : ∀ q, pos q < pos (q + 1)) (hstep : ∀ q, pos (q + 1) ≤ pos q + g) (hpos : ∀ q, P (pos q) = true)
    (hgap0 : ∀ i, i < pos 0 → P i = false) (hgap : ∀ q i, pos q < i → i < pos (q + 1) → P i = false)
    (hitem : ∀ k, (∃ t, nth nx k s = some (.ok t) ∧ M t = .ok (P k)) ∨ ∃ e, ∀ j, k ≤ j → nth nx j s = some (.err e)) (q : Nat) :
    nth (filterNext nx M fuel) q s = nth nx (pos q) s := by
  -- from position `a`, the next matching position is `b`
  have call : ∀ a b, a ≤ b → b < a + g → P b = true → (∀ i, a ≤ i → i < b → P i = false) →
      (filterNext nx M fuel (after nx a s)).2 = nth nx b s ∧
      ((filterNext nx M fuel (after nx a s)).1 = after nx (b + 1) s ∨
       ∃ k e, (filterNext nx M fuel (after nx a s)).1 = after nx k s ∧ k ≤ b + 1 ∧ ∀ j, k ≤ j → nth nx j s = some (.err e)) := by
    intro a b hab hbp hb hlt
    -- the first error, if there is one between `a` and `b`
    by_cases herr : ∃ k, a ≤ k ∧ k ≤ b ∧ ∃ e, ∀ j, k ≤ j → nth nx j s = some (.err e)
    · have hmin : ∃ k, (a ≤ k ∧ k ≤ b ∧ ∃ e, ∀ j, k ≤ j → nth nx j s = some (.err e)) ∧
          ∀ i, a ≤ i → i < k → ¬ ∃ e, ∀ j, i ≤ j → nth nx j s = some (.err e) := by
        obtain ⟨k, hk⟩ := herr
        induction k using Nat.strongRecOn with
        | _ k ih =>
          by_cases h : ∃ i, a ≤ i ∧ i < k ∧ ∃ e, ∀ j, i ≤ j → nth nx j s = some (.err e)
          · obtain ⟨i, h1, h2, h3⟩ := h
            exact ih i h2 ⟨h1, by omega, h3⟩
          · exact ⟨k, hk, fun i h1 h2 h3 => h ⟨i, h1, h2, h3⟩⟩
      obtain ⟨k, ⟨hak, hkb, e, he⟩, hfirst⟩ := hmin
      have hrej : ∀ i, i < k - a → sieve M (nth nx i (after nx a s)) = none := by
        intro i hi
        rw [← nth_add]
        rcases hitem (a + i) with ⟨t, h1, h2⟩ | h
        · rw [h1]
          simp only [sieve, h2]
          rw [hlt (a + i) (by omega) (by omega)]
        · exact absurd h (hfirst _ (by omega) (by omega))
      have hk := filter_hit (M := M) (fuel := fuel) (k - a) hrej (r := some (.err e))
        (by rw [← nth_add, he (a + (k - a)) (by omega)]; rfl) (by omega)
      rw [hk]
      refine ⟨(he b hkb).symm, .inr ⟨k + 1, e, ?_, by omega, fun j hj => he j (by omega)⟩⟩
      show after nx (k - a + 1) (after nx a s) = _
      rw [← after_add]
      congr 1; omega
    · have hok : ∀ i, a ≤ i → i ≤ b → ∃ t, nth nx i s = some (.ok t) ∧ M t = .ok (P i) := by
        intro i h1 h2
        rcases hitem i with h | h
        · exact h
        · exact absurd ⟨i, h1, h2, h⟩ herr
      have hrej : ∀ i, i < b - a → sieve M (nth nx i (after nx a s)) = none := by
        intro i hi
        rw [← nth_add]
        obtain ⟨t, h1, h2⟩ := hok (a + i) (by omega) (by omega)
        rw [h1]
        simp only [sieve, h2]
        rw [hlt (a + i) (by omega) (by omega)]
      obtain ⟨t, h1, h2⟩ := hok b hab (by omega)
      have hk := filter_hit (M := M) (fuel := fuel) (b - a) hrej (r := some (.ok t))
        (by
          rw [← nth_add, show a + (b - a) = b by omega, h1]
          simp only [sieve, h2]
          rw [hb]) (by omega)
      rw [hk]
      refine ⟨h1.symm, .inl ?_⟩
      show after nx (b - a + 1) (after nx a s) = _
      rw [← after_add]
      congr 1; omega
  have key : ∀ q, (if q = 0 then 0 else pos (q - 1) + 1) ≤ pos q ∧ pos q < (if q = 0 then 0 else pos (q - 1) + 1) + g ∧
      ∀ i, (if q = 0 then 0 else pos (q - 1) + 1) ≤ i → i < pos q → P i = false := by
    intro q
    cases q with
    | zero => simp; exact ⟨h0, hgap0⟩
    | succ q =>
      have h1 := hinc q
      have h2 := hstep q
      simp only [Nat.add_sub_cancel, if_neg (Nat.succ_ne_zero q)]
      exact ⟨by omega, by omega, fun i h1 h2 => hgap q i (by omega) h2⟩
  -- the state before call number `q`
  have state : ∀ q, after (filterNext nx M fuel) q s = after nx (if q = 0 then 0 else pos (q - 1) + 1) s ∨
      ∃ k e, after (filterNext nx M fuel) q s = after nx k s ∧ k ≤ pos q ∧ ∀ j, k ≤ j → nth nx j s = some (.err e) := by
    intro q
    induction q with
    | zero => exact .inl rfl
    | succ q ih =>
      rw [after_succ']
      have h1 := hinc q
      rcases ih with ih | ⟨k, e, ih, hk, he⟩
      · rw [ih]
        rcases (call _ _ (key q).1 (key q).2.1 (hpos q) (key q).2.2).2 with h | ⟨k, e, h1, h2, h3⟩
        · left; rw [h]; rfl
        · right; exact ⟨k, e, h1, by omega, h3⟩
      · right
        rw [ih]
        have hk := filter_hit (M := M) (fuel := fuel) (nx := nx) (s := after nx k s) 0 (by intro i hi; omega)
          (r := some (.err e)) (by rw [← nth_add, he (k + 0) (by omega)]; rfl) (by omega)
        rw [hk]
        refine ⟨k + 1, e, by show after nx 1 (after nx k s) = _; rw [← after_add], by omega, fun j hj => he j (by omega)⟩
  rw [nth_eq]
  rcases state q with h | ⟨k, e, h, hk, he⟩
  · rw [h]
    exact (call _ _ (key q).1 (key q).2.1 (hpos q) (key q).2.2).1
  · rw [h, he _ hk]
    have hk := filter_hit (M := M) (fuel := fuel) (nx := nx) (s := after nx k s) 0 (by intro i hi; omega)
      (r := some (.err e)) (by rw [← nth_add, he (k + 0) (by omega)]; rfl) (by omega)
    rw [hk]

/-- The same if the matching positions are those that leave remainder `off` modulo `p`. -/
theorem filter_periodic {nx : σ → σ × Item} {M : TT → Out Bool} {s : σ} {p off fuel : Nat} (ho : off < p) (hf : p ≤ fuel)
    (hitem : ∀ k, (∃ t, nth nx k s = some (.ok t) ∧ M t = .ok (k % p == off)) ∨
      ∃ e, ∀ j, k ≤ j → nth nx j s = some (.err e)) (q : Nat) :
    nth (filterNext nx M fuel) q s = nth nx (off + p * q) s := by
  refine filter_positions (P := fun k => k % p == off) (pos := fun q => off + p * q) hf (by simpa using ho) ?_ ?_ ?_ ?_ ?_ hitem q
  · intro q; show off + p * q < off + p * (q + 1); rw [Nat.mul_succ]; omega
  · intro q; show off + p * (q + 1) ≤ off + p * q + p; rw [Nat.mul_succ]; omega
  · intro q; simp only [Nat.add_mul_mod_self_left, Nat.mod_eq_of_lt ho, beq_self_eq_true]
  · intro i hi
    have hi : i < off := by simpa using hi
    simp only [Nat.mod_eq_of_lt (show i < p by omega), beq_eq_false_iff_ne]
    omega
  · intro q i h1 h2
    simp only [beq_eq_false_iff_ne]
    intro h3
    have e1 := Nat.div_add_mod i p
    have h2 : i < off + p * (q + 1) := h2
    have h1 : off + p * q < i := h1
    rw [Nat.mul_succ] at h2
    rw [h3] at e1
    have e2 : p * q < p * (i / p) := by omega
    have e3 : p * (i / p) < p * q + p := by omega
    have e4 : q < i / p := Nat.lt_of_mul_lt_mul_left e2
    have e5 : i / p < q + 1 := by
      apply Nat.lt_of_mul_lt_mul_left (a := p)
      rw [Nat.mul_succ]; exact e3
    omega

/-- The same if all positions are matching but those that leave remainder `off` modulo `p`. -/
theorem filter_but_periodic {nx : σ → σ × Item} {M : TT → Out Bool} {s : σ} {p off fuel : Nat} (hp : 2 ≤ p) (ho : off < p) (hf : 2 ≤ fuel)
    (hitem : ∀ k, (∃ t, nth nx k s = some (.ok t) ∧ M t = .ok (!(k % p == off))) ∨
      ∃ e, ∀ j, k ≤ j → nth nx j s = some (.err e)) (q : Nat) :
    nth (filterNext nx M fuel) q s = nth nx (q + (q + (p - 1) - off) / (p - 1)) s := by
  -- two successive positions
  have next : ∀ q, (q + 1 + (p - 1) - off) / (p - 1) = (q + (p - 1) - off) / (p - 1) ∨
      (q + 1 + (p - 1) - off) / (p - 1) = (q + (p - 1) - off) / (p - 1) + 1 ∧
      q + (p - 1) - off = (p - 1) * ((q + (p - 1) - off) / (p - 1)) + (p - 2) := by
    intro q
    have e := Nat.div_add_mod (q + (p - 1) - off) (p - 1)
    have hlt := Nat.mod_lt (q + (p - 1) - off) (show p - 1 > 0 by omega)
    generalize hD : (q + (p - 1) - off) / (p - 1) = D at *
    generalize (q + (p - 1) - off) % (p - 1) = R at *
    by_cases hR : R = p - 2
    · right
      refine ⟨?_, by omega⟩
      rw [show q + 1 + (p - 1) - off = (p - 1) * (D + 1) by rw [Nat.mul_succ]; omega]
      exact Nat.mul_div_cancel_left _ (by omega)
    · left
      rw [show q + 1 + (p - 1) - off = (R + 1) + (p - 1) * D by omega, Nat.add_mul_div_left _ _ (by omega),
        Nat.div_eq_of_lt (by omega)]
      omega
  -- a position skipped, and one not skipped
  have skipped : ∀ a b : Nat, b < p → (p * a + b) % p = b := by
    intro a b hb; rw [Nat.mul_add_mod]; exact Nat.mod_eq_of_lt hb
  have split : ∀ a, p * a = (p - 1) * a + a := by
    intro a
    rw [← Nat.succ_mul]; congr 1; omega
  refine filter_positions (P := fun k => !(k % p == off)) (pos := fun q => q + (q + (p - 1) - off) / (p - 1)) hf ?_ ?_ ?_ ?_ ?_ ?_ hitem q
  · have : (0 + (p - 1) - off) / (p - 1) ≤ 1 := Nat.le_trans (Nat.div_le_div_right (show 0 + (p - 1) - off ≤ p - 1 by omega))
      (by rw [Nat.div_self (by omega)]; exact Nat.le_refl _)
    show 0 + (0 + (p - 1) - off) / (p - 1) < 2
    omega
  · intro q; rcases next q with h | ⟨h, -⟩ <;> simp only [h] <;> omega
  · intro q; rcases next q with h | ⟨h, -⟩ <;> simp only [h] <;> omega
  · intro q
    simp only [Bool.not_eq_true', beq_eq_false_iff_ne]
    have e := Nat.div_add_mod (q + (p - 1) - off) (p - 1)
    have hlt := Nat.mod_lt (q + (p - 1) - off) (show p - 1 > 0 by omega)
    generalize hD : (q + (p - 1) - off) / (p - 1) = D at *
    generalize (q + (p - 1) - off) % (p - 1) = R at *
    have hs := split D
    intro h
    by_cases hb : R + off + 1 < p
    · rw [show q + D = p * (D - 1) + (R + off + 1) by
        cases D with
        | zero => omega
        | succ D => rw [Nat.mul_succ] at hs; simp only [Nat.add_sub_cancel]; omega, skipped _ _ hb] at h
      omega
    · rw [show q + D = p * D + (R + off + 1 - p) by omega, skipped _ _ (by omega)] at h
      omega
  · intro i hi
    have hi : i < 0 + (0 + (p - 1) - off) / (p - 1) := hi
    by_cases h0 : off = 0
    · subst h0
      rw [show 0 + (p - 1) - 0 = p - 1 by omega, Nat.div_self (by omega)] at hi
      rw [show i = 0 by omega]
      simp
    · rw [Nat.div_eq_of_lt (by omega)] at hi
      omega
  · intro q i h1 h2
    simp only [Bool.not_eq_false', beq_iff_eq]
    rcases next q with h | ⟨h, h3⟩
    · simp only [h] at h1 h2; omega
    · simp only [h] at h1 h2
      have hs := split ((q + (p - 1) - off) / (p - 1))
      rw [show i = p * ((q + (p - 1) - off) / (p - 1)) + off by omega]
      exact skipped _ _ ho

/-- If no value matches and the items end in an error that is repeated for ever, the filter gives that error at every call. -/
theorem filter_never {nx : σ → σ × Item} {M : TT → Out Bool} {s : σ} {K0 : Nat} {e0 : ErrorKind}
    (hend : ∀ j, K0 ≤ j → nth nx j s = some (.err e0))
    (hitem : ∀ k, k < K0 → (∃ t, nth nx k s = some (.ok t) ∧ M t = .ok false) ∨ ∃ e, ∀ j, k ≤ j → nth nx j s = some (.err e))
    (fuel : Nat) (hf : K0 < fuel) (q : Nat) : nth (filterNext nx M fuel) q s = some (.err e0) := by
  -- the first error
  have hmin : ∃ K, K ≤ K0 ∧ (∀ j, K ≤ j → nth nx j s = some (.err e0)) ∧ ∀ i, i < K → ∃ t, nth nx i s = some (.ok t) ∧ M t = .ok false := by
    revert hf
    induction K0 with
    | zero => exact fun _ => ⟨0, Nat.le_refl _, hend, fun i hi => by omega⟩
    | succ K0 ih =>
      intro hf
      rcases hitem K0 (by omega) with h | ⟨e, h⟩
      · by_cases hall : ∀ i, i < K0 → ∃ t, nth nx i s = some (.ok t) ∧ M t = .ok false
        · refine ⟨K0 + 1, Nat.le_refl _, hend, fun i hi => ?_⟩
          by_cases hi' : i = K0
          · rw [hi']; exact h
          · exact hall i (by omega)
        · exfalso
          apply hall
          intro i hi
          rcases hitem i (by omega) with h' | ⟨e, h'⟩
          · exact h'
          · obtain ⟨t, h1, -⟩ := h
            rw [h' K0 (by omega)] at h1
            cases h1
      · have he : e = e0 := by
          have h1 := h (K0 + 1) (by omega)
          rw [hend _ (Nat.le_refl _)] at h1
          cases h1; rfl
        subst he
        obtain ⟨K, h1, h2, h3⟩ := ih h (fun k hk => hitem k (by omega)) (by omega)
        exact ⟨K, by omega, h2, h3⟩
  obtain ⟨K, hK, hE, hV⟩ := hmin
  have first : filterNext nx M fuel s = (after nx (K + 1) s, some (.err e0)) := by
    refine filter_hit K ?_ (by rw [hE K (Nat.le_refl _)]; rfl) (by omega)
    intro i hi
    obtain ⟨t, h1, h2⟩ := hV i hi
    rw [h1]
    simp only [sieve, h2]
  have later : ∀ a, K ≤ a → filterNext nx M fuel (after nx a s) = (after nx (a + 1) s, some (.err e0)) := by
    intro a ha
    have := filter_hit (M := M) (fuel := fuel) (nx := nx) (s := after nx a s) 0 (by intro i hi; omega)
      (r := some (.err e0)) (by rw [← nth_add, hE (a + 0) (by omega)]; rfl) (by omega)
    rw [this]
    show (after nx 1 (after nx a s), _) = _
    rw [← after_add]
  have state : ∀ q, after (filterNext nx M fuel) (q + 1) s = after nx (K + 1 + q) s := by
    intro q
    induction q with
    | zero => show (filterNext nx M fuel s).1 = _; rw [first]
    | succ q ih => rw [after_succ', ih, later _ (by omega)]; rfl
  rw [nth_eq]
  cases q with
  | zero => show (filterNext nx M fuel s).2 = _; rw [first]
  | succ q => rw [state, later _ (by omega)]

/-- A `next` that fails on a started iterator leaves it failing. -/
theorem latched_of_next_err {c : Cfg} {it : Iter} {e : ErrorKind} (hs : it.hadFirst = true) (ha : it.increment.isAAmount = true)
    (h : (it.next c).2 = some (.err e)) : Latched c e (it.next c).1 := by
  have hn : it.next c = ((it.skip c).1, some ((it.skip c).2 >>= fun _ => .ok (it.skip c).1.base)) := by
    simp [Iter.next, hs]
  rw [hn] at h ⊢
  cases hr : (it.skip c).2 with
  | err e' =>
    rw [hr] at h
    simp at h
    subst h
    unfold Iter.skip Iter.recalculate at *
    simp only at *
    split at hr <;> cases hr
    rename_i h'
    exact ⟨hs, ha, .inl ⟨_, _, rfl⟩, h'⟩
  | _ => rw [hr] at h; simp at h

theorem after_started {c : Cfg} {it : Iter} (k : Nat) (h : it.hadFirst = true) :
    (after (Iter.next c) k it).hadFirst = true ∧ (after (Iter.next c) k it).increment = it.increment := by
  induction k generalizing it with
  | zero => exact ⟨h, rfl⟩
  | succ k ih =>
    have : (it.next c).1.hadFirst = true ∧ (it.next c).1.increment = it.increment := by
      simp only [Iter.next, h, Iter.skip, Iter.recalculate, Bool.not_true, Bool.false_eq_true, if_false]
      split <;> exact ⟨by first | rfl | exact h, rfl⟩
    rw [after]
    exact ⟨(ih this.1).1, (ih this.1).2.trans this.2⟩

/-- On an iterator that was just built, an error is repeated for ever. -/
theorem built_err_forever {c : Cfg} {m : Moment} {inc : TT} (ha : inc.isAAmount = true) {k : Nat} {e : ErrorKind}
    (h : nth (Iter.next c) k ⟨.moment m, inc, false⟩ = some (.err e)) (j : Nat) (hj : k ≤ j) :
    nth (Iter.next c) j ⟨.moment m, inc, false⟩ = some (.err e) := by
  cases k with
  | zero => cases h
  | succ k =>
    obtain ⟨d, rfl⟩ : ∃ d, j = k + 1 + d := ⟨j - (k + 1), by omega⟩
    rw [nth_add]
    rw [nth_eq] at h
    have hst := after_started (c := c) (it := ⟨.moment m, inc, true⟩) k rfl
    have hl := latched_of_next_err (c := c) (it := after (Iter.next c) (k + 1) ⟨.moment m, inc, false⟩) hst.1
      (by show (after (Iter.next c) k ⟨.moment m, inc, true⟩).increment.isAAmount = true; rw [hst.2]; exact ha) h
    cases d with
    | zero => rw [nth]; exact h
    | succ d => rw [nth]; exact hl.nth d

end Kairos
