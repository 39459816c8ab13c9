import Verif.Lemmas.Arith

/-! Chains of constant multiplications and divisions. -/

namespace Kairos
variable {ε : Type}

theorem tdiv_tdiv (d a b : Int) (ha : 0 < a) : (d.tdiv a).tdiv b = d.tdiv (a * b) := by
  by_cases h : 0 ≤ d
  · rw [Int.tdiv_eq_ediv_of_nonneg h, Int.tdiv_eq_ediv_of_nonneg (Int.ediv_nonneg h (by omega)),
      Int.tdiv_eq_ediv_of_nonneg h, Int.ediv_ediv_of_nonneg (by omega)]
  · obtain ⟨e, rfl⟩ : ∃ e, d = -e := ⟨-d, by omega⟩
    have h : 0 ≤ e := by omega
    rw [Int.neg_tdiv, Int.neg_tdiv, Int.neg_tdiv, Int.tdiv_eq_ediv_of_nonneg h,
      Int.tdiv_eq_ediv_of_nonneg (Int.ediv_nonneg h (by omega)), Int.tdiv_eq_ediv_of_nonneg h,
      Int.ediv_ediv_of_nonneg (by omega)]

theorem tdiv_le_of {a b n : Int} (hb : 0 < b) (h0 : 0 ≤ a) (h : a ≤ n * b) : 0 ≤ a.tdiv b ∧ a.tdiv b ≤ n := by
  rw [Int.tdiv_eq_ediv_of_nonneg h0]
  exact ⟨Int.ediv_nonneg h0 (by omega), Int.ediv_le_of_le_mul hb h⟩

theorem tdiv_in {a b n : Int} (hb : 0 < b) (hn : InI64 n) (h : (0 ≤ n ∧ 0 ≤ a ∧ a ≤ n * b) ∨ (n < 0 ∧ a ≤ 0 ∧ n * b ≤ a)) :
    InI64 (a.tdiv b) := by
  unfold InI64 at *
  rcases h with ⟨h1, h2, h3⟩ | ⟨h1, h2, h3⟩
  · have := tdiv_le_of hb h2 h3; omega
  · obtain ⟨e, rfl⟩ : ∃ e, a = -e := ⟨-a, by omega⟩
    have := tdiv_le_of (a := e) (n := -n) hb (by omega) (by rw [Int.neg_mul]; omega)
    rw [Int.neg_tdiv]; omega

/-- A product of constant factors overflows exactly if the total does, and wraps to the total. -/
theorem mulL_eq_chk' (c : Cfg) (a : Int) (l : List Int) (h : l = [] → InI64 a) (hl : ∀ k ∈ l, 0 < k) :
    (c.mulL a l : OutE ε Int) = c.chk (a * l.foldr (· * ·) 1) := by
  have prod_pos : ∀ l : List Int, (∀ k ∈ l, 0 < k) → 1 ≤ l.foldr (· * ·) 1 := by
    intro l
    induction l with
    | nil => intro _; decide
    | cons k ks ih =>
      intro h
      have h1 := h k (by simp)
      have h2 := ih (fun x hx => h x (by simp [hx]))
      simp only [List.foldr_cons]
      have := Int.mul_le_mul (a := 1) (b := 1) (c := k) (d := ks.foldr (· * ·) 1) (by omega) h2 (by decide) (by omega)
      omega
  induction l generalizing a with
  | nil => simp [Cfg.mulL, chk_ok_of_in c (h rfl)]
  | cons k ks ih =>
    have hk := hl k (by simp)
    have hks := fun x hx => hl x (List.mem_cons_of_mem k hx)
    have hp := prod_pos ks hks
    simp only [Cfg.mulL, Cfg.mul, List.foldr_cons, ← Int.mul_assoc]
    by_cases hi : InI64 (a * k)
    · rw [chk_ok_of_in c hi, OutE.ok_bind, ih _ (fun _ => hi) hks]
    · generalize ks.foldr (· * ·) 1 = q at hp ih
      have hn : ¬ InI64 (a * k * q) := by
        unfold InI64 at *
        intro hc
        apply hi
        by_cases hz : 0 ≤ a * k
        · have := Int.mul_le_mul_of_nonneg_left hp hz; omega
        · have := Int.mul_le_mul_of_nonpos_left (a := a * k) (b := q) (c := 1) (by omega) (by omega); omega
      unfold Cfg.chk at *
      cases hpr : c.profile
      · simp [hi, hn]
      · simp only [hi, hn, if_false, OutE.ok_bind]
        rw [ih _ (fun _ => wrap64_in _) hks]
        simp only [hpr]
        unfold wrap64
        by_cases hw : InI64 (Int.bmod (a * k) 18446744073709551616 * q)
        · have e : Int.bmod (a * k * q) 18446744073709551616 =
              Int.bmod (Int.bmod (a * k) 18446744073709551616 * q) 18446744073709551616 := by
            rw [Int.bmod_mul_bmod]
          rw [if_pos hw, e]
          congr 1
          generalize Int.bmod (a * k) 18446744073709551616 * q = z at hw
          unfold InI64 at hw
          rw [Int.bmod_eq_of_le] <;> omega
        · rw [if_neg hw, Int.bmod_mul_bmod]

theorem mulL_eq_chk (c : Cfg) (a : Int) (l : List Int) (h : InI64 a) (hl : ∀ k ∈ l, 0 < k) :
    (c.mulL a l : OutE ε Int) = c.chk (a * l.foldr (· * ·) 1) := mulL_eq_chk' c a l (fun _ => h) hl

end Kairos
