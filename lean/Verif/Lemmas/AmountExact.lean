import Verif.Lemmas.Amount

/-! Amount expressions of bounded size evaluate without overflow. -/

set_option linter.unusedSimpArgs false

namespace Kairos
open Spec

theorem chk_exact {ε : Type} (c : Cfg) {x : Int} (h1 : -9223372036854775807 ≤ x)
    (h2 : x ≤ 9223372036854775807) : (c.chk x : OutE ε Int) = .ok x :=
  chk_ok_of_in c ⟨by omega, h2⟩

/-- Closes one arm of a table: every intermediate product and the result are in range. -/
macro "exact_arm" : tactic => `(tactic| (
  simp only [Cfg.mulL, Cfg.mul, OutE.ok_bind, TUnit.secs] at *
  repeat (rw [chk_exact _ (by omega) (by omega)]; simp only [OutE.ok_bind])
  simp only [finer, fac, TUnit.secs, amt]
  simp
  try omega))

theorem exec_addTo_amt_exact (c : Cfg) (u v : TUnit) (n k x y : Int)
    (h1 : -x ≤ n * u.secs) (h2 : n * u.secs ≤ x) (h3 : -y ≤ k * v.secs) (h4 : k * v.secs ≤ y)
    (h : x + y ≤ 9223372036854775807) :
    exec c (.addTo u.idx n (amt v k)) =
      .ok (amt (finer u v) (n * fac u (finer u v) + k * fac v (finer u v))) := by
  cases u <;> cases v <;>
    simp only [Spec.TUnit.idx, amt, exec_addTo_seconds, exec_addTo_minutes, exec_addTo_hours,
      exec_addTo_days, exec_addTo_months, exec_addTo_years, Eval.addToSeconds, Eval.addToMinutes,
      Eval.addToHours, Eval.addToDays, Eval.addToMonths, Eval.addToYears, Cfg.add] <;>
    exact_arm

theorem exec_subFrom_amt_exact (c : Cfg) (u v : TUnit) (n k x y : Int)
    (h1 : -x ≤ n * u.secs) (h2 : n * u.secs ≤ x) (h3 : -y ≤ k * v.secs) (h4 : k * v.secs ≤ y)
    (h : x + y ≤ 9223372036854775807) :
    exec c (.subFrom u.idx n (amt v k)) =
      .ok (amt (finer u v) (n * fac u (finer u v) - k * fac v (finer u v))) := by
  cases u <;> cases v <;>
    simp only [Spec.TUnit.idx, amt, exec_subFrom_seconds, exec_subFrom_minutes, exec_subFrom_hours,
      exec_subFrom_days, exec_subFrom_months, exec_subFrom_years, Eval.subFromSeconds,
      Eval.subFromMinutes, Eval.subFromHours, Eval.subFromDays, Eval.subFromMonths,
      Eval.subFromYears, Cfg.sub] <;>
    exact_arm

theorem secs_pos (u : TUnit) : 0 < u.secs := by cases u <;> decide

theorem amt_mag_abs (u : TUnit) (n : Int) :
    -(AmtTree.amt u n).mag ≤ n * u.secs ∧ n * u.secs ≤ (AmtTree.amt u n).mag := by
  have hs := secs_pos u
  simp only [AmtTree.mag]
  split
  · rw [Int.neg_mul]
    have := Int.mul_nonneg (show 0 ≤ -n by omega) (Int.le_of_lt hs)
    rw [Int.neg_mul] at this; omega
  · have := Int.mul_nonneg (show 0 ≤ n by omega) (Int.le_of_lt hs)
    omega

theorem secs_le_mag (t : AmtTree) : -t.mag ≤ t.secs ∧ t.secs ≤ t.mag := by
  induction t with
  | amt u n => exact amt_mag_abs u n
  | plus a b iha ihb => simp only [AmtTree.mag, AmtTree.secs]; omega
  | minus a b iha ihb => simp only [AmtTree.mag, AmtTree.secs]; omega

/-- Replacing a subexpression by its value does not increase the size. -/
theorem mag_value_le (t : AmtTree) : (AmtTree.amt t.finest (cnt t)).mag ≤ t.mag := by
  have h := secs_le_mag t
  rw [← cnt_secs t] at h
  simp only [AmtTree.mag]
  split
  · rw [Int.neg_mul]; omega
  · omega

theorem exec_amt_exact (c : Cfg) (N : Nat) : ∀ a b : AmtTree, nodes a + nodes b ≤ N →
    a.mag + b.mag ≤ 9223372036854775807 →
    exec c (.add a.toTT b.toTT) = .ok (amt (AmtTree.plus a b).finest (cnt (.plus a b))) ∧
    exec c (.sub a.toTT b.toTT) = .ok (amt (AmtTree.minus a b).finest (cnt (.minus a b))) := by
  induction N with
  | zero => intro a b h; have := nodes_pos a; omega
  | succ N ih =>
    intro a b h hm
    have pa := nodes_pos a
    have pb := nodes_pos b
    have mp := fun t => Int.le_trans (secs_le_mag t).1 (secs_le_mag t).2
    have tabA : ∀ (u v : TUnit) (n k : Int), (AmtTree.amt u n).mag + (AmtTree.amt v k).mag ≤ 9223372036854775807 →
        exec c (.addTo u.idx n (amt v k)) = _ := fun u v n k hh =>
      exec_addTo_amt_exact c u v n k _ _ (amt_mag_abs u n).1 (amt_mag_abs u n).2 (amt_mag_abs v k).1
        (amt_mag_abs v k).2 hh
    have tabS : ∀ (u v : TUnit) (n k : Int), (AmtTree.amt u n).mag + (AmtTree.amt v k).mag ≤ 9223372036854775807 →
        exec c (.subFrom u.idx n (amt v k)) = _ := fun u v n k hh =>
      exec_subFrom_amt_exact c u v n k _ _ (amt_mag_abs u n).1 (amt_mag_abs u n).2 (amt_mag_abs v k).1
        (amt_mag_abs v k).2 hh
    constructor
    · -- add
      rcases toTT_cases a with ⟨u, n, rfl⟩ | ⟨a1, a2, rfl⟩ | ⟨a1, a2, rfl⟩
      · show exec c (.add (amt u n) b.toTT) = _
        rw [exec_add_amt]
        rcases toTT_cases b with ⟨v, k, rfl⟩ | ⟨b1, b2, rfl⟩ | ⟨b1, b2, rfl⟩
        · exact tabA u v n k hm
        · show exec c (.addTo _ _ (.addition _ _)) = _
          have hv := mag_value_le (.plus b1 b2)
          have := mp (.amt u n)
          rw [exec_addTo_plus, (ih b1 b2 (by simp [nodes] at *; omega) (by simp only [AmtTree.mag] at *; omega)).1]
          exact tabA u _ n _ (by omega)
        · show exec c (.addTo _ _ (.subtraction _ _)) = _
          have hv := mag_value_le (.minus b1 b2)
          have := mp (.amt u n)
          rw [exec_addTo_minus, (ih b1 b2 (by simp [nodes] at *; omega) (by simp only [AmtTree.mag] at *; omega)).2]
          exact tabA u _ n _ (by omega)
      · show exec c (.add (.addition _ _) b.toTT) = _
        have p1 := nodes_pos a1
        have hv := mag_value_le (.plus a1 a2)
        have := mp b
        rw [exec_add_plus, (ih a1 a2 (by simp [nodes] at *; omega) (by simp only [AmtTree.mag] at *; omega)).1]
        exact (ih (.amt (AmtTree.plus a1 a2).finest (cnt (.plus a1 a2))) b (by simp [nodes] at *; omega) (by omega)).1
      · have p1 := nodes_pos a1
        by_cases hb : ∃ x y, b = .plus x y
        · obtain ⟨x, y, rfl⟩ := hb
          have px := nodes_pos x
          have hv := mag_value_le (.plus x y)
          have := mp (.minus a1 a2)
          show exec c (.add (.subtraction _ _) (.addition _ _)) = _
          rw [exec_add_minus_plus, (ih x y (by simp [nodes] at *; omega) (by simp only [AmtTree.mag] at *; omega)).1]
          exact (ih (.minus a1 a2) (.amt (AmtTree.plus x y).finest (cnt (.plus x y))) (by simp [nodes] at *; omega) (by omega)).1
        · show exec c (.add (.subtraction _ _) b.toTT) = _
          have hv := mag_value_le (.minus a1 a2)
          have := mp b
          rw [exec_add_minus c _ _ _ (fun x y e => hb ⟨x, y, e⟩),
            (ih a1 a2 (by simp [nodes] at *; omega) (by simp only [AmtTree.mag] at *; omega)).2]
          have := (ih b (.amt (AmtTree.minus a1 a2).finest (cnt (.minus a1 a2)))
            (by simp [nodes] at *; omega) (by omega)).1
          refine Eq.trans this ?_
          rw [finest_plus, finest_plus, finer_comm]
          simp only [cnt, AmtTree.finest]
          rw [finer_comm, Int.add_comm]
    · rcases toTT_cases a with ⟨u, n, rfl⟩ | ⟨a1, a2, rfl⟩ | ⟨a1, a2, rfl⟩
      · show exec c (.sub (amt u n) b.toTT) = _
        rw [exec_sub_amt]
        rcases toTT_cases b with ⟨v, k, rfl⟩ | ⟨b1, b2, rfl⟩ | ⟨b1, b2, rfl⟩
        · exact tabS u v n k hm
        · show exec c (.subFrom _ _ (.addition _ _)) = _
          have hv := mag_value_le (.plus b1 b2)
          have := mp (.amt u n)
          rw [exec_subFrom_plus, (ih b1 b2 (by simp [nodes] at *; omega) (by simp only [AmtTree.mag] at *; omega)).1]
          exact tabS u _ n _ (by omega)
        · show exec c (.subFrom _ _ (.subtraction _ _)) = _
          have hv := mag_value_le (.minus b1 b2)
          have := mp (.amt u n)
          rw [exec_subFrom_minus, (ih b1 b2 (by simp [nodes] at *; omega) (by simp only [AmtTree.mag] at *; omega)).2]
          exact tabS u _ n _ (by omega)
      · have p1 := nodes_pos a1
        by_cases hb : ∃ x y, b = .minus x y
        · obtain ⟨x, y, rfl⟩ := hb
          have px := nodes_pos x
          have hv := mag_value_le (.minus x y)
          have := mp (.plus a1 a2)
          show exec c (.sub (.addition _ _) (.subtraction _ _)) = _
          rw [exec_sub_plus_minus, (ih x y (by simp [nodes] at *; omega) (by simp only [AmtTree.mag] at *; omega)).2]
          exact (ih (.plus a1 a2) (.amt (AmtTree.minus x y).finest (cnt (.minus x y))) (by simp [nodes] at *; omega) (by omega)).2
        · show exec c (.sub (.addition _ _) b.toTT) = _
          have hv := mag_value_le (.plus a1 a2)
          have := mp b
          rw [exec_sub_plus c _ _ _ (fun x y e => hb ⟨x, y, e⟩),
            (ih a1 a2 (by simp [nodes] at *; omega) (by simp only [AmtTree.mag] at *; omega)).1]
          exact (ih (.amt (AmtTree.plus a1 a2).finest (cnt (.plus a1 a2))) b (by simp [nodes] at *; omega) (by omega)).2
      · show exec c (.sub (.subtraction _ _) b.toTT) = _
        have p1 := nodes_pos a1
        have hv := mag_value_le (.minus a1 a2)
        have := mp b
        rw [exec_sub_minus, (ih a1 a2 (by simp [nodes] at *; omega) (by simp only [AmtTree.mag] at *; omega)).2]
        exact (ih (.amt (AmtTree.minus a1 a2).finest (cnt (.minus a1 a2))) b (by simp [nodes] at *; omega) (by omega)).2

theorem calculate_amt_exact (c : Cfg) (t : AmtTree) (h : t.mag ≤ 9223372036854775807) :
    calculate c t.toTT = .ok (amt t.finest (cnt t)) := by
  rcases toTT_cases t with ⟨u, n, rfl⟩ | ⟨a, b, rfl⟩ | ⟨a, b, rfl⟩
  · rw [calculate_leaf]; rfl; cases u <;> rfl
  · show calculate c (a.toTT + b.toTT) = _
    rw [calculate_add]; exact (exec_amt_exact c _ a b (Nat.le_refl _) h).1
  · show calculate c (a.toTT - b.toTT) = _
    rw [calculate_sub]; exact (exec_amt_exact c _ a b (Nat.le_refl _) h).2

end Kairos
