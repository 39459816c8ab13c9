import Verif.Source.Util
import Verif.Lemmas.Arith

/-! The hand-written model of src/util.rs agrees with the mechanical translation of its text. -/

namespace Kairos.Source

/-- The six numbers of `Parts` in the order `adjust_times_add` and `adjust_times_sub` return them — src/util.rs:32, 64. -/
def tuple (p : Parts) : Int × Int × Int × Int × Int × Int := (p.y, p.mo, p.d, p.h, p.mi, p.s)

theorem is_leap_year_eq (c : Cfg) (y : Int) : is_leap_year c y = .ok (isLeapYear y) := rfl

theorem get_num_of_days_in_month_eq (c : Cfg) (y m : Int) :
    get_num_of_days_in_month c y m = .ok (getNumOfDaysInMonth y m) := by
  unfold get_num_of_days_in_month getNumOfDaysInMonth
  simp only [is_leap_year_eq, OutE.ok_bind, Bool.or_eq_true, beq_iff_eq, or_assoc]
  split
  · rfl
  · split
    · cases isLeapYear (asI32 y) <;> rfl
    · rfl

theorem dayLoop_while (c : Cfg) (y : Int) (n : Nat) (mo d : Int)
    (h : (dayLoop c y n mo d : Out (Int × Int)) ≠ .oof) :
    (Rs.while (fun (d, mo) => do
        let t7 ← get_num_of_days_in_month c y mo
        .ok (decide (d > t7)))
      (fun (d, mo) => do
        let t8 ← get_num_of_days_in_month c y mo
        let t9 ← c.sub d t8
        let d := t9
        let t10 ← c.add mo 1
        let mo := t10
        .ok (d, mo)) (d, mo) : Out (Int × Int)) =
      (dayLoop c y n mo d >>= fun r => .ok (r.2, r.1)) := by
  induction n generalizing mo d with
  | zero =>
    rw [Rs.while]
    unfold dayLoop at h ⊢
    simp only [get_num_of_days_in_month_eq, OutE.ok_bind, decide_eq_true_eq]
    split
    · rename_i hd; rw [if_pos hd] at h; exact absurd rfl h
    · rfl
  | succ n ih =>
    rw [Rs.while]
    unfold dayLoop at h ⊢
    simp only [get_num_of_days_in_month_eq, OutE.ok_bind, decide_eq_true_eq]
    simp only [get_num_of_days_in_month_eq, OutE.ok_bind] at ih
    split
    · rename_i hd
      rw [if_pos hd] at h
      cases hs : (c.sub d (getNumOfDaysInMonth y mo) : Out Int) <;> simp only [hs, OutE.ok_bind, OutE.err_bind, OutE.panic_bind, OutE.oof_bind] at h ⊢
      cases ha : (c.add mo 1 : Out Int) <;> simp only [ha, OutE.ok_bind, OutE.err_bind, OutE.panic_bind, OutE.oof_bind] at h ⊢
      exact ih _ _ h
    · rfl

theorem monthLoop_while (c : Cfg) (n : Nat) (y mo : Int)
    (h : (monthLoop c n y mo : Out (Int × Int)) ≠ .oof) :
    (Rs.while (fun ((_, mo) : Int × Int) => do
        .ok (decide (mo > 12)))
      (fun (y, mo) => do
        let t11 ← c.add y 1
        let y := t11
        let t12 ← c.sub mo 12
        let mo := t12
        .ok (y, mo)) (y, mo) : Out (Int × Int)) = monthLoop c n y mo := by
  induction n generalizing y mo with
  | zero =>
    rw [Rs.while]
    unfold monthLoop at h ⊢
    simp only [OutE.ok_bind, decide_eq_true_eq]
    split
    · rename_i hd; rw [if_pos hd] at h; exact absurd rfl h
    · rfl
  | succ n ih =>
    rw [Rs.while]
    unfold monthLoop at h ⊢
    simp only [OutE.ok_bind, decide_eq_true_eq]
    split
    · rename_i hd
      rw [if_pos hd] at h
      cases hs : (c.add y 1 : Out Int) <;> simp only [hs, OutE.ok_bind, OutE.err_bind, OutE.panic_bind, OutE.oof_bind] at h ⊢
      cases ha : (c.sub mo 12 : Out Int) <;> simp only [ha, OutE.ok_bind, OutE.err_bind, OutE.panic_bind, OutE.oof_bind] at h ⊢
      exact ih _ _ h
    · rfl

theorem adjust_times_add_eq (c : Cfg) (p : Parts) :
    adjust_times_add c p.y p.mo p.d p.h p.mi p.s =
      (adjustTimesAdd c p >>= fun r => .ok (tuple r)) := by
  unfold adjust_times_add adjustTimesAdd fix
  simp only [OutE.bind_assoc', OutE.ok_bind]
  congr 1; funext t1
  congr 1; funext t2
  congr 1; funext t3
  congr 1; funext t4
  congr 1; funext t5
  congr 1; funext d
  rw [dayLoop_while c p.y d.toNat p.mo d (dayLoop_ne_oof _ _ _ _ _ (Nat.le_refl _))]
  simp only [OutE.bind_assoc', OutE.ok_bind]
  congr 1; funext ⟨mo, d⟩
  simp only
  rw [monthLoop_while c mo.toNat p.y mo (monthLoop_ne_oof _ _ _ _ (Nat.le_refl _))]
  rfl

theorem borrow_if (c : Cfg) (base low div top next : Int) :
    ((if decide (base < low) then do
      let t1 ← c.abs base
      let t2 ← c.add (t1.tdiv div) 1
      let t3 ← c.sub next t2
      let t4 ← c.sub 0 base
      let t5 ← c.abs t4
      let t6 ← c.sub top t5
      .ok (t3, t6)
    else .ok (next, base)) : Out (Int × Int)) = borrow c base low div top next := by
  unfold borrow
  simp only [decide_eq_true_eq]

theorem adjust_times_sub_eq (c : Cfg) (p : Parts) :
    adjust_times_sub c p.y p.mo p.d p.h p.mi p.s =
      (adjustTimesSub c p >>= fun r => .ok (tuple r)) := by
  unfold adjust_times_sub adjustTimesSub
  simp only [borrow_if, OutE.bind_assoc', OutE.ok_bind]
  rfl

end Kairos.Source
