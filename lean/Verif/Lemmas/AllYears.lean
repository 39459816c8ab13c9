import Verif.Lemmas.Negative

/-! Adding and subtracting any number of years: only the resulting year modulo 2^32 matters. -/

namespace Kairos
open Spec
variable (c : Cfg)

/-- Truncation to 32 bits, by its characteristic property. -/
theorem asI32_of {y Y k : Int} (h1 : -2147483648 ≤ Y) (h2 : Y ≤ 2147483647) (h : y = Y + k * 4294967296) : asI32 y = Y := by
  unfold asI32; rw [h, Int.bmod_def]
  split <;> omega

theorem numDays_congr {y Y : Int} (h : asI32 y = asI32 Y) (mo : Int) :
    getNumOfDaysInMonth y mo = getNumOfDaysInMonth Y mo := by
  unfold getNumOfDaysInMonth; rw [h]

theorem dayLoop_congr {ε : Type} {y Y : Int} (h : asI32 y = asI32 Y) (k : Nat) (mo d : Int) :
    (dayLoop c y k mo d : OutE ε (Int × Int)) = dayLoop c Y k mo d := by
  induction k generalizing mo d with
  | zero => unfold dayLoop; rw [numDays_congr h]
  | succ k ih =>
    unfold dayLoop
    rw [numDays_congr h]
    simp only [ih]

theorem build_congr {y Y mo d h mi s : Int} (e : asI32 y = asI32 Y) :
    Eval.buildMoment c ⟨y, mo, d, h, mi, s⟩ = Eval.buildMoment c ⟨Y, mo, d, h, mi, s⟩ := by
  unfold Eval.buildMoment; simp only [e]

/-- The loops on a proper date never touch the year. -/
theorem loops_year {ε : Type} {y Y t d : Int} (e : asI32 y = Y) (hy1 : -2147483648 ≤ Y) (hy2 : Y ≤ 2147483647)
    (ht : 1 ≤ t) (ht2 : t ≤ 12) (hd1 : 1 ≤ d) (hd2 : d ≤ 31) {h mi s : Int} :
    (do let (mo, d) ← dayLoop c y d.toNat t d
        let (y, mo) ← monthLoop c mo.toNat y mo
        .ok ⟨y, mo, d, h, mi, s⟩ : OutE ε Parts) =
      .ok ⟨y, (monthDate Y t d).2.1, (monthDate Y t d).2.2, h, mi, s⟩ := by
  have e' : asI32 y = asI32 Y := by rw [e, asI32_id hy1 hy2]
  obtain ⟨k, hk⟩ : ∃ k, d.toNat = k + 1 := ⟨d.toNat - 1, by omega⟩
  rw [hk, dayLoop_congr c e']
  unfold monthDate
  have he := numDays_eq hy1 hy2 ht ht2
  have hb := Cal.monthLen_bounds (y := Y) ht ht2
  rw [if_pos ht2]
  by_cases hl : d ≤ Cal.monthLen Y t
  · rw [if_pos hl, dayLoop_stop c Y t d _ (by rw [he]; exact hl)]
    simp only [OutE.ok_bind]
    rw [monthLoop_stop c _ _ _ ht2]; rfl
  · rw [if_neg hl, dayLoop_step c Y t d k (by rw [he]; omega) (by omega) (by omega) (by omega), he]
    have ht11 : t < 12 := by
      by_cases h : t = 12
      · subst h; simp [Cal.monthLen] at hl; omega
      · omega
    rw [dayLoop_stop c Y _ _ _ (by have := (numDays_range Y (t + 1)).1; omega)]
    simp only [OutE.ok_bind]
    rw [monthLoop_stop c _ _ _ (by omega)]; rfl

theorem monthDate_year {Y t d : Int} (ht2 : t ≤ 12) : (monthDate Y t d).1 = Y := by
  unfold monthDate; rw [if_pos ht2]; split <;> rfl

/-- The result of machine arithmetic, seen modulo 2^32. -/
theorem chk_mod32 {ε : Type} (x : Int) :
    (c.profile = .debug ∧ ¬ InI64 x ∧ (c.chk x : OutE ε Int) = .panic) ∨
    (¬ (c.profile = .debug ∧ ¬ InI64 x) ∧ ∃ v, (c.chk x : OutE ε Int) = .ok v ∧ asI32 v = asI32 x) := by
  unfold Cfg.chk
  by_cases h : InI64 x
  · rw [if_pos h]; exact .inr ⟨by simp [h], x, rfl, rfl⟩
  · rw [if_neg h]
    cases hp : c.profile
    · exact .inl ⟨rfl, h, rfl⟩
    · refine .inr ⟨by simp, _, rfl, ?_⟩
      unfold wrap64 asI32
      simp only [Int.bmod_def]
      repeat' split
      all_goals omega

/-- Adding any number of years. -/
theorem addYears_all {m : Moment} (hm : m.Valid c) (n Y : Int)
    (hy1 : -2147483648 ≤ Y) (hy2 : Y ≤ 2147483647) (e : asI32 (m.year + n) = Y) :
    calculate c (.moment m + .years n) =
      if c.profile = .debug ∧ ¬ InI64 (m.year + n) then .panic else
      Eval.buildMoment c ⟨Y, (monthDate Y m.month m.day).2.1,
       (monthDate Y m.month m.day).2.2, m.hour, m.minute, m.second⟩ := by
  obtain ⟨h1, h2, ⟨h3, h4, h5, h6⟩, t, -⟩ := hm
  have hb31 := Cal.monthLen_bounds (y := m.year) h3 h4
  rw [calc_add_moment, exec_addToMoment]
  simp only [Eval.addToMoment, Cfg.add]
  rcases chk_mod32 (ε := ErrorKind) c (m.year + n) with ⟨p1, p2, p3⟩ | ⟨p1, v, p2, p3⟩
  · rw [p3, if_pos ⟨p1, p2⟩]; rfl
  · rw [if_neg p1, p2, OutE.ok_bind, adjustAdd_time c t ⟨by omega, by omega⟩,
      loops_year c (p3.trans e) hy1 hy2 h3 h4 h5 (by omega), OutE.ok_bind]
    exact build_congr c (by rw [p3, e, asI32_id hy1 hy2])

/-- Subtracting any number of years. -/
theorem subYears_all {m : Moment} (hm : m.Valid c) (n Y : Int)
    (hy1 : -2147483648 ≤ Y) (hy2 : Y ≤ 2147483647) (e : asI32 (m.year - n) = Y) :
    calculate c (.moment m - .years n) =
      if c.profile = .debug ∧ ¬ InI64 (m.year - n) then .panic else
      Eval.buildMoment c ⟨Y, m.month, m.day, m.hour, m.minute, m.second⟩ := by
  obtain ⟨a1, a2, ⟨a3, a4, a5, a6⟩, ⟨t1, t2, t3, t4, t5, t6⟩, -⟩ := hm
  rw [calc_sub_moment, exec_subFromMoment]
  simp only [Eval.subFromMoment, Cfg.sub]
  have hid (y : Int) : (adjustTimesSub c ⟨y, m.month, m.day, m.hour, m.minute, m.second⟩ : Out Parts) =
      .ok ⟨y, m.month, m.day, m.hour, m.minute, m.second⟩ := by
    have b (base low div top next : Int) (h : low ≤ base) :
        (borrow c base low div top next : Out (Int × Int)) = .ok (next, base) := by
      unfold borrow; rw [if_neg (by omega)]
    unfold adjustTimesSub
    simp only [b _ 0 _ _ _ t5, b _ 0 _ _ _ t3, b _ 0 _ _ _ t1, b _ 1 _ _ _ a5, b _ 1 _ _ _ a3, OutE.ok_bind]
  rcases chk_mod32 (ε := ErrorKind) c (m.year - n) with ⟨p1, p2, p3⟩ | ⟨p1, v, p2, p3⟩
  · rw [p3, if_pos ⟨p1, p2⟩]; rfl
  · rw [if_neg p1, p2, OutE.ok_bind, hid, OutE.ok_bind]
    exact build_congr c (by rw [p3, e, asI32_id hy1 hy2])

end Kairos
