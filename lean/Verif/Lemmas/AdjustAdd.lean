import Verif.Lemmas.Valid
import Verif.Lemmas.Operands

/-! Closed forms of `adjust_times_add`. -/

namespace Kairos
variable {ε : Type} (c : Cfg)

theorem chk_in {x : Int} (h1 : -9223372036854775808 ≤ x) (h2 : x ≤ 9223372036854775807) :
    (c.chk x : OutE ε Int) = .ok x := chk_ok_of_in c ⟨h1, h2⟩

theorem tmod_nonneg {b k : Int} (hb : 0 ≤ b) : b.tmod k = b % k := Int.tmod_eq_emod_of_nonneg hb
theorem tdiv_nonneg {b k : Int} (hb : 0 ≤ b) : b.tdiv k = b / k := Int.tdiv_eq_ediv_of_nonneg hb

theorem fix_eq {b k n : Int} (hk : 0 < k) (hb : InI64 b) :
    (fix c b k n : OutE ε (Int × Int)) = (do let n' ← c.add n (b.tdiv k); .ok (n', b.tmod k)) := by
  have e : b - b.tmod k = b.tdiv k * k := by
    have := Int.tmod_add_mul_tdiv b k; rw [Int.mul_comm]; omega
  have h : InI64 (b - b.tmod k) := by
    unfold InI64 at *
    by_cases h0 : 0 ≤ b
    · rw [tmod_nonneg h0]
      have := Int.emod_nonneg b (show k ≠ 0 by omega)
      have := Int.ediv_nonneg h0 (Int.le_of_lt hk)
      have := Int.emod_add_mul_ediv b k
      have := Int.mul_nonneg (Int.le_of_lt hk) ‹0 ≤ b / k›
      omega
    · obtain ⟨a, rfl⟩ : ∃ a, b = -a := ⟨-b, by omega⟩
      rw [Int.neg_tmod, tmod_nonneg (by omega)]
      have := Int.emod_nonneg a (show k ≠ 0 by omega)
      have := Int.ediv_nonneg (show 0 ≤ a by omega) (Int.le_of_lt hk)
      have := Int.emod_add_mul_ediv a k
      have := Int.mul_nonneg (Int.le_of_lt hk) ‹0 ≤ a / k›
      omega
  unfold fix Cfg.sub
  rw [chk_ok_of_in c h, OutE.ok_bind, e, Int.mul_tdiv_cancel _ (by omega)]

theorem fix_nonneg {b k n : Int} (hk : 0 < k) (hb : 0 ≤ b) (hb' : b ≤ 9223372036854775807)
    (h1 : -9223372036854775808 ≤ n + b / k) (h2 : n + b / k ≤ 9223372036854775807) :
    (fix c b k n : OutE ε (Int × Int)) = .ok (n + b / k, b % k) := by
  rw [fix_eq c hk ⟨by omega, hb'⟩, tdiv_nonneg hb, tmod_nonneg hb, Cfg.add, chk_in c h1 h2]; rfl

/-- The day loop does nothing if the day is small enough. -/
theorem dayLoop_stop (y mo d : Int) (n : Nat) (h : d ≤ getNumOfDaysInMonth y mo) :
    (dayLoop c y n mo d : OutE ε (Int × Int)) = .ok (mo, d) := by
  cases n <;> unfold dayLoop <;> rw [if_neg (by omega)]

theorem dayLoop_step (y mo d : Int) (n : Nat) (h : getNumOfDaysInMonth y mo < d)
    (hd : d ≤ 9223372036854775807) (hmo : 0 ≤ mo) (hmo2 : mo ≤ 9223372036854775806) :
    (dayLoop c y (n + 1) mo d : OutE ε (Int × Int)) =
      dayLoop c y n (mo + 1) (d - getNumOfDaysInMonth y mo) := by
  have := numDays_range y mo
  rw [dayLoop, if_pos (by omega), Cfg.sub, chk_in c (by omega) (by omega), OutE.ok_bind, Cfg.add,
    chk_in c (by omega) (by omega), OutE.ok_bind]

theorem numDays_13 {y mo : Int} (h : 13 ≤ mo) : getNumOfDaysInMonth y mo = 30 := by
  unfold getNumOfDaysInMonth
  rw [if_neg (by omega), if_neg (by omega)]

/-- After December the loop counts months of 30 days. -/
theorem dayLoop_13 (y : Int) (n : Nat) (mo d : Int) (hn : d.toNat ≤ n) (h : 13 ≤ mo)
    (hd : 1 ≤ d) (hd2 : d ≤ 9223372036854775807) (hb : 28 * mo + d ≤ 100000000000000000000) :
    (dayLoop c y n mo d : OutE ε (Int × Int)) = .ok (mo + (d - 1) / 30, (d - 1) % 30 + 1) := by
  induction n generalizing mo d with
  | zero => omega
  | succ n ih =>
    by_cases hs : d ≤ 30
    · rw [dayLoop_stop c y mo d _ (by rw [numDays_13 h]; exact hs)]
      congr 2 <;> omega
    · rw [dayLoop_step c y mo d n (by rw [numDays_13 h]; omega) hd2 (by omega) (by omega), numDays_13 h,
        ih (mo + 1) (d - 30) (by omega) (by omega) (by omega) (by omega) (by omega)]
      congr 2 <;> omega

theorem dayLoop_year (y : Int) (hy1 : -2147483648 ≤ y) (hy2 : y ≤ 2147483647) (n : Nat) (mo d : Int) (hn : d.toNat ≤ n)
    (h1 : 1 ≤ mo) (h2 : mo ≤ 12) (hd : 1 ≤ d) (hd2 : d ≤ 9223372036854775807) :
    ∃ mo' d', (dayLoop c y n mo d : OutE ε (Int × Int)) = .ok (mo', d') ∧
      (Cal.daysBeforeMonth y mo + d ≤ Cal.yearLen y →
        Cal.ValidDate y mo' d' ∧ Cal.dayOfYear y mo' d' = Cal.daysBeforeMonth y mo + d) ∧
      (Cal.yearLen y < Cal.daysBeforeMonth y mo + d →
        mo' = 13 + (Cal.daysBeforeMonth y mo + d - Cal.yearLen y - 1) / 30 ∧
        d' = (Cal.daysBeforeMonth y mo + d - Cal.yearLen y - 1) % 30 + 1) := by
  induction n generalizing mo d with
  | zero => omega
  | succ n ih =>
    have he := numDays_eq hy1 hy2 h1 h2
    have hb := Cal.monthLen_bounds (y := y) h1 h2
    by_cases hs : d ≤ Cal.monthLen y mo
    · refine ⟨mo, d, dayLoop_stop c y mo d _ (by rw [he]; exact hs), fun _ => ⟨⟨h1, h2, hd, hs⟩, rfl⟩, fun hgt => ?_⟩
      have := (Cal.dayOfYear_bounds (y := y) (m := mo) (d := d) ⟨h1, h2, hd, hs⟩).2
      unfold Cal.dayOfYear at this; omega
    · rw [dayLoop_step c y mo d n (by rw [he]; omega) hd2 (by omega) (by omega), he]
      by_cases hm : mo < 12
      · obtain ⟨mo', d', e, g1, g2⟩ := ih (mo + 1) (d - Cal.monthLen y mo) (by omega) (by omega) (by omega) (by omega) (by omega)
        rw [Cal.daysBeforeMonth_succ h1 hm] at g1 g2
        refine ⟨mo', d', e, fun hle => ?_, fun hgt => ?_⟩
        · obtain ⟨a, b⟩ := g1 (by omega)
          exact ⟨a, by omega⟩
        · obtain ⟨a, b⟩ := g2 (by omega)
          constructor
          · rw [a]; congr 2; omega
          · rw [b]; congr 2; omega
      · have hm12 : mo = 12 := by omega
        subst hm12
        have h31 : Cal.monthLen y 12 = 31 := by simp [Cal.monthLen]
        have hl := Cal.daysBeforeMonth_twelve y
        rw [h31] at hs ⊢
        rw [show (12 : Int) + 1 = 13 by rfl, dayLoop_13 c y n 13 (d - 31) (by omega) (by omega) (by omega) (by omega) (by omega)]
        refine ⟨_, _, rfl, fun hle => by omega, fun _ => ⟨?_, ?_⟩⟩
        · congr 2; omega
        · congr 2; omega

theorem monthLoop_eq (n : Nat) (y mo : Int) (hn : mo.toNat ≤ n) (h : 1 ≤ mo) (hm : mo ≤ 9223372036854775807)
    (hy1 : -1000000000000000000 ≤ y) (hy2 : 12 * y + mo ≤ 100000000000000000000) :
    (monthLoop c n y mo : OutE ε (Int × Int)) = .ok (y + (mo - 1) / 12, (mo - 1) % 12 + 1) := by
  induction n generalizing y mo with
  | zero => omega
  | succ n ih =>
    unfold monthLoop
    by_cases h12 : mo > 12
    · rw [if_pos h12, Cfg.add, chk_in c (by omega) (by omega), OutE.ok_bind, Cfg.sub,
        chk_in c (by omega) (by omega), OutE.ok_bind,
        ih (y + 1) (mo - 12) (by omega) (by omega) (by omega) (by omega) (by omega)]
      congr 2 <;> omega
    · rw [if_neg h12]
      congr 2 <;> omega

theorem monthLoop_stop (n : Nat) (y mo : Int) (h : mo ≤ 12) :
    (monthLoop c n y mo : OutE ε (Int × Int)) = .ok (y, mo) := by
  cases n <;> unfold monthLoop <;> rw [if_neg (by omega)]

/-- Days into a calendar date, on the code's calendar: Gregorian up to 31 December of the starting
year, months of 30 days and years of 360 days after that. `N` is the day of the year. -/
def CodeDate (y N y' mo' d' : Int) : Prop :=
  (N ≤ Cal.yearLen y → y' = y ∧ Cal.ValidDate y mo' d' ∧ Cal.dayOfYear y mo' d' = N) ∧
  (Cal.yearLen y < N → y' = y + 1 + (N - Cal.yearLen y - 1) / 360 ∧
    mo' = (N - Cal.yearLen y - 1) / 30 % 12 + 1 ∧ d' = (N - Cal.yearLen y - 1) % 30 + 1)

/-- `adjust_times_add` with non-negative time components and a day ≥ 1, month within 1..12. -/
theorem adjustAdd_sub_month {y mo d h mi s : Int} (hy1 : -2147483648 ≤ y) (hy2 : y ≤ 2147483647)
    (hm1 : 1 ≤ mo) (hm2 : mo ≤ 12) (hd : 1 ≤ d) (hh : 0 ≤ h) (hmi : 0 ≤ mi) (hs : 0 ≤ s)
    (bs : s ≤ 9223372036854775807) (bmi : mi + s / 60 ≤ 9223372036854775807)
    (bh : h + (mi + s / 60) / 60 ≤ 9223372036854775807)
    (bd : d + (h + (mi + s / 60) / 60) / 24 ≤ 9223372036854775807) :
    ∃ y' mo' d', (adjustTimesAdd c ⟨y, mo, d, h, mi, s⟩ : OutE ε Parts) =
        .ok ⟨y', mo', d', (h + (mi + s / 60) / 60) % 24, (mi + s / 60) % 60, s % 60⟩ ∧
      CodeDate y (Cal.daysBeforeMonth y mo + (d + (h + (mi + s / 60) / 60) / 24)) y' mo' d' := by
  unfold adjustTimesAdd
  simp only
  rw [fix_nonneg c (by decide) hs bs (by omega) bmi]
  simp only [OutE.ok_bind]
  rw [fix_nonneg c (by decide) (by omega) bmi (by omega) bh]
  simp only [OutE.ok_bind]
  rw [fix_nonneg c (by decide) (by omega) bh (by omega) bd]
  simp only [OutE.ok_bind]
  have hD : 1 ≤ d + (h + (mi + s / 60) / 60) / 24 := by omega
  generalize d + (h + (mi + s / 60) / 60) / 24 = D at *
  obtain ⟨mo', d', e, g1, g2⟩ := dayLoop_year (ε := ε) c y hy1 hy2 D.toNat mo D (Nat.le_refl _) hm1 hm2 hD bd
  rw [e]
  simp only [OutE.ok_bind]
  have hyl := Cal.yearLen_bounds y
  have hdb : Cal.daysBeforeMonth y mo + 1 ≤ Cal.yearLen y ∧ 0 ≤ Cal.daysBeforeMonth y mo := by
    have := Cal.dayOfYear_bounds (y := y) (m := mo) (d := 1) ⟨hm1, hm2, by omega, by
      have := (Cal.monthLen_bounds (y := y) hm1 hm2).1; omega⟩
    unfold Cal.dayOfYear at this; omega
  have bN : Cal.daysBeforeMonth y mo + D ≤ 9223372036854776172 := by omega
  generalize Cal.daysBeforeMonth y mo + D = N at *
  by_cases hN : N ≤ Cal.yearLen y
  · obtain ⟨v, w⟩ := g1 hN
    rw [monthLoop_stop c _ _ _ v.2.1]
    exact ⟨y, mo', d', rfl, fun _ => ⟨rfl, v, w⟩, fun h => by omega⟩
  · obtain ⟨v, w⟩ := g2 (by omega)
    rw [monthLoop_eq c _ y mo' (Nat.le_refl _) (by omega) (by omega) (by omega) (by omega)]
    refine ⟨_, _, _, rfl, fun _ => by omega, fun _ => ⟨?_, ?_, w⟩⟩
    · rw [v]; omega
    · rw [v]; omega

end Kairos
