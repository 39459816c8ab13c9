import Verif.Lemmas.NegativeIff

/-! Adding a negative amount, over the whole 64-bit range. -/

namespace Kairos
open Spec
variable (c : Cfg)

/-- `adjustAdd_carries` without bounds other than those of the integer type. -/
theorem adjustAdd_carries_full {ε : Type} {y mo d h mi s : Int} (hmo : 1 ≤ mo) (hmo2 : mo ≤ 12)
    (hy1 : -2147483648 ≤ y) (hy2 : y ≤ 2147483647) (hs : s < 60) (hmi : mi < 60) (hh : h < 24)
    (hd : d ≤ Cal.monthLen y mo)
    (bs : -9223372036854775808 ≤ s) (bmi : -9223372036854775808 ≤ mi + s.tdiv 60)
    (bh : -9223372036854775808 ≤ h + (mi + s.tdiv 60).tdiv 60)
    (bd : -9223372036854775808 ≤ d + (h + (mi + s.tdiv 60).tdiv 60).tdiv 24) :
    ∃ q1 q2 q3 h' mi' s', (adjustTimesAdd c ⟨y, mo, d, h, mi, s⟩ : OutE ε Parts) = .ok ⟨y, mo, d + q3, h', mi', s'⟩ ∧
      Carry s 60 q1 s' ∧ Carry (mi + q1) 60 q2 mi' ∧ Carry (h + q2) 24 q3 h' ∧ q3 ≤ 0 := by
  have ml := Cal.monthLen_bounds (y := y) hmo hmo2
  obtain ⟨e1, l1, u1, q1, r1, r1', -⟩ := tdiv_tmod_char s (k := 60) (by decide)
  have q1 := q1 hs
  have f1 : (fix c s 60 mi : OutE ε (Int × Int)) = .ok (mi + s.tdiv 60, s.tmod 60) := by
    rw [fix_eq c (by decide) ⟨by omega, by omega⟩, Cfg.add, chk_in c (by omega) (by omega)]; rfl
  generalize s.tdiv 60 = Q1 at *
  generalize s.tmod 60 = R1 at *
  obtain ⟨e2, l2, u2, q2, r2, r2', -⟩ := tdiv_tmod_char (mi + Q1) (k := 60) (by decide)
  have q2 := q2 (by omega)
  have f2 : (fix c (mi + Q1) 60 h : OutE ε (Int × Int)) = .ok (h + (mi + Q1).tdiv 60, (mi + Q1).tmod 60) := by
    rw [fix_eq c (by decide) ⟨by omega, by omega⟩, Cfg.add, chk_in c (by omega) (by omega)]; rfl
  generalize (mi + Q1).tdiv 60 = Q2 at *
  generalize (mi + Q1).tmod 60 = R2 at *
  obtain ⟨e3, l3, u3, q3, r3, r3', -⟩ := tdiv_tmod_char (h + Q2) (k := 24) (by decide)
  have q3 := q3 (by omega)
  have f3 : (fix c (h + Q2) 24 d : OutE ε (Int × Int)) = .ok (d + (h + Q2).tdiv 24, (h + Q2).tmod 24) := by
    rw [fix_eq c (by decide) ⟨by omega, by omega⟩, Cfg.add, chk_in c (by omega) (by omega)]; rfl
  generalize (h + Q2).tdiv 24 = Q3 at *
  generalize (h + Q2).tmod 24 = R3 at *
  refine ⟨Q1, Q2, Q3, R3, R2, R1, ?_, ⟨e1, l1, u1, r1, r1'⟩, ⟨e2, l2, u2, r2, r2'⟩, ⟨e3, l3, u3, r3, r3'⟩, q3⟩
  unfold adjustTimesAdd
  simp only
  rw [f1]; simp only [OutE.ok_bind]
  rw [f2]; simp only [OutE.ok_bind]
  rw [f3]; simp only [OutE.ok_bind]
  rw [dayLoop_stop c y mo _ _ (by rw [numDays_eq hy1 hy2 hmo hmo2]; omega)]
  simp only [OutE.ok_bind]
  rw [monthLoop_stop c _ _ _ hmo2]; rfl

/-- `tdiv` of a number near zero or of any number: bounds that `omega` needs. -/
theorem tdiv_low {b k : Int} (hk : 0 < k) (h : 0 ≤ b) (h2 : b < k) : b.tdiv k = 0 := by
  obtain ⟨e, l, u, -, r, -⟩ := tdiv_tmod_char b hk
  have := r h
  have h0 : b.tdiv k * k = b - b.tmod k := by omega
  rcases Int.lt_trichotomy (b.tdiv k) 0 with h | h | h
  · have := Int.mul_le_mul_of_nonneg_right (show b.tdiv k ≤ -1 by omega) (show 0 ≤ k by omega); omega
  · exact h
  · have := Int.mul_le_mul_of_nonneg_right (show 1 ≤ b.tdiv k by omega) (show 0 ≤ k by omega); omega

/-- Adding a negative number of seconds, minutes, hours or days, with the carries. -/
theorem add_carries_full {m : Moment} (hc : Sane c) (hm : m.Valid c) (u : TUnit) (hu : u.secs ≤ 86400) (n : Int) (hn : n ≤ 0)
    (hb : -9223372036854775808 ≤ n) (p : Parts) (hp : p = addComp m u n) :
    ∃ q1 q2 q3 h' mi' s', calculate c (.moment m + amt u n) =
      (if Cal.ValidDate m.year m.month ((p.d + q3) % 4294967296) ∧ Cal.ValidTime h' mi' s'
      then .ok (.moment ⟨m.year, m.month, (p.d + q3) % 4294967296, h', mi', s', 0⟩)
      else .err (.outOfBounds m.year m.month (asU32 h') (asU32 h') (asU32 mi') (asU32 s'))) ∧
      Carry p.s 60 q1 s' ∧ Carry (p.mi + q1) 60 q2 mi' ∧ Carry (p.h + q2) 24 q3 h' := by
  obtain ⟨a1, a2, ⟨a3, a4, a5, a6⟩, ⟨t1, t2, t3, t4, t5, t6⟩, -⟩ := hm
  have ml := Cal.monthLen_bounds (y := m.year) a3 a4
  unfold Sane at hc
  rw [calc_add_moment, exec_addToMoment]
  have fin : ∀ {d' h' mi' s' : Int},
      (-24 < h' ∧ h' < 24) → (-60 < mi' ∧ mi' < 60) → (-60 < s' ∧ s' < 60) →
      Eval.buildMoment c ⟨m.year, m.month, d', h', mi', s'⟩ =
      if Cal.ValidDate m.year m.month (d' % 4294967296) ∧ Cal.ValidTime h' mi' s'
      then .ok (.moment ⟨m.year, m.month, d' % 4294967296, h', mi', s', 0⟩)
      else .err (.outOfBounds m.year m.month (asU32 h') (asU32 h') (asU32 mi') (asU32 s')) := by
    intro d' h' mi' s' b1 b2 b3
    have e : Eval.buildMoment c ⟨m.year, m.month, d', h', mi', s'⟩ =
        Eval.buildMoment c ⟨m.year, m.month, d' % 4294967296, h', mi', s'⟩ := by
      unfold Eval.buildMoment
      simp only [show asU32 (d' % 4294967296) = asU32 d' by unfold asU32; omega]
    rw [e, build_wide c (by omega) (by omega) (by omega) (by omega) (by omega) (by omega) (by omega),
      asU32_id (by omega) (by omega)]
    simp only [a1, a2, true_and]
  cases u <;> simp [TUnit.secs] at hu <;> simp only [amt, Eval.addToMoment, Cfg.add] at * <;>
    rw [chk_in c (by omega) (by omega)] <;> simp only [OutE.ok_bind] <;> subst hp
  · have k1 := tdiv_tmod_char (m.second + n) (k := 60) (by omega)
    have k2 := tdiv_tmod_char (m.minute + (m.second + n).tdiv 60) (k := 60) (by omega)
    have k3 := tdiv_tmod_char (m.hour + (m.minute + (m.second + n).tdiv 60).tdiv 60) (k := 24) (by omega)
    obtain ⟨q1, q2, q3, h', mi', s', e, k1, k2, k3, k4⟩ := adjustAdd_carries_full (ε := ErrorKind) c (y := m.year) (mo := m.month) (d := m.day)
      (h := m.hour) (mi := m.minute) (s := m.second + n)
      a3 a4 (by omega) (by omega) (by omega) (by omega) (by omega) (by omega) (by omega) (by omega) (by omega) (by omega)
    refine ⟨q1, q2, q3, h', mi', s', ?_, k1, k2, k3⟩
    unfold Carry at k1 k2 k3
    rw [e, OutE.ok_bind, fin (by omega) (by omega) (by omega)]; rfl
  · have z := tdiv_low (k := 60) (by decide) t5 t6
    have k2 := tdiv_tmod_char (m.minute + n) (k := 60) (by omega)
    have k3 := tdiv_tmod_char (m.hour + (m.minute + n).tdiv 60) (k := 24) (by omega)
    obtain ⟨q1, q2, q3, h', mi', s', e, k1, k2, k3, k4⟩ := adjustAdd_carries_full (ε := ErrorKind) c (y := m.year) (mo := m.month) (d := m.day)
      (h := m.hour) (mi := m.minute + n) (s := m.second)
      a3 a4 (by omega) (by omega) (by omega) (by omega) (by omega) (by omega) (by omega) (by rw [z]; omega)
      (by rw [z, Int.add_zero]; omega) (by rw [z, Int.add_zero]; omega)
    refine ⟨q1, q2, q3, h', mi', s', ?_, k1, k2, k3⟩
    unfold Carry at k1 k2 k3
    rw [e, OutE.ok_bind, fin (by omega) (by omega) (by omega)]; rfl
  · have z := tdiv_low (k := 60) (by decide) t5 t6
    have z2 := tdiv_low (k := 60) (by decide) t3 t4
    have k3 := tdiv_tmod_char (m.hour + n) (k := 24) (by omega)
    obtain ⟨q1, q2, q3, h', mi', s', e, k1, k2, k3, k4⟩ := adjustAdd_carries_full (ε := ErrorKind) c (y := m.year) (mo := m.month) (d := m.day)
      (h := m.hour + n) (mi := m.minute) (s := m.second)
      a3 a4 (by omega) (by omega) (by omega) (by omega) (by omega) (by omega) (by omega) (by rw [z]; omega)
      (by rw [z, Int.add_zero, z2]; omega) (by rw [z, Int.add_zero, z2, Int.add_zero]; omega)
    refine ⟨q1, q2, q3, h', mi', s', ?_, k1, k2, k3⟩
    unfold Carry at k1 k2 k3
    rw [e, OutE.ok_bind, fin (by omega) (by omega) (by omega)]; rfl
  · have z := tdiv_low (k := 60) (by decide) t5 t6
    have z2 := tdiv_low (k := 60) (by decide) t3 t4
    have z3 := tdiv_low (k := 24) (by decide) t1 t2
    obtain ⟨q1, q2, q3, h', mi', s', e, k1, k2, k3, k4⟩ := adjustAdd_carries_full (ε := ErrorKind) c (y := m.year) (mo := m.month) (d := m.day + n)
      (h := m.hour) (mi := m.minute) (s := m.second)
      a3 a4 (by omega) (by omega) (by omega) (by omega) (by omega) (by omega) (by omega) (by rw [z]; omega)
      (by rw [z, Int.add_zero, z2]; omega) (by rw [z, Int.add_zero, z2, Int.add_zero, z3]; omega)
    refine ⟨q1, q2, q3, h', mi', s', ?_, k1, k2, k3⟩
    unfold Carry at k1 k2 k3
    rw [e, OutE.ok_bind, fin (by omega) (by omega) (by omega)]; rfl

end Kairos
