import Verif.Lemmas.Negative
import Verif.Spec.NegRight

/-! When adding a negative amount succeeds. -/

namespace Kairos
open Spec
variable (c : Cfg)

/-- One truncating carry. -/
def Carry (b k q r : Int) : Prop := b = q * k + r ∧ -k < r ∧ r < k ∧ (0 ≤ b → 0 ≤ r) ∧ (b ≤ 0 → r ≤ 0)

/-- `adjust_times_add` on components below the next unit, with the carries. -/
theorem adjustAdd_carries {ε : Type} {y mo d h mi s : Int} (hmo : 1 ≤ mo) (hmo2 : mo ≤ 12)
    (hy1 : -2147483648 ≤ y) (hy2 : y ≤ 2147483647) (hs : s < 60) (hmi : mi < 60) (hh : h < 24)
    (hd : d ≤ Cal.monthLen y mo)
    (bs : -4000000000000000000 ≤ s) (bmi : -4000000000000000000 ≤ mi) (bh : -1000000000000000000 ≤ h)
    (bd : -100000000000000000 ≤ d) :
    ∃ q1 q2 q3 h' mi' s', (adjustTimesAdd c ⟨y, mo, d, h, mi, s⟩ : OutE ε Parts) = .ok ⟨y, mo, d + q3, h', mi', s'⟩ ∧
      Carry s 60 q1 s' ∧ Carry (mi + q1) 60 q2 mi' ∧ Carry (h + q2) 24 q3 h' ∧ q3 ≤ 0 := by
  have ml := Cal.monthLen_bounds (y := y) hmo hmo2
  obtain ⟨e1, l1, u1, q1, r1, r1', -⟩ := tdiv_tmod_char s (k := 60) (by decide)
  have q1 := q1 hs
  have f1 : (fix c s 60 mi : OutE ε (Int × Int)) = .ok (mi + s.tdiv 60, s.tmod 60) := by
    rw [fix_eq c (by decide) ⟨by omega, by omega⟩, Cfg.add, chk_in c (by omega) (by omega)]; rfl
  generalize s.tdiv 60 = Q1 at *
  generalize s.tmod 60 = R1 at *
  obtain ⟨e2, l2, u2, q2, r2, r2', -⟩ := tdiv_tmod_char (mi + Q1) (k := 60) (by decide)
  have q2 := q2 (by omega)
  have f2 : (fix c (mi + Q1) 60 h : OutE ε (Int × Int)) = .ok (h + (mi + Q1).tdiv 60, (mi + Q1).tmod 60) := by
    rw [fix_eq c (by decide) ⟨by omega, by omega⟩, Cfg.add, chk_in c (by omega) (by omega)]; rfl
  generalize (mi + Q1).tdiv 60 = Q2 at *
  generalize (mi + Q1).tmod 60 = R2 at *
  obtain ⟨e3, l3, u3, q3, r3, r3', -⟩ := tdiv_tmod_char (h + Q2) (k := 24) (by decide)
  have q3 := q3 (by omega)
  have f3 : (fix c (h + Q2) 24 d : OutE ε (Int × Int)) = .ok (d + (h + Q2).tdiv 24, (h + Q2).tmod 24) := by
    rw [fix_eq c (by decide) ⟨by omega, by omega⟩, Cfg.add, chk_in c (by omega) (by omega)]; rfl
  generalize (h + Q2).tdiv 24 = Q3 at *
  generalize (h + Q2).tmod 24 = R3 at *
  refine ⟨Q1, Q2, Q3, R3, R2, R1, ?_, ⟨e1, l1, u1, r1, r1'⟩, ⟨e2, l2, u2, r2, r2'⟩, ⟨e3, l3, u3, r3, r3'⟩, q3⟩
  unfold adjustTimesAdd
  simp only
  rw [f1]; simp only [OutE.ok_bind]
  rw [f2]; simp only [OutE.ok_bind]
  rw [f3]; simp only [OutE.ok_bind]
  rw [dayLoop_stop c y mo _ _ (by rw [numDays_eq hy1 hy2 hmo hmo2]; omega)]
  simp only [OutE.ok_bind]
  rw [monthLoop_stop c _ _ _ hmo2]; rfl

/-- The components of `m` with `n` units added to one of them. -/
def addComp (m : Moment) : TUnit → Int → Parts
  | .second, n => ⟨m.year, m.month, m.day, m.hour, m.minute, m.second + n⟩
  | .minute, n => ⟨m.year, m.month, m.day, m.hour, m.minute + n, m.second⟩
  | .hour, n => ⟨m.year, m.month, m.day, m.hour + n, m.minute, m.second⟩
  | .day, n => ⟨m.year, m.month, m.day + n, m.hour, m.minute, m.second⟩
  | .month, n => ⟨m.year, m.month + n, m.day, m.hour, m.minute, m.second⟩
  | .year, n => ⟨m.year + n, m.month, m.day, m.hour, m.minute, m.second⟩

/-- Adding a negative number of seconds, minutes, hours or days, with the carries. -/
theorem add_carries {m : Moment} (hc : Sane c) (hm : m.Valid c) (u : TUnit) (hu : u.secs ≤ 86400) (n : Int) (hn : n ≤ 0)
    (hb : -371085171523200 ≤ n * u.secs) (p : Parts) (hp : p = addComp m u n) :
    ∃ q1 q2 q3 h' mi' s', calculate c (.moment m + amt u n) =
      (if Cal.ValidDate m.year m.month (p.d + q3) ∧ Cal.ValidTime h' mi' s'
      then .ok (.moment ⟨m.year, m.month, p.d + q3, h', mi', s', 0⟩)
      else .err (.outOfBounds m.year m.month (asU32 h') (asU32 h') (asU32 mi') (asU32 s'))) ∧
      Carry p.s 60 q1 s' ∧ Carry (p.mi + q1) 60 q2 mi' ∧ Carry (p.h + q2) 24 q3 h' := by
  obtain ⟨a1, a2, ⟨a3, a4, a5, a6⟩, ⟨t1, t2, t3, t4, t5, t6⟩, -⟩ := hm
  have ml := Cal.monthLen_bounds (y := m.year) a3 a4
  unfold Sane at hc
  rw [calc_add_moment, exec_addToMoment]
  have fin : ∀ {d' h' mi' s' : Int}, (-4294967263 ≤ d' ∧ d' ≤ m.day) →
      (-24 < h' ∧ h' < 24) → (-60 < mi' ∧ mi' < 60) → (-60 < s' ∧ s' < 60) →
      Eval.buildMoment c ⟨m.year, m.month, d', h', mi', s'⟩ =
      if Cal.ValidDate m.year m.month d' ∧ Cal.ValidTime h' mi' s'
      then .ok (.moment ⟨m.year, m.month, d', h', mi', s', 0⟩)
      else .err (.outOfBounds m.year m.month (asU32 h') (asU32 h') (asU32 mi') (asU32 s')) := by
    intro d' h' mi' s' b0 b1 b2 b3
    rw [build_wide c (by omega) (by omega) (by omega) (by omega) (by omega) (by omega) (by omega),
      asU32_id (by omega) (by omega)]
    simp only [a1, a2, true_and]
  cases u <;> simp [TUnit.secs] at hu <;> simp only [amt, Eval.addToMoment, TUnit.secs, Cfg.add] at * <;>
    rw [chk_in c (by omega) (by omega)] <;> simp only [OutE.ok_bind] <;> subst hp
  · obtain ⟨q1, q2, q3, h', mi', s', e, k1, k2, k3, k4⟩ := adjustAdd_carries (ε := ErrorKind) c (y := m.year) (mo := m.month) (d := m.day)
      (h := m.hour) (mi := m.minute) (s := m.second + n)
      a3 a4 (by omega) (by omega) (by omega) (by omega) (by omega) (by omega) (by omega) (by omega) (by omega) (by omega)
    refine ⟨q1, q2, q3, h', mi', s', ?_, k1, k2, k3⟩
    unfold Carry at k1 k2 k3
    rw [e, OutE.ok_bind, fin (by omega) (by omega) (by omega) (by omega)]; rfl
  · obtain ⟨q1, q2, q3, h', mi', s', e, k1, k2, k3, k4⟩ := adjustAdd_carries (ε := ErrorKind) c (y := m.year) (mo := m.month) (d := m.day)
      (h := m.hour) (mi := m.minute + n) (s := m.second)
      a3 a4 (by omega) (by omega) (by omega) (by omega) (by omega) (by omega) (by omega) (by omega) (by omega) (by omega)
    refine ⟨q1, q2, q3, h', mi', s', ?_, k1, k2, k3⟩
    unfold Carry at k1 k2 k3
    rw [e, OutE.ok_bind, fin (by omega) (by omega) (by omega) (by omega)]; rfl
  · obtain ⟨q1, q2, q3, h', mi', s', e, k1, k2, k3, k4⟩ := adjustAdd_carries (ε := ErrorKind) c (y := m.year) (mo := m.month) (d := m.day)
      (h := m.hour + n) (mi := m.minute) (s := m.second)
      a3 a4 (by omega) (by omega) (by omega) (by omega) (by omega) (by omega) (by omega) (by omega) (by omega) (by omega)
    refine ⟨q1, q2, q3, h', mi', s', ?_, k1, k2, k3⟩
    unfold Carry at k1 k2 k3
    rw [e, OutE.ok_bind, fin (by omega) (by omega) (by omega) (by omega)]; rfl
  · obtain ⟨q1, q2, q3, h', mi', s', e, k1, k2, k3, k4⟩ := adjustAdd_carries (ε := ErrorKind) c (y := m.year) (mo := m.month) (d := m.day + n)
      (h := m.hour) (mi := m.minute) (s := m.second)
      a3 a4 (by omega) (by omega) (by omega) (by omega) (by omega) (by omega) (by omega) (by omega) (by omega) (by omega)
    refine ⟨q1, q2, q3, h', mi', s', ?_, k1, k2, k3⟩
    unfold Carry at k1 k2 k3
    rw [e, OutE.ok_bind, fin (by omega) (by omega) (by omega) (by omega)]; rfl

end Kairos
