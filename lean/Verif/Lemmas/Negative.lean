import Verif.Lemmas.SubExact

/-! Adding and subtracting negative amounts; subtracting months and years. -/

namespace Kairos
open Spec
variable (c : Cfg)

theorem tdiv_tmod_char (b : Int) {k : Int} (hk : 0 < k) :
    b = b.tdiv k * k + b.tmod k ∧ -k < b.tmod k ∧ b.tmod k < k ∧
    (b < k → b.tdiv k ≤ 0) ∧ (0 ≤ b → 0 ≤ b.tmod k) ∧ (b ≤ 0 → b.tmod k ≤ 0) ∧
    (-9223372036854775808 ≤ b → -9223372036854775808 ≤ b.tdiv k) := by
  have e := Int.tmod_add_mul_tdiv b k
  rw [Int.mul_comm] at e
  refine ⟨by omega, Int.lt_tmod_of_pos b hk, Int.tmod_lt_of_pos b hk, fun h => ?_, fun h => Int.tmod_nonneg k h,
    fun h => ?_, fun h => ?_⟩
  · by_cases h0 : 0 ≤ b
    · rw [tdiv_nonneg h0, Int.ediv_eq_zero_of_lt h0 h]; omega
    · obtain ⟨a, rfl⟩ : ∃ a, b = -a := ⟨-b, by omega⟩
      rw [Int.neg_tdiv]
      have := Int.tdiv_nonneg (show 0 ≤ a by omega) (show 0 ≤ k by omega); omega
  · obtain ⟨a, rfl⟩ : ∃ a, b = -a := ⟨-b, by omega⟩
    rw [Int.neg_tmod]
    have := Int.tmod_nonneg k (show 0 ≤ a by omega); omega
  · by_cases h0 : 0 ≤ b
    · have := Int.tdiv_nonneg h0 (show 0 ≤ k by omega); omega
    · obtain ⟨a, rfl⟩ : ∃ a, b = -a := ⟨-b, by omega⟩
      rw [Int.neg_tdiv, tdiv_nonneg (by omega)]
      have := Int.ediv_le_self (a := a) k (by omega); omega

/-- `adjust_times_add` on components below the next unit: only negative carries. -/
theorem adjustAdd_neg {ε : Type} {y mo d h mi s : Int} (hmo : 1 ≤ mo) (hmo2 : mo ≤ 12)
    (hy1 : -2147483648 ≤ y) (hy2 : y ≤ 2147483647) (hs : s < 60) (hmi : mi < 60) (hh : h < 24)
    (hd : d ≤ Cal.monthLen y mo)
    (bs : -4000000000000000000 ≤ s) (bmi : -4000000000000000000 ≤ mi) (bh : -1000000000000000000 ≤ h)
    (bd : -100000000000000000 ≤ d) :
    ∃ d' h' mi' s', (adjustTimesAdd c ⟨y, mo, d, h, mi, s⟩ : OutE ε Parts) = .ok ⟨y, mo, d', h', mi', s'⟩ ∧
      d' * 86400 + h' * 3600 + mi' * 60 + s' = d * 86400 + h * 3600 + mi * 60 + s ∧
      (-24 < h' ∧ h' < 24) ∧ (-60 < mi' ∧ mi' < 60) ∧ (-60 < s' ∧ s' < 60) ∧ d' ≤ d := by
  have ml := Cal.monthLen_bounds (y := y) hmo hmo2
  obtain ⟨e1, l1, u1, q1, -⟩ := tdiv_tmod_char s (k := 60) (by decide)
  have q1 := q1 hs
  have f1 : (fix c s 60 mi : OutE ε (Int × Int)) = .ok (mi + s.tdiv 60, s.tmod 60) := by
    rw [fix_eq c (by decide) ⟨by omega, by omega⟩, Cfg.add, chk_in c (by omega) (by omega)]; rfl
  generalize s.tdiv 60 = Q1 at *
  generalize s.tmod 60 = R1 at *
  obtain ⟨e2, l2, u2, q2, -⟩ := tdiv_tmod_char (mi + Q1) (k := 60) (by decide)
  have q2 := q2 (by omega)
  have f2 : (fix c (mi + Q1) 60 h : OutE ε (Int × Int)) = .ok (h + (mi + Q1).tdiv 60, (mi + Q1).tmod 60) := by
    rw [fix_eq c (by decide) ⟨by omega, by omega⟩, Cfg.add, chk_in c (by omega) (by omega)]; rfl
  generalize (mi + Q1).tdiv 60 = Q2 at *
  generalize (mi + Q1).tmod 60 = R2 at *
  obtain ⟨e3, l3, u3, q3, -⟩ := tdiv_tmod_char (h + Q2) (k := 24) (by decide)
  have q3 := q3 (by omega)
  have f3 : (fix c (h + Q2) 24 d : OutE ε (Int × Int)) = .ok (d + (h + Q2).tdiv 24, (h + Q2).tmod 24) := by
    rw [fix_eq c (by decide) ⟨by omega, by omega⟩, Cfg.add, chk_in c (by omega) (by omega)]; rfl
  generalize (h + Q2).tdiv 24 = Q3 at *
  generalize (h + Q2).tmod 24 = R3 at *
  refine ⟨d + Q3, R3, R2, R1, ?_, by omega, ⟨l3, u3⟩, ⟨l2, u2⟩, ⟨l1, u1⟩, by omega⟩
  unfold adjustTimesAdd
  simp only
  rw [f1]; simp only [OutE.ok_bind]
  rw [f2]; simp only [OutE.ok_bind]
  rw [f3]; simp only [OutE.ok_bind]
  rw [dayLoop_stop c y mo _ _ (by rw [numDays_eq hy1 hy2 hmo hmo2]; omega)]
  simp only [OutE.ok_bind]
  rw [monthLoop_stop c _ _ _ hmo2]; rfl

/-- Adding a negative number of seconds, minutes, hours or days. -/
theorem add_neg {m : Moment} (hc : Sane c) (hm : m.Valid c) (u : TUnit) (hu : u.secs ≤ 86400) (n : Int) (hn : n ≤ 0)
    (hb : -371085171523200 ≤ n * u.secs) :
    ∃ d' h' mi' s', calculate c (.moment m + amt u n) =
      (if Cal.ValidDate m.year m.month d' ∧ Cal.ValidTime h' mi' s'
      then .ok (.moment ⟨m.year, m.month, d', h', mi', s', 0⟩)
      else .err (.outOfBounds m.year m.month (asU32 h') (asU32 h') (asU32 mi') (asU32 s'))) ∧
      Cal.instant m.year m.month d' h' mi' s' = m.instant + n * u.secs := by
  obtain ⟨a1, a2, ⟨a3, a4, a5, a6⟩, ⟨t1, t2, t3, t4, t5, t6⟩, -⟩ := hm
  have ml := Cal.monthLen_bounds (y := m.year) a3 a4
  unfold Sane at hc
  rw [calc_add_moment, exec_addToMoment]
  unfold Moment.instant Cal.instant Cal.dayNumber
  have fin : ∀ {d' h' mi' s' : Int}, d' * 86400 + h' * 3600 + mi' * 60 + s' =
        m.day * 86400 + m.hour * 3600 + m.minute * 60 + m.second + n * u.secs →
      (-24 < h' ∧ h' < 24) → (-60 < mi' ∧ mi' < 60) → (-60 < s' ∧ s' < 60) → d' ≤ m.day →
      Eval.buildMoment c ⟨m.year, m.month, d', h', mi', s'⟩ =
      if Cal.ValidDate m.year m.month d' ∧ Cal.ValidTime h' mi' s'
      then .ok (.moment ⟨m.year, m.month, d', h', mi', s', 0⟩)
      else .err (.outOfBounds m.year m.month (asU32 h') (asU32 h') (asU32 mi') (asU32 s')) := by
    intro d' h' mi' s' e b1 b2 b3 b4
    rw [build_wide c (by omega) (by omega) (by omega) (by omega) (by omega) (by omega) (by omega),
      asU32_id (by omega) (by omega)]
    simp only [a1, a2, true_and]
  cases u <;> simp [TUnit.secs] at hu <;> simp only [amt, Eval.addToMoment, TUnit.secs, Cfg.add] at * <;>
    rw [chk_in c (by omega) (by omega)] <;> simp only [OutE.ok_bind]
  · obtain ⟨d', h', mi', s', e, i, b1, b2, b3, b4⟩ := adjustAdd_neg (ε := ErrorKind) c (y := m.year) (mo := m.month) (d := m.day)
      (h := m.hour) (mi := m.minute) (s := m.second + n)
      a3 a4 (by omega) (by omega) (by omega) (by omega) (by omega) (by omega) (by omega) (by omega) (by omega) (by omega)
    refine ⟨d', h', mi', s', ?_, by omega⟩
    rw [e, OutE.ok_bind, fin (by omega) b1 b2 b3 (by omega)]
  · obtain ⟨d', h', mi', s', e, i, b1, b2, b3, b4⟩ := adjustAdd_neg (ε := ErrorKind) c (y := m.year) (mo := m.month) (d := m.day)
      (h := m.hour) (mi := m.minute + n) (s := m.second)
      a3 a4 (by omega) (by omega) (by omega) (by omega) (by omega) (by omega) (by omega) (by omega) (by omega) (by omega)
    refine ⟨d', h', mi', s', ?_, by omega⟩
    rw [e, OutE.ok_bind, fin (by omega) b1 b2 b3 (by omega)]
  · obtain ⟨d', h', mi', s', e, i, b1, b2, b3, b4⟩ := adjustAdd_neg (ε := ErrorKind) c (y := m.year) (mo := m.month) (d := m.day)
      (h := m.hour + n) (mi := m.minute) (s := m.second)
      a3 a4 (by omega) (by omega) (by omega) (by omega) (by omega) (by omega) (by omega) (by omega) (by omega) (by omega)
    refine ⟨d', h', mi', s', ?_, by omega⟩
    rw [e, OutE.ok_bind, fin (by omega) b1 b2 b3 (by omega)]
  · obtain ⟨d', h', mi', s', e, i, b1, b2, b3, b4⟩ := adjustAdd_neg (ε := ErrorKind) c (y := m.year) (mo := m.month) (d := m.day + n)
      (h := m.hour) (mi := m.minute) (s := m.second)
      a3 a4 (by omega) (by omega) (by omega) (by omega) (by omega) (by omega) (by omega) (by omega) (by omega) (by omega)
    refine ⟨d', h', mi', s', ?_, by omega⟩
    rw [e, OutE.ok_bind, fin (by omega) b1 b2 b3 (by omega)]

/-- Nothing to borrow: `adjust_times_sub` changes nothing. -/
theorem subP_id {p : Parts} (h1 : 0 ≤ p.s) (h2 : 0 ≤ p.mi) (h3 : 0 ≤ p.h) (h4 : 1 ≤ p.d) (h5 : 1 ≤ p.mo) : subP p = p := by
  obtain ⟨y, mo, d, h, mi, s⟩ := p
  simp only at *
  have e1 : bP s 0 60 60 mi = (mi, s) := by unfold bP; rw [if_neg (by omega)]
  have e2 : bP mi 0 60 60 h = (h, mi) := by unfold bP; rw [if_neg (by omega)]
  have e3 : bP h 0 24 24 d = (d, h) := by unfold bP; rw [if_neg (by omega)]
  have e4 : bP d 1 32 31 mo = (mo, d) := by unfold bP; rw [if_neg (by omega)]
  have e5 : bP mo 1 13 12 y = (y, mo) := by unfold bP; rw [if_neg (by omega)]
  simp only [subP, e1, e2, e3, e4, e5]

/-- Subtracting a negative amount of any unit but years: the component grows, and is valid or not. -/
theorem sub_neg {m : Moment} (hc : Sane c) (hm : m.Valid c) (u : TUnit) (hu : u ≠ .year) (n : Int) (hn : n ≤ 0)
    (hb : -4294967200 ≤ n) (p : Parts) (hp : p = subComp m u n) :
    calculate c (.moment m - amt u n) =
      if Cal.ValidDate p.y p.mo p.d ∧ Cal.ValidTime p.h p.mi p.s
      then .ok (.moment ⟨p.y, p.mo, p.d, p.h, p.mi, p.s, 0⟩)
      else .err (.outOfBounds p.y p.mo p.h p.h p.mi p.s) := by
  rw [sub_closed c hc hm u n (by omega) (by omega)]
  obtain ⟨a1, a2, ⟨a3, a4, a5, a6⟩, ⟨t1, t2, t3, t4, t5, t6⟩, -⟩ := hm
  have ml := Cal.monthLen_bounds (y := m.year) a3 a4
  unfold Sane at hc
  rw [← hp]
  have facts : p.y = m.year ∧ 1 ≤ p.mo ∧ p.mo ≤ 4294967295 ∧ 1 ≤ p.d ∧ p.d ≤ 4294967295 ∧
      0 ≤ p.h ∧ p.h ≤ 4294967295 ∧ 0 ≤ p.mi ∧ p.mi ≤ 4294967295 ∧ 0 ≤ p.s ∧ p.s ≤ 4294967295 := by
    subst hp
    cases u <;> simp only [subComp] <;>
      first | exact absurd rfl hu | refine ⟨trivial, ?_, ?_, ?_, ?_, ?_, ?_, ?_, ?_, ?_, ?_⟩ <;> omega
  clear hp
  obtain ⟨f1, f2, f3, f4, f5, f6, f7, f8, f9, f10, f11⟩ := facts
  rw [subP_id f10 f8 f6 f4 f2]
  obtain ⟨y, mo, d, h, mi, s⟩ := p
  simp only at *
  subst f1
  rw [build_in c (by omega) (by omega) (by omega) (by omega) (by omega) (by omega) (by omega)]
  simp only [a1, a2, true_and]

/-- Subtracting months. -/
theorem sub_months {m : Moment} (hc : Sane c) (hm : m.Valid c) (n : Int) (hn : 0 ≤ n) (hn2 : n < 4294967296)
    (Y M : Int) (hM : 1 ≤ M ∧ M ≤ 12) (hi : Cal.monthIndex Y M = Cal.monthIndex m.year m.month - n) :
    (n < m.month + 12 ∧ calculate c (.moment m - .months n) =
      if c.minYear ≤ Y ∧ m.day ≤ Cal.monthLen Y M
      then .ok (.moment { m with year := Y, month := M, nano := 0 })
      else .err (.outOfBounds Y M m.hour m.hour m.minute m.second)) ∨
    (m.month + 12 ≤ n ∧ ∃ Y' M', calculate c (.moment m - .months n) =
      .err (.outOfBounds Y' M' m.hour m.hour m.minute m.second)) := by
  have e := sub_closed c hc hm .month n (by omega) (by omega)
  simp only [amt, subComp] at e
  rw [e]
  obtain ⟨a1, a2, ⟨a3, a4, a5, a6⟩, t, -⟩ := hm
  have t' := t
  obtain ⟨t1, t2, t3, t4, t5, t6⟩ := t'
  have ml := Cal.monthLen_bounds (y := m.year) a3 a4
  unfold Sane at hc
  unfold Cal.monthIndex at hi
  have e1 : bP m.second 0 60 60 m.minute = (m.minute, m.second) := by unfold bP; rw [if_neg (by omega)]
  have e2 : bP m.minute 0 60 60 m.hour = (m.hour, m.minute) := by unfold bP; rw [if_neg (by omega)]
  have e3 : bP m.hour 0 24 24 m.day = (m.day, m.hour) := by unfold bP; rw [if_neg (by omega)]
  have e4 : bP m.day 1 32 31 (m.month - n) = (m.month - n, m.day) := by unfold bP; rw [if_neg (by omega)]
  have e5 := bP_spec (m.month - n) 1 13 12 m.year
  simp only [subP, e1, e2, e3, e4]
  generalize bP (m.month - n) 1 13 12 m.year = b5 at *
  rw [build_wide c (by omega) (by omega) (by omega) (by omega) (by omega) (by omega) (by omega),
    asU32_id t1 (by omega), asU32_id t3 (by omega), asU32_id t5 (by omega)]
  by_cases hlt : n < m.month + 12
  · left
    refine ⟨hlt, ?_⟩
    have x1 : b5.1 = Y := by omega
    have x2 : b5.2 = M := by omega
    rw [x1, x2, asU32_id (by omega) (by omega)]
    by_cases hv : c.minYear ≤ Y ∧ m.day ≤ Cal.monthLen Y M
    · rw [if_pos hv, if_pos ⟨hv.1, by omega, ⟨hM.1, hM.2, a5, hv.2⟩, t⟩]
    · rw [if_neg hv, if_neg (by rintro ⟨h1, h2, h3, h4⟩; exact hv ⟨h1, h3.2.2.2⟩)]
  · right
    refine ⟨by omega, b5.1, asU32 b5.2, ?_⟩
    rw [if_neg (by rintro ⟨h1, h2, h3, h4⟩; exact absurd h3.1 (by omega))]

/-- Subtracting years. -/
theorem sub_years {m : Moment} (hm : m.Valid c) (n : Int)
    (hn1 : -2147483648 ≤ m.year - n) (hn2 : m.year - n ≤ 2147483647) :
    calculate c (.moment m - .years n) =
      if c.minYear ≤ m.year - n ∧ m.year - n ≤ c.maxYear ∧ m.day ≤ Cal.monthLen (m.year - n) m.month
      then .ok (.moment { m with year := m.year - n, nano := 0 })
      else .err (.outOfBounds (m.year - n) m.month m.hour m.hour m.minute m.second) := by
  obtain ⟨a1, a2, ⟨a3, a4, a5, a6⟩, t, -⟩ := hm
  have t' := t
  obtain ⟨t1, t2, t3, t4, t5, t6⟩ := t'
  have ml := Cal.monthLen_bounds (y := m.year) a3 a4
  have e : calculate c (.moment m - .years n) = Eval.buildMoment c (subP (subComp m .year n)) := by
    rw [calc_sub_moment, exec_subFromMoment]
    simp only [Eval.subFromMoment, Cfg.sub, subComp]
    rw [chk_in c (by omega) (by omega), OutE.ok_bind,
      adjustSub_eq c (by unfold Small; simp only; omega) (by unfold Small; simp only; omega)
        (by unfold Small; simp only; omega) (by unfold Small; simp only; omega)
        (by unfold Small; simp only; omega) (by unfold Small; simp only; omega), OutE.ok_bind]
  rw [e, subP_id (by exact t5) (by exact t3) (by exact t1) (by exact a5) (by exact a3)]
  simp only [subComp]
  rw [build_in c hn1 hn2 (by omega) (by omega) (by omega) (by omega) (by omega)]
  by_cases hv : c.minYear ≤ m.year - n ∧ m.year - n ≤ c.maxYear ∧ m.day ≤ Cal.monthLen (m.year - n) m.month
  · rw [if_pos hv, if_pos ⟨hv.1, hv.2.1, ⟨a3, a4, a5, hv.2.2⟩, t⟩]
  · rw [if_neg hv, if_neg (by rintro ⟨h1, h2, h3, h4⟩; exact hv ⟨h1, h2, h3.2.2.2⟩)]

end Kairos
