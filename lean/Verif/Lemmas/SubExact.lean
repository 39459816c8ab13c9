import Verif.Lemmas.MomentSub

/-! What `moment - amount` computes, stage by stage. -/

namespace Kairos
open Spec
variable (c : Cfg)

/-- The date part of `adjust_times_sub`. -/
def dateP (y mo d : Int) : Int × Int × Int :=
  let b4 := bP d 1 32 31 mo
  let b5 := bP b4.1 1 13 12 y
  (b5.1, b5.2, b4.2)

/-- The month before. -/
def prevMonth (y mo : Int) : Int × Int := if mo = 1 then (y - 1, 12) else (y, mo - 1)

theorem dateP_same {y mo d : Int} (h1 : 1 ≤ mo) (hd : 1 ≤ d) : dateP y mo d = (y, mo, d) := by
  unfold dateP bP
  rw [if_neg (by omega)]; simp only; rw [if_neg (by omega)]

theorem dateP_prev {y mo d : Int} (h1 : 1 ≤ mo) (hd : d ≤ 0) (hd2 : -31 ≤ d) :
    dateP y mo d = ((prevMonth y mo).1, (prevMonth y mo).2, 31 + d) := by
  unfold dateP bP prevMonth
  rw [if_pos (by omega)]
  simp only
  have : -d / 32 = 0 := by omega
  rw [this]
  by_cases h : mo = 1
  · subst h; simp
  · rw [if_neg (by omega), if_neg h]; simp

theorem dateP_far {y mo d : Int} (hd : d < -30) : (dateP y mo d).2.2 ≤ 0 := by
  unfold dateP bP
  rw [if_pos (by omega)]; simp only; omega

theorem dateP_bounds {y mo d : Int} (h1 : 1 ≤ mo) (h2 : mo ≤ 12) (hd : -4294967294 ≤ d) (hd2 : d ≤ 31) :
    y - 10324442 ≤ (dateP y mo d).1 ∧ (dateP y mo d).1 ≤ y ∧
    -4294967282 ≤ (dateP y mo d).2.1 ∧ (dateP y mo d).2.1 ≤ 12 ∧
    -4294967263 ≤ (dateP y mo d).2.2 ∧ (dateP y mo d).2.2 ≤ 31 := by
  unfold dateP bP
  by_cases h : d < 1
  · rw [if_pos h]; simp only
    split <;> simp only <;> omega
  · rw [if_neg h]; simp only
    rw [if_neg (by omega)]; simp only; omega

theorem dayNumber_prevMonth {y mo : Int} (h1 : 1 ≤ mo) (h2 : mo ≤ 12) (d : Int) :
    Cal.dayNumber (prevMonth y mo).1 (prevMonth y mo).2 d =
      Cal.dayNumber y mo d - Cal.monthLen (prevMonth y mo).1 (prevMonth y mo).2 := by
  unfold prevMonth Cal.dayNumber
  by_cases h : mo = 1
  · subst h
    have s := Cal.daysBeforeYear_succ (y - 1)
    have t := Cal.daysBeforeMonth_twelve (y - 1)
    rw [if_pos rfl]
    rw [show y - 1 + 1 = y by omega] at s
    simp only [Cal.daysBeforeMonth_one]
    have : Cal.monthLen (y - 1) 12 = 31 := rfl
    omega
  · rw [if_neg h]
    have s := Cal.daysBeforeMonth_succ (y := y) (m := mo - 1) (by omega) (by omega)
    rw [show mo - 1 + 1 = mo by omega] at s
    simp only; omega

theorem prevMonth_valid {y mo : Int} (h1 : 1 ≤ mo) (h2 : mo ≤ 12) :
    1 ≤ (prevMonth y mo).2 ∧ (prevMonth y mo).2 ≤ 12 ∧ y - 1 ≤ (prevMonth y mo).1 ∧ (prevMonth y mo).1 ≤ y := by
  unfold prevMonth; split <;> simp only <;> omega

/-- Negative components of a bounded size are never mistaken for valid ones. -/
theorem build_wide {y mo d h mi s : Int} (hy1 : -2147483648 ≤ y) (hy2 : y ≤ 2147483647)
    (hmo : -4294967282 ≤ mo ∧ mo ≤ 4294967295) (hd : -4294967263 ≤ d ∧ d ≤ 4294967295)
    (hh : -4294967271 ≤ h ∧ h ≤ 4294967295)
    (hmi : -4294967235 ≤ mi ∧ mi ≤ 4294967295) (hs : -4294967235 ≤ s ∧ s ≤ 4294967295) :
    Eval.buildMoment c ⟨y, mo, d, h, mi, s⟩ =
      if c.minYear ≤ y ∧ y ≤ c.maxYear ∧ Cal.ValidDate y mo d ∧ Cal.ValidTime h mi s
      then .ok (.moment ⟨y, mo, d, h, mi, s, 0⟩)
      else .err (.outOfBounds y (asU32 mo) (asU32 h) (asU32 h) (asU32 mi) (asU32 s)) := by
  by_cases hv : c.minYear ≤ y ∧ y ≤ c.maxYear ∧ Cal.ValidDate y mo d ∧ Cal.ValidTime h mi s
  · obtain ⟨v1, v2, v3, v4⟩ := hv
    have v3' := v3; have v4' := v4
    obtain ⟨w1, w2, w3, w4⟩ := v3'
    obtain ⟨t1, t2, t3, t4, t5, t6⟩ := v4'
    rw [build_in c hy1 hy2 (by omega) (by omega) (by omega) (by omega) (by omega),
      if_pos ⟨v1, v2, v3, v4⟩, if_pos ⟨v1, v2, v3, v4⟩]
  · rw [if_neg hv]
    unfold Eval.buildMoment
    simp only [asI32_id hy1 hy2]
    unfold fromYmdOpt
    by_cases h1 : c.minYear ≤ y ∧ y ≤ c.maxYear ∧ Cal.ValidDate y (asU32 mo) (asU32 d)
    · rw [if_pos h1]
      simp only [Option.bind_some, Date.andHmsOpt]
      by_cases h2 : Cal.ValidTime (asU32 h) (asU32 mi) (asU32 s)
      · exfalso
        obtain ⟨v1, v2, v3⟩ := h1
        have v3' := v3
        obtain ⟨w1, w2, w3, w4⟩ := v3'
        have h2' := h2
        obtain ⟨t1, t2, t3, t4, t5, t6⟩ := h2'
        have ml := Cal.monthLen_bounds (y := y) w1 w2
        have em : asU32 mo = mo := by unfold asU32 at *; omega
        have ed : asU32 d = d := by
          have : asU32 d ≤ 31 := by omega
          unfold asU32 at *; omega
        have eh : asU32 h = h := by unfold asU32 at *; omega
        have emi : asU32 mi = mi := by unfold asU32 at *; omega
        have es : asU32 s = s := by unfold asU32 at *; omega
        rw [em, ed] at v3; rw [eh, emi, es] at h2
        exact hv ⟨v1, v2, v3, h2⟩
      · rw [if_neg h2]
    · rw [if_neg h1]; rfl

theorem bP_spec (b low div top next : Int) :
    (b < low ∧ (bP b low div top next).1 = next - ((-b) / div + 1) ∧ (bP b low div top next).2 = top + b) ∨
    (low ≤ b ∧ (bP b low div top next).1 = next ∧ (bP b low div top next).2 = b) := by
  unfold bP
  by_cases h : b < low
  · rw [if_pos h]; exact .inl ⟨h, rfl, rfl⟩
  · rw [if_neg h]; exact .inr ⟨by omega, rfl, rfl⟩

/-- The component of `m` for a unit below the day, and how many of it make the next unit. -/
def comp (m : Moment) : TUnit → Int
  | .second => m.second
  | .minute => m.minute
  | _ => m.hour

def base : TUnit → Int
  | .hour => 24
  | _ => 60

/-- Time-of-day part of subtracting seconds, minutes or hours. `k` is the number of borrowed days. -/
theorem subTime {m : Moment} (ht : Cal.ValidTime m.hour m.minute m.second)
    (u : TUnit) (hu : u = .second ∨ u = .minute ∨ u = .hour) (n : Int) (hn : 0 ≤ n) (hn2 : n < 4294967296) :
    ∃ k h mi s, subP (subComp m u n) =
        ⟨(dateP m.year m.month (m.day - k)).1, (dateP m.year m.month (m.day - k)).2.1,
         (dateP m.year m.month (m.day - k)).2.2, h, mi, s⟩ ∧
      0 ≤ k ∧ k ≤ 178956972 ∧ (-4294967271 ≤ h ∧ h ≤ 60) ∧ (-4294967235 ≤ mi ∧ mi ≤ 60) ∧ (-4294967235 ≤ s ∧ s ≤ 60) ∧
      (n < comp m u + base u → Cal.ValidTime h mi s ∧ k ≤ 1 ∧
        h * 3600 + mi * 60 + s - k * 86400 = m.hour * 3600 + m.minute * 60 + m.second - n * u.secs) ∧
      (n = comp m u + base u → Cal.ValidTime h mi s ∧ k ≤ 2 ∧ (u = .hour → k = 2) ∧ (u ≠ .hour → k ≤ 1) ∧
        h * 3600 + mi * 60 + s - k * 86400 =
          m.hour * 3600 + m.minute * 60 + m.second - n * u.secs - base u * u.secs) ∧
      (comp m u + base u < n → ¬ Cal.ValidTime h mi s) := by
  obtain ⟨t1, t2, t3, t4, t5, t6⟩ := ht
  generalize hb1 : bP (subComp m u n).s 0 60 60 (subComp m u n).mi = b1
  generalize hb2 : bP b1.1 0 60 60 (subComp m u n).h = b2
  generalize hb3 : bP b2.1 0 24 24 m.day = b3
  refine ⟨m.day - b3.1, b3.2, b2.2, b1.2, ?_, ?_⟩
  · rw [show m.day - (m.day - b3.1) = b3.1 by omega]
    have hd : (subComp m u n).d = m.day := by rcases hu with rfl | rfl | rfl <;> rfl
    have hmo : (subComp m u n).mo = m.month := by rcases hu with rfl | rfl | rfl <;> rfl
    have hy : (subComp m u n).y = m.year := by rcases hu with rfl | rfl | rfl <;> rfl
    simp only [subP, dateP, hb1, hb2, hb3, hd, hmo, hy]
  · have e1 := bP_spec (subComp m u n).s 0 60 60 (subComp m u n).mi
    have e2 := bP_spec b1.1 0 60 60 (subComp m u n).h
    have e3 := bP_spec b2.1 0 24 24 m.day
    rw [hb1] at e1; rw [hb2] at e2; rw [hb3] at e3
    clear hb1 hb2 hb3
    unfold Cal.ValidTime
    rcases hu with rfl | rfl | rfl <;>
      simp only [subComp, comp, base, TUnit.secs] at * <;>
      rcases e1 with e1 | e1 <;> rcases e2 with e2 | e2 <;> rcases e3 with e3 | e3 <;>
      refine ⟨by omega, by omega, by omega, by omega, by omega, by omega,
        fun h => ⟨by omega, by omega, fun h' => (by first | omega | cases h'), fun h' => by first | omega | exact absurd rfl h', by omega⟩, by omega⟩

/-- Subtracting at most two days' worth of borrow: which date comes out. -/
theorem dateP_cases {y mo d k : Int} (hv : Cal.ValidDate y mo d) (hk : 0 ≤ k) :
    (k < d ∧ dateP y mo (d - k) = (y, mo, d - k) ∧ Cal.ValidDate y mo (d - k) ∧
      Cal.dayNumber y mo (d - k) = Cal.dayNumber y mo d - k) ∨
    (d ≤ k ∧ k ≤ d + 30 ∧ dateP y mo (d - k) = ((prevMonth y mo).1, (prevMonth y mo).2, 31 + d - k) ∧
      (Cal.ValidDate (prevMonth y mo).1 (prevMonth y mo).2 (31 + d - k) ↔
        31 + d - k ≤ Cal.monthLen (prevMonth y mo).1 (prevMonth y mo).2) ∧
      Cal.dayNumber (prevMonth y mo).1 (prevMonth y mo).2 (31 + d - k) =
        Cal.dayNumber y mo d - k + (31 - Cal.monthLen (prevMonth y mo).1 (prevMonth y mo).2)) ∨
    (d + 30 < k ∧ ∀ y' mo', ¬ Cal.ValidDate y' mo' (dateP y mo (d - k)).2.2) := by
  obtain ⟨h1, h2, h3, h4⟩ := hv
  have pv := prevMonth_valid (y := y) h1 h2
  by_cases a : k < d
  · refine .inl ⟨a, dateP_same h1 (by omega), ⟨h1, h2, by omega, by omega⟩, ?_⟩
    unfold Cal.dayNumber; omega
  by_cases b : k ≤ d + 30
  · refine .inr (.inl ⟨by omega, b, ?_, ?_, ?_⟩)
    · rw [dateP_prev h1 (by omega) (by omega), show 31 + (d - k) = 31 + d - k by omega]
    · exact ⟨fun h => h.2.2.2, fun h => ⟨pv.1, pv.2.1, by omega, h⟩⟩
    · rw [dayNumber_prevMonth h1 h2]; unfold Cal.dayNumber; omega
  · refine .inr (.inr ⟨by omega, fun y' mo' h => ?_⟩)
    have := dateP_far (y := y) (mo := mo) (d := d - k) (by omega)
    exact absurd h.2.2.1 (by omega)

/-- `moment - n` seconds, minutes or hours as a decision. -/
theorem sub_time {m : Moment} (hc : Sane c) (hm : m.Valid c)
    (u : TUnit) (hu : u = .second ∨ u = .minute ∨ u = .hour) (n : Int) (hn : 0 ≤ n) (hn2 : n < 4294967296) :
    ∃ k h mi s y' mo' d', (y', mo', d') = dateP m.year m.month (m.day - k) ∧ 0 ≤ k ∧
      (n < comp m u + base u → Cal.ValidTime h mi s ∧ k ≤ 1 ∧
        h * 3600 + mi * 60 + s - k * 86400 = m.hour * 3600 + m.minute * 60 + m.second - n * u.secs) ∧
      (n = comp m u + base u → Cal.ValidTime h mi s ∧ k ≤ 2 ∧ (u = .hour → k = 2) ∧ (u ≠ .hour → k ≤ 1) ∧
        h * 3600 + mi * 60 + s - k * 86400 =
          m.hour * 3600 + m.minute * 60 + m.second - n * u.secs - base u * u.secs) ∧
      (comp m u + base u < n → ¬ Cal.ValidTime h mi s) ∧
      calculate c (.moment m - amt u n) =
      if c.minYear ≤ y' ∧ y' ≤ c.maxYear ∧ Cal.ValidDate y' mo' d' ∧ Cal.ValidTime h mi s
      then .ok (.moment ⟨y', mo', d', h, mi, s, 0⟩)
      else .err (.outOfBounds y' (asU32 mo') (asU32 h) (asU32 h) (asU32 mi) (asU32 s)) := by
  have hm' := hm
  obtain ⟨a1, a2, ⟨a3, a4, a5, a6⟩, t, a7⟩ := hm'
  have ml := Cal.monthLen_bounds (y := m.year) a3 a4
  obtain ⟨k, h, mi, s, e, k0, k1, bh, bmi, bs, r1, r2, r3⟩ := subTime t u hu n hn hn2
  have db := dateP_bounds (y := m.year) (mo := m.month) (d := m.day - k) a3 a4 (by omega) (by omega)
  refine ⟨k, h, mi, s, (dateP m.year m.month (m.day - k)).1, (dateP m.year m.month (m.day - k)).2.1,
    (dateP m.year m.month (m.day - k)).2.2, rfl, k0, r1, r2, r3, ?_⟩
  have hc' := hc
  unfold Sane at hc'
  rw [sub_closed c hc hm u n (by omega) (by omega), e,
    build_wide c (by omega) (by omega) (by omega) (by omega) (by omega) (by omega) (by omega)]

/-- `moment - n` days as a decision. -/
theorem sub_days {m : Moment} (hc : Sane c) (hm : m.Valid c) (n : Int) (hn : 0 ≤ n) (hn2 : n < 4294967296) :
    ∃ y' mo' d', (y', mo', d') = dateP m.year m.month (m.day - n) ∧
      calculate c (.moment m - amt .day n) =
      if c.minYear ≤ y' ∧ y' ≤ c.maxYear ∧ Cal.ValidDate y' mo' d'
      then .ok (.moment ⟨y', mo', d', m.hour, m.minute, m.second, 0⟩)
      else .err (.outOfBounds y' (asU32 mo') m.hour m.hour m.minute m.second) := by
  have hm' := hm
  obtain ⟨a1, a2, ⟨a3, a4, a5, a6⟩, t, a7⟩ := hm'
  have ml := Cal.monthLen_bounds (y := m.year) a3 a4
  have t' := t
  obtain ⟨t1, t2, t3, t4, t5, t6⟩ := t'
  have db := dateP_bounds (y := m.year) (mo := m.month) (d := m.day - n) a3 a4 (by omega) (by omega)
  refine ⟨(dateP m.year m.month (m.day - n)).1, (dateP m.year m.month (m.day - n)).2.1,
    (dateP m.year m.month (m.day - n)).2.2, rfl, ?_⟩
  have e : subP (subComp m .day n) = ⟨(dateP m.year m.month (m.day - n)).1, (dateP m.year m.month (m.day - n)).2.1,
    (dateP m.year m.month (m.day - n)).2.2, m.hour, m.minute, m.second⟩ := by
    have e1 : bP m.second 0 60 60 m.minute = (m.minute, m.second) := by unfold bP; rw [if_neg (by omega)]
    have e2 : bP m.minute 0 60 60 m.hour = (m.hour, m.minute) := by unfold bP; rw [if_neg (by omega)]
    have e3 : bP m.hour 0 24 24 (m.day - n) = (m.day - n, m.hour) := by unfold bP; rw [if_neg (by omega)]
    simp only [subP, subComp, e1, e2, e3, dateP]
  have hc' := hc
  unfold Sane at hc'
  rw [sub_closed c hc hm .day n (by omega) (by omega), e,
    build_wide c (by omega) (by omega) (by omega) (by omega) (by omega) (by omega) (by omega),
    asU32_id t1 (by omega), asU32_id t3 (by omega), asU32_id t5 (by omega)]
  simp only [t, and_true]

end Kairos
