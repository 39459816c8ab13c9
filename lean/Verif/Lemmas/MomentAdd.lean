import Verif.Lemmas.AdjustAdd
import Verif.Spec.Chain
import Verif.Spec.Part

/-! Closed forms of `moment + amount`. -/

namespace Kairos
open Spec
variable (c : Cfg)

theorem calc_add_moment (m : Moment) (t : TT) : calculate c (.moment m + t) = exec c (.addToMoment m t) := by
  rw [calculate_add, exec_add_moment]

theorem calc_sub_moment (m : Moment) (t : TT) : calculate c (.moment m - t) = exec c (.subFromMoment m t) := by
  rw [calculate_sub, exec_sub_moment]

/-- `buildMoment` on components that are in `u32`/`i32` range. -/
theorem build_in {y mo d h mi s : Int} (hy1 : -2147483648 ≤ y) (hy2 : y ≤ 2147483647)
    (hmo : 0 ≤ mo ∧ mo ≤ 4294967295) (hd : 0 ≤ d ∧ d ≤ 4294967295) (hh : 0 ≤ h ∧ h ≤ 4294967295)
    (hmi : 0 ≤ mi ∧ mi ≤ 4294967295) (hs : 0 ≤ s ∧ s ≤ 4294967295) :
    Eval.buildMoment c ⟨y, mo, d, h, mi, s⟩ =
      if c.minYear ≤ y ∧ y ≤ c.maxYear ∧ Cal.ValidDate y mo d ∧ Cal.ValidTime h mi s
      then .ok (.moment ⟨y, mo, d, h, mi, s, 0⟩)
      else .err (.outOfBounds y mo h h mi s) := by
  unfold Eval.buildMoment
  simp only [asI32_id hy1 hy2, asU32_id hmo.1 hmo.2, asU32_id hd.1 hd.2, asU32_id hh.1 hh.2,
    asU32_id hmi.1 hmi.2, asU32_id hs.1 hs.2]
  unfold fromYmdOpt
  by_cases h1 : c.minYear ≤ y ∧ y ≤ c.maxYear ∧ Cal.ValidDate y mo d
  · rw [if_pos h1]
    simp only [Option.bind_some, Date.andHmsOpt]
    by_cases h2 : Cal.ValidTime h mi s
    · rw [if_pos h2, if_pos ⟨h1.1, h1.2.1, h1.2.2, h2⟩]
    · rw [if_neg h2, if_neg (fun h => h2 h.2.2.2)]
  · rw [if_neg h1, if_neg (fun h => h1 ⟨h.1, h.2.1, h.2.2.1⟩)]; rfl

/-- Time of day of an instant. -/
def todH (i : Int) : Int := i / 3600 % 24
def todM (i : Int) : Int := i / 60 % 60
def todS (i : Int) : Int := i % 60

theorem tod_valid (i : Int) : Cal.ValidTime (todH i) (todM i) (todS i) := by
  unfold Cal.ValidTime todH todM todS; omega

theorem tod_of_instant {m : Moment} (h : Cal.ValidTime m.hour m.minute m.second) :
    m.hour = todH m.instant ∧ m.minute = todM m.instant ∧ m.second = todS m.instant ∧
    Cal.dayNumber m.year m.month m.day = m.instant / 86400 := by
  unfold Cal.ValidTime at h
  unfold todH todM todS Moment.instant Cal.instant
  omega

/-- Closed form of adding a non-negative number of seconds, minutes, hours or days, if the
component does not overflow. -/
theorem add_closed_full {m : Moment} (hc : Sane c) (hm : m.Valid c) (u : TUnit) (hu : u.secs ≤ 86400) (n : Int) (hn : 0 ≤ n)
    (hb : part m u + n ≤ 9223372036854775807) :
    ∃ y' mo' d', calculate c (.moment m + amt u n) =
        Eval.buildMoment c ⟨y', mo', d', todH (m.instant + n * u.secs), todM (m.instant + n * u.secs), todS (m.instant + n * u.secs)⟩ ∧
      CodeDate m.year ((m.instant + n * u.secs) / 86400 - Cal.daysBeforeYear m.year) y' mo' d' := by
  obtain ⟨h1, h2, ⟨h3, h4, h5, h6⟩, ⟨t1, t2, t3, t4, t5, t6⟩, -⟩ := hm
  have hb31 := Cal.monthLen_bounds (y := m.year) h3 h4
  unfold Sane at hc
  rw [calc_add_moment, exec_addToMoment]
  unfold part at hb
  unfold todH todM todS Moment.instant Cal.instant Cal.dayNumber
  cases u <;> simp [TUnit.secs] at hu <;> simp only at hb <;> simp only [amt, Eval.addToMoment, TUnit.secs, Cfg.add] <;>
    rw [chk_in c (by omega) (by omega)] <;> simp only [OutE.ok_bind]
  · obtain ⟨y', mo', d', e, hd⟩ := adjustAdd_sub_month (ε := ErrorKind) c (y := m.year) (mo := m.month) (d := m.day)
      (h := m.hour) (mi := m.minute) (s := m.second + n)
      (by omega) (by omega) h3 h4 h5 (by omega) (by omega) (by omega) (by omega) (by omega) (by omega) (by omega)
    refine ⟨y', mo', d', ?_, ?_⟩
    · rw [e]; simp only [OutE.ok_bind]; congr 2 <;> omega
    · refine Eq.subst (motive := fun N => CodeDate m.year N y' mo' d') ?_ hd; omega
  · obtain ⟨y', mo', d', e, hd⟩ := adjustAdd_sub_month (ε := ErrorKind) c (y := m.year) (mo := m.month) (d := m.day)
      (h := m.hour) (mi := m.minute + n) (s := m.second)
      (by omega) (by omega) h3 h4 h5 (by omega) (by omega) (by omega) (by omega) (by omega) (by omega) (by omega)
    refine ⟨y', mo', d', ?_, ?_⟩
    · rw [e]; simp only [OutE.ok_bind]; congr 2 <;> omega
    · refine Eq.subst (motive := fun N => CodeDate m.year N y' mo' d') ?_ hd; omega
  · obtain ⟨y', mo', d', e, hd⟩ := adjustAdd_sub_month (ε := ErrorKind) c (y := m.year) (mo := m.month) (d := m.day)
      (h := m.hour + n) (mi := m.minute) (s := m.second)
      (by omega) (by omega) h3 h4 h5 (by omega) (by omega) (by omega) (by omega) (by omega) (by omega) (by omega)
    refine ⟨y', mo', d', ?_, ?_⟩
    · rw [e]; simp only [OutE.ok_bind]; congr 2 <;> omega
    · refine Eq.subst (motive := fun N => CodeDate m.year N y' mo' d') ?_ hd; omega
  · obtain ⟨y', mo', d', e, hd⟩ := adjustAdd_sub_month (ε := ErrorKind) c (y := m.year) (mo := m.month) (d := m.day + n)
      (h := m.hour) (mi := m.minute) (s := m.second)
      (by omega) (by omega) h3 h4 (by omega) (by omega) (by omega) (by omega) (by omega) (by omega) (by omega) (by omega)
    refine ⟨y', mo', d', ?_, ?_⟩
    · rw [e]; simp only [OutE.ok_bind]; congr 2 <;> omega
    · refine Eq.subst (motive := fun N => CodeDate m.year N y' mo' d') ?_ hd; omega

theorem add_closed {m : Moment} (hc : Sane c) (hm : m.Valid c) (u : TUnit) (hu : u.secs ≤ 86400) (n : Int) (hn : 0 ≤ n)
    (hb : n ≤ 9223372036854775700) :
    ∃ y' mo' d', calculate c (.moment m + amt u n) =
        Eval.buildMoment c ⟨y', mo', d', todH (m.instant + n * u.secs), todM (m.instant + n * u.secs), todS (m.instant + n * u.secs)⟩ ∧
      CodeDate m.year ((m.instant + n * u.secs) / 86400 - Cal.daysBeforeYear m.year) y' mo' d' := by
  refine add_closed_full c hc hm u hu n hn ?_
  obtain ⟨h1, h2, ⟨h3, h4, h5, h6⟩, ⟨t1, t2, t3, t4, t5, t6⟩, -⟩ := hm
  have hb31 := Cal.monthLen_bounds (y := m.year) h3 h4
  unfold part
  cases u <;> simp [TUnit.secs] at hu <;> simp only <;> omega

end Kairos
