import Verif.Lemmas.MomentSub
import Verif.Lemmas.SubExact
import Verif.Spec.Part

/-! # Subtracting more than two months' worth of seconds, minutes, hours or days -/

namespace Kairos
open Spec

theorem sub_too_far (c : Cfg) (hc : Sane c) {m : Moment} (hm : m.Valid c) (u : TUnit)
    (hu : u = .second ∨ u = .minute ∨ u = .hour ∨ u = .day) (n : Int)
    (h1 : 63 * 86400 ≤ n * u.secs) (h2 : n * u.secs ≤ 371085171523200) :
    ∃ Y M D H MI S, calculate c (.moment m - amt u n) = .err (.outOfBounds Y M D H MI S) := by
  have hn : InI64 n ∧ InI64 (part m u - n) := by
    obtain ⟨a1, a2, ⟨a3, a4, a5, a6⟩, ⟨t1, t2, t3, t4, t5, t6⟩, -⟩ := hm
    have ml := Cal.monthLen_bounds (y := m.year) a3 a4
    unfold InI64
    rcases hu with rfl | rfl | rfl | rfl <;> simp [part, TUnit.secs] at h1 h2 ⊢ <;> omega
  rw [sub_closed_full c hc hm u n hn.1 hn.2]
  cases hr : Eval.buildMoment c (subP (subComp m u n)) with
  | ok v =>
    exfalso
    obtain ⟨r, rfl, er, ⟨-, -, ⟨v1, v2, v3, v4⟩, -, -⟩, -⟩ := buildMoment_ok hr
    have mlr := Cal.monthLen_bounds (y := r.year) v1 v2
    have hp : r.day = asU32 (subP (subComp m u n)).d := by rw [er]
    obtain ⟨a1, a2, ⟨a3, a4, a5, a6⟩, ⟨t1, t2, t3, t4, t5, t6⟩, -⟩ := hm
    have ml := Cal.monthLen_bounds (y := m.year) a3 a4
    unfold asU32 at hp
    simp only [subP] at hp
    have s1 := bP_spec (subComp m u n).s 0 60 60 (subComp m u n).mi
    generalize bP (subComp m u n).s 0 60 60 (subComp m u n).mi = b1 at *
    have s2 := bP_spec b1.1 0 60 60 (subComp m u n).h
    generalize bP b1.1 0 60 60 (subComp m u n).h = b2 at *
    have s3 := bP_spec b2.1 0 24 24 (subComp m u n).d
    generalize bP b2.1 0 24 24 (subComp m u n).d = b3 at *
    have s4 := bP_spec b3.1 1 32 31 (subComp m u n).mo
    generalize bP b3.1 1 32 31 (subComp m u n).mo = b4 at *
    rcases hu with rfl | rfl | rfl | rfl <;> simp only [subComp, TUnit.secs] at * <;> omega
  | err e =>
    unfold Eval.buildMoment at hr
    split at hr
    · cases hr
    · cases hr; exact ⟨_, _, _, _, _, _, rfl⟩
  | panic => exact absurd hr (by unfold Eval.buildMoment; split <;> simp)
  | oof => exact absurd hr (by unfold Eval.buildMoment; split <;> simp)

/-- Two moments of chrono's range are less than 2 million years apart. -/
theorem instants_close {c : Cfg} (hc : Sane c) {m m' : Moment} (hm : m.Valid c) (hm' : m'.Valid c) :
    m.instant - m'.instant ≤ 70000000000000 := by
  obtain ⟨a1, a2, ⟨a3, a4, a5, a6⟩, ⟨t1, t2, t3, t4, t5, t6⟩, -⟩ := hm
  obtain ⟨b1, b2, ⟨b3, b4, b5, b6⟩, ⟨s1, s2, s3, s4, s5, s6⟩, -⟩ := hm'
  have ml := Cal.monthLen_bounds (y := m.year) a3 a4
  have ml' := Cal.monthLen_bounds (y := m'.year) b3 b4
  unfold Sane at hc
  have hd : ∀ y mo : Int, 0 ≤ Cal.daysBeforeMonth y mo ∧ Cal.daysBeforeMonth y mo ≤ 335 := by
    intro y mo
    unfold Cal.daysBeforeMonth
    cases Cal.isLeap y <;> simp <;> omega
  have d1 := hd m.year m.month
  have d2 := hd m'.year m'.month
  unfold Moment.instant Cal.instant Cal.dayNumber Cal.daysBeforeYear
  omega

end Kairos
