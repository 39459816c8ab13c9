import Verif.Lemmas.MonthAdd

/-! Every day number is the number of some date; every instant in range is that of some moment. -/

namespace Cal

theorem date_exists_up (n : Nat) : ∃ y m d, ValidDate y m d ∧ dayNumber y m d = 1 + n := by
  induction n with
  | zero => exact ⟨1, 1, 1, by decide, by decide⟩
  | succ n ih =>
    obtain ⟨y, m, d, h, e⟩ := ih
    have h1 := nextDay_valid h
    have h2 := dayNumber_nextDay h
    exact ⟨_, _, _, h1, by rw [h2, e]; omega⟩

theorem date_exists_down (n : Nat) : ∃ y m d, ValidDate y m d ∧ dayNumber y m d = 1 - n := by
  induction n with
  | zero => exact ⟨1, 1, 1, by decide, by decide⟩
  | succ n ih =>
    obtain ⟨y, m, d, h, e⟩ := ih
    obtain ⟨h1, h2, h3, h4⟩ := id h
    have hpush : ((n + 1 : Nat) : Int) = (n : Int) + 1 := by omega
    by_cases hd : 1 < d
    · exact ⟨y, m, d - 1, ⟨h1, h2, by omega, by omega⟩, by unfold dayNumber at *; omega⟩
    by_cases hm : 1 < m
    · have ml := monthLen_bounds (y := y) (m := m - 1) (by omega) (by omega)
      have := daysBeforeMonth_succ (y := y) (m := m - 1) (by omega) (by omega)
      rw [show m - 1 + 1 = m by omega] at this
      exact ⟨y, m - 1, monthLen y (m - 1), ⟨by omega, by omega, by omega, by omega⟩, by
        unfold dayNumber at *; omega⟩
    · have hm1 : m = 1 := by omega
      subst hm1
      have a := daysBeforeYear_succ (y - 1)
      have b := daysBeforeMonth_twelve (y - 1)
      have c := daysBeforeMonth_one y
      rw [show y - 1 + 1 = y by omega] at a
      exact ⟨y - 1, 12, 31, ⟨by omega, by omega, by omega, by simp [monthLen]⟩, by
        unfold dayNumber at *; omega⟩

theorem date_exists (N : Int) : ∃ y m d, ValidDate y m d ∧ dayNumber y m d = N := by
  by_cases h : 1 ≤ N
  · obtain ⟨y, m, d, h1, h2⟩ := date_exists_up (N - 1).toNat
    exact ⟨y, m, d, h1, by omega⟩
  · obtain ⟨y, m, d, h1, h2⟩ := date_exists_down (1 - N).toNat
    exact ⟨y, m, d, h1, by omega⟩

theorem dayNumber_newYear (y : Int) : dayNumber y 1 1 = daysBeforeYear y + 1 := by
  unfold dayNumber; rw [daysBeforeMonth_one]; omega

end Cal

namespace Kairos
open Spec

theorem year_le_of_instant {y mo d Y h mi s : Int} (v : Cal.ValidDate y mo d) (t : Cal.ValidTime h mi s)
    (hlt : Cal.instant y mo d h mi s < Cal.instant (Y + 1) 1 1 0 0 0) : y ≤ Y := by
  by_cases e : y ≤ Y
  · exact e
  have b := Cal.dayOfYear_bounds v
  have d1 := Cal.dayNumber_eq y mo d
  have m := (Cal.daysBeforeYear_ge (y := Y + 1) (y' := y) (by omega)).1
  have n := Cal.dayNumber_newYear (Y + 1)
  unfold Cal.ValidTime at t
  unfold Cal.instant at hlt
  omega

theorem instant_lt_of_year {y mo d Y h mi s : Int} (v : Cal.ValidDate y mo d) (t : Cal.ValidTime h mi s)
    (hy : y ≤ Y) : Cal.instant y mo d h mi s < Cal.instant (Y + 1) 1 1 0 0 0 := by
  have := Cal.dayNumber_lt v (y' := Y + 1) (m' := 1) (d' := 1) (by simp [Cal.ValidDate, Cal.monthLen]) (.inl (by omega))
  unfold Cal.ValidTime at t
  unfold Cal.instant; omega

/-- Between a moment and the end of the range, every instant is that of a moment. -/
theorem moment_exists {c : Cfg} {m : Moment} (hm : m.Valid c) (i : Int) (h1 : m.instant ≤ i)
    (h2 : i < Cal.instant (c.maxYear + 1) 1 1 0 0 0) :
    ∃ m' : Moment, m'.Valid c ∧ m'.nano = 0 ∧ m'.instant = i := by
  obtain ⟨y, mo, d, v, e⟩ := Cal.date_exists (i / 86400)
  have t := tod_valid i
  have hi : Cal.instant y mo d (todH i) (todM i) (todS i) = i := instant_of e
  refine ⟨⟨y, mo, d, todH i, todM i, todS i, 0⟩, ⟨?_, ?_, v, t, by simp, by simp⟩, rfl, hi⟩
  · by_cases hlt : y < m.year
    · have := Cal.dayNumber_lt v hm.2.2.1 (.inl hlt)
      have t' := hm.2.2.2.1
      unfold Cal.ValidTime at t t'
      unfold Moment.instant at h1
      rw [← hi] at h1
      unfold Cal.instant at h1
      omega
    · have := hm.1; simp only; omega
  · exact year_le_of_instant v t (show Cal.instant y mo d _ _ _ < _ by omega)

theorem moment_lt_end {c : Cfg} {m : Moment} (hm : m.Valid c) :
    m.instant < Cal.instant (c.maxYear + 1) 1 1 0 0 0 :=
  instant_lt_of_year hm.2.2.1 hm.2.2.2.1 hm.2.1

end Kairos
