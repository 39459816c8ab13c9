import Verif.Lemmas.EvalEqs
import Verif.Lemmas.Calendar

/-! `end_of_*` as a function of the value of its argument. -/

namespace Kairos
variable (c : Cfg)

/-- The value part of the five `end_of_*` functions. -/
def endVal (k : EndKind) (v : TT) : Out TT := exec c (.endOf k v)

theorem calculate_endOf (k : EndKind) (x : TT) :
    calculate c (k.app x) = (do let v ← calculate c x; endVal c k v) := by
  have h1 : calculate c (k.app x) = exec c (.endOf k x) := by
    rw [calculate_eq]; cases k <;> rfl
  rw [h1]
  have key : ∀ v, v.isLeaf → Eval.body c (exec c) (.endOf k v) = endVal c k v := fun v _ => (exec_unfold ..).symm
  rw [exec_unfold]
  cases hx : calculate c x with
  | ok v =>
    have hl := calculate_isLeaf hx
    rw [OutE.ok_bind, ← key v hl]
    have hv : exec c (.calculate x) = exec c (.calculate v) := by
      rw [show exec c (.calculate x) = .ok v from hx, exec_calculate_leaf c hl]
    cases k <;> simp only [Eval.body, Eval.endOfYear, Eval.endOfMonth, Eval.endOfDay,
      Eval.endOfHour, Eval.endOfMinute, hv]
  | err e =>
    have hv : exec c (.calculate x) = .err e := hx
    cases k <;> simp only [Eval.body, Eval.endOfYear, Eval.endOfMonth, Eval.endOfDay,
      Eval.endOfHour, Eval.endOfMinute, hv, OutE.err_bind]
  | panic =>
    have hv : exec c (.calculate x) = .panic := hx
    cases k <;> simp only [Eval.body, Eval.endOfYear, Eval.endOfMonth, Eval.endOfDay,
      Eval.endOfHour, Eval.endOfMinute, hv, OutE.panic_bind]
  | oof => exact absurd hx (calculate_ne_oof c x)

theorem endVal_moment (k : EndKind) (m : Moment) :
    endVal c k (.moment m) = match k with
      | .year => match fromYmdOpt c m.year 12 31 with
        | some nd => do .ok (.moment (← nd.andHms 0 0 0))
        | none => .err (.outOfBounds m.year 12 31 0 0 0)
      | .month => match fromYmdOpt c m.year m.month (asU32 (getNumOfDaysInMonth m.year m.month)) with
        | some nd => do .ok (.moment (← nd.andHms 0 0 0))
        | none => .err (.outOfBounds m.year m.month (asU32 (getNumOfDaysInMonth m.year m.month)) 0 0 0)
      | .day => match fromYmdOpt c m.year m.month m.day with
        | some nd => do .ok (.moment (← nd.andHms 23 59 59))
        | none => .err (.outOfBounds m.year m.month m.day 23 59 59)
      | .hour => match (fromYmdOpt c m.year m.month m.day).bind (fun nd => nd.andHmsOpt m.hour 59 59) with
        | some r => .ok (.moment r)
        | none => .err (.outOfBounds m.year m.month m.day m.hour 59 59)
      | .minute => match (fromYmdOpt c m.year m.month m.day).bind (fun nd => nd.andHmsOpt m.hour m.minute 59) with
        | some r => .ok (.moment r)
        | none => .err (.outOfBounds m.year m.month m.day m.hour m.minute 59) := by
  unfold endVal
  rw [exec_unfold]
  have h : exec c (.calculate (.moment m)) = .ok (.moment m) := exec_calculate_leaf c rfl
  cases k <;> simp only [Eval.body, Eval.endOfYear, Eval.endOfMonth, Eval.endOfDay,
    Eval.endOfHour, Eval.endOfMinute, h, OutE.ok_bind] <;> rfl

theorem endVal_amount (k : EndKind) {v : TT} (h : v.isAAmount) :
    endVal c k v = .err (if k = .year then .cannotCalculateEndOfYearOn v else .cannotCalculateEndOfMonthOn v) := by
  unfold endVal
  rw [exec_unfold]
  have hc : exec c (.calculate v) = .ok v := exec_calculate_leaf c (by simp [TT.isLeaf, h])
  cases k <;> cases v <;> simp only [TT.isAAmount] at h <;>
  first
  | (cases h; done)
  | simp [Eval.body, Eval.endOfYear, Eval.endOfMonth, Eval.endOfDay,
    Eval.endOfHour, Eval.endOfMinute, hc, OutE.ok_bind]

/-- Applied to its own result, an end-of function returns it. -/
theorem fromYmdOpt_some {y m d : Int} {nd : Date} (h : fromYmdOpt c y m d = some nd) :
    nd = ⟨y, m, d⟩ ∧ c.minYear ≤ y ∧ y ≤ c.maxYear ∧ Cal.ValidDate y m d := by
  unfold fromYmdOpt at h
  split at h
  · rename_i hc; cases h; exact ⟨rfl, hc⟩
  · cases h

theorem andHmsOpt_some {nd : Date} {h mi s : Int} {m : Moment} (he : nd.andHmsOpt h mi s = some m) :
    m = ⟨nd.year, nd.month, nd.day, h, mi, s, 0⟩ ∧ Cal.ValidTime h mi s := by
  unfold Date.andHmsOpt at he
  split at he
  · rename_i hc; cases he; exact ⟨rfl, hc⟩
  · cases he

theorem fromYmdOpt_ok {y m d : Int} (h1 : c.minYear ≤ y) (h2 : y ≤ c.maxYear) (h3 : Cal.ValidDate y m d) :
    fromYmdOpt c y m d = some ⟨y, m, d⟩ := by
  unfold fromYmdOpt; rw [if_pos ⟨h1, h2, h3⟩]

theorem andHms_ok {nd : Date} {h mi s : Int} (hv : Cal.ValidTime h mi s) :
    (nd.andHms h mi s : Out Moment) = .ok ⟨nd.year, nd.month, nd.day, h, mi, s, 0⟩ := by
  unfold Date.andHms Date.andHmsOpt; simp only [if_pos hv]

/-- Explicit result of `end_of_*` on a moment, when it succeeds. -/
theorem endVal_ok {k : EndKind} {m : Moment} {w : TT} (h : endVal c k (.moment m) = .ok w) :
    ∃ r : Moment, w = .moment r ∧ r.Valid c ∧ endVal c k (.moment r) = .ok (.moment r) ∧
      r.year = m.year ∧ (r.month = if k = .year then 12 else m.month) ∧ r.nano = 0 ∧
      (r.day = if k = .year then 31 else if k = .month then asU32 (getNumOfDaysInMonth m.year m.month) else m.day) ∧
      (r.hour = if k = .year ∨ k = .month then 0 else if k = .day then 23 else m.hour) ∧
      (r.minute = if k = .year ∨ k = .month then 0 else if k = .day ∨ k = .hour then 59 else m.minute) ∧
      (r.second = if k = .year ∨ k = .month then 0 else 59) := by
  have t0 : Cal.ValidTime 0 0 0 := by decide
  have t1 : Cal.ValidTime 23 59 59 := by decide
  rw [endVal_moment] at h
  cases k <;> simp only at h <;> split at h <;> (try cases h; done)
  · rename_i nd hnd
    obtain ⟨rfl, hy1, hy2, hv⟩ := fromYmdOpt_some c hnd
    rw [andHms_ok t0] at h; cases h
    refine ⟨_, rfl, ⟨hy1, hy2, hv, t0, by simp, by simp⟩, ?_, ?_⟩
    · simp [endVal_moment, hnd, andHms_ok t0]
    · simp
  · rename_i nd hnd
    obtain ⟨rfl, hy1, hy2, hv⟩ := fromYmdOpt_some c hnd
    rw [andHms_ok t0] at h; cases h
    refine ⟨_, rfl, ⟨hy1, hy2, hv, t0, by simp, by simp⟩, ?_, ?_⟩
    · simp [endVal_moment, hnd, andHms_ok t0]
    · simp
  · rename_i nd hnd
    obtain ⟨rfl, hy1, hy2, hv⟩ := fromYmdOpt_some c hnd
    rw [andHms_ok t1] at h; cases h
    refine ⟨_, rfl, ⟨hy1, hy2, hv, t1, by simp, by simp⟩, ?_, ?_⟩
    · simp [endVal_moment, hnd, andHms_ok t1]
    · simp
  · rename_i r hr
    rw [Option.bind_eq_some_iff] at hr
    obtain ⟨nd, hnd, hr⟩ := hr
    obtain ⟨rfl, hy1, hy2, hv⟩ := fromYmdOpt_some c hnd
    have hr' := hr
    obtain ⟨rfl, ht⟩ := andHmsOpt_some hr
    cases h
    refine ⟨_, rfl, ⟨hy1, hy2, hv, ht, by simp, by simp⟩, ?_, ?_⟩
    · simp [endVal_moment, hnd, hr']
    · simp
  · rename_i r hr
    rw [Option.bind_eq_some_iff] at hr
    obtain ⟨nd, hnd, hr⟩ := hr
    obtain ⟨rfl, hy1, hy2, hv⟩ := fromYmdOpt_some c hnd
    have hr' := hr
    obtain ⟨rfl, ht⟩ := andHmsOpt_some hr
    cases h
    refine ⟨_, rfl, ⟨hy1, hy2, hv, ht, by simp, by simp⟩, ?_, ?_⟩
    · simp [endVal_moment, hnd, hr']
    · simp

/-- On valid moments the five functions succeed. -/
theorem endVal_valid (hc1 : -2147483648 ≤ c.minYear) (hc2 : c.maxYear ≤ 2147483647)
    (k : EndKind) {m : Moment} (h : m.Valid c) : ∃ w, endVal c k (.moment m) = .ok w := by
  obtain ⟨h1, h2, h3, h4, h5⟩ := h
  have t0 : Cal.ValidTime 0 0 0 := by decide
  have t1 : Cal.ValidTime 23 59 59 := by decide
  rw [endVal_moment]
  cases k <;> simp only
  · have : Cal.ValidDate m.year 12 31 := by unfold Cal.ValidDate Cal.monthLen; simp
    simp [fromYmdOpt_ok c h1 h2 this, andHms_ok t0]
  · have e : getNumOfDaysInMonth m.year m.month = Cal.monthLen m.year m.month :=
      numDays_eq (by omega) (by omega) h3.1 h3.2.1
    have b := Cal.monthLen_bounds (y := m.year) h3.1 h3.2.1
    rw [e, asU32_id (by omega) (by omega)]
    have : Cal.ValidDate m.year m.month (Cal.monthLen m.year m.month) :=
      ⟨h3.1, h3.2.1, by omega, by omega⟩
    simp [fromYmdOpt_ok c h1 h2 this, andHms_ok t0]
  · simp [fromYmdOpt_ok c h1 h2 h3, andHms_ok t1]
  · obtain ⟨g1, g2, g3, g4, g5, g6⟩ := h4
    have : Cal.ValidTime m.hour 59 59 := ⟨g1, g2, by decide, by decide, by decide, by decide⟩
    simp [fromYmdOpt_ok c h1 h2 h3, Date.andHmsOpt, this]
  · obtain ⟨g1, g2, g3, g4, g5, g6⟩ := h4
    have : Cal.ValidTime m.hour m.minute 59 := ⟨g1, g2, g3, g4, by decide, by decide⟩
    simp [fromYmdOpt_ok c h1 h2 h3, Date.andHmsOpt, this]

end Kairos
