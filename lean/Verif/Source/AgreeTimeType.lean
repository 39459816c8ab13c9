import Verif.Source.AgreeUtil
import Verif.Source.TimeType
import Verif.Lemmas.Eval

/-! The hand-written model of src/timetype.rs agrees with the mechanical translation of its text. -/

namespace Kairos.Source

theorem TimeType.add_eq (c : Cfg) (a b : TT) : TimeType.add c a b = .ok (a + b) := rfl
theorem TimeType.sub_eq (c : Cfg) (a b : TT) : TimeType.sub c a b = .ok (a - b) := rfl
theorem TimeType.is_a_amount_eq (c : Cfg) (t : TT) : TimeType.is_a_amount c t = .ok t.isAAmount := by
  cases t <;> rfl
theorem TimeType.is_moment_eq (c : Cfg) (t : TT) : TimeType.is_moment c t = .ok t.isMoment := by
  cases t <;> rfl
theorem TimeType.is_addition_eq (c : Cfg) (t : TT) : TimeType.is_addition c t = .ok t.isAddition := by
  cases t <;> rfl
theorem TimeType.is_subtraction_eq (c : Cfg) (t : TT) :
    TimeType.is_subtraction c t = .ok t.isSubtraction := by
  cases t <;> rfl
theorem TimeType.seconds_eq (c : Cfg) (i : Int) : TimeType.seconds c i = .ok (.seconds i) := rfl
theorem TimeType.minutes_eq (c : Cfg) (i : Int) : TimeType.minutes c i = .ok (.minutes i) := rfl
theorem TimeType.hours_eq (c : Cfg) (i : Int) : TimeType.hours c i = .ok (.hours i) := rfl
theorem TimeType.days_eq (c : Cfg) (i : Int) : TimeType.days c i = .ok (.days i) := rfl
theorem TimeType.weeks_eq (c : Cfg) (i : Int) : TimeType.weeks c i = TT.weeks c i := rfl
theorem TimeType.months_eq (c : Cfg) (i : Int) : TimeType.months c i = .ok (.months i) := rfl
theorem TimeType.years_eq (c : Cfg) (i : Int) : TimeType.years c i = .ok (.years i) := rfl
theorem TimeType.moment_eq (c : Cfg) (m : Moment) : TimeType.moment c m = .ok (.moment m) := rfl
theorem TimeType.end_of_year_eq (c : Cfg) (t : TT) : TimeType.end_of_year c t = .ok (.endOfYear t) := rfl
theorem TimeType.end_of_month_eq (c : Cfg) (t : TT) : TimeType.end_of_month c t = .ok (.endOfMonth t) := rfl
theorem TimeType.end_of_day_eq (c : Cfg) (t : TT) : TimeType.end_of_day c t = .ok (.endOfDay t) := rfl
theorem TimeType.end_of_hour_eq (c : Cfg) (t : TT) : TimeType.end_of_hour c t = .ok (.endOfHour t) := rfl
theorem TimeType.end_of_minute_eq (c : Cfg) (t : TT) : TimeType.end_of_minute c t = .ok (.endOfMinute t) := rfl

theorem bind_ok {ε α : Type} (x : OutE ε α) : (x >>= fun a => .ok a) = x := by cases x <;> rfl

theorem mulL_cons (c : Cfg) (a k : Int) (ks : List Int) :
    (c.mulL a (k :: ks) : Out Int) = (c.mul a k >>= fun p => c.mulL p ks) := rfl
theorem mulL_nil (c : Cfg) (a : Int) : (c.mulL a [] : Out Int) = .ok a := rfl

theorem TimeType.get_seconds_eq (c : Cfg) (t : TT) : TimeType.get_seconds c t = t.getSeconds c := by
  cases t <;> simp only [TimeType.get_seconds, TT.getSeconds, mulL_cons, mulL_nil, bind_ok]
theorem TimeType.get_minutes_eq (c : Cfg) (t : TT) : TimeType.get_minutes c t = t.getMinutes c := by
  cases t <;> simp only [TimeType.get_minutes, TT.getMinutes, mulL_cons, mulL_nil, bind_ok]
theorem TimeType.get_hours_eq (c : Cfg) (t : TT) : TimeType.get_hours c t = t.getHours c := by
  cases t <;> simp only [TimeType.get_hours, TT.getHours, mulL_cons, mulL_nil, bind_ok]
theorem TimeType.get_days_eq (c : Cfg) (t : TT) : TimeType.get_days c t = t.getDays c := by
  cases t <;> simp only [TimeType.get_days, TT.getDays, mulL_cons, mulL_nil, bind_ok]
theorem TimeType.get_months_eq (c : Cfg) (t : TT) : TimeType.get_months c t = t.getMonths c := by
  cases t <;> simp only [TimeType.get_months, TT.getMonths, mulL_cons, mulL_nil, bind_ok]
theorem TimeType.get_years_eq (c : Cfg) (t : TT) : TimeType.get_years c t = t.getYears c := by
  cases t <;> rfl
theorem TimeType.get_moment_eq (c : Cfg) (t : TT) : TimeType.get_moment c t = .ok t.getMoment := by
  cases t <;> rfl
theorem TimeType.name_eq (c : Cfg) (t : TT) : TimeType.name c t = .ok t.name := by cases t <;> rfl
theorem Day.into_eq (c : Cfg) (d : Day) : Day.into c d = .ok d.into := by cases d <;> rfl
theorem Month.into_eq (c : Cfg) (m : Month) : Month.into c m = .ok m.into := by cases m <;> rfl
theorem TimeType.is_a_eq (c : Cfg) (t : TT) (d : Day) : TimeType.is_a c t d = t.isA d := by
  cases t <;> simp only [TimeType.is_a, TT.isA, Day.into_eq, TimeType.name_eq, OutE.ok_bind]
theorem TimeType.is_in_eq (c : Cfg) (t : TT) (m : Month) : TimeType.is_in c t m = t.isIn m := by
  cases t <;> simp only [TimeType.is_in, TT.isIn, Month.into_eq, TimeType.name_eq, OutE.ok_bind]

/-- The functions of src/timetype.rs:454-1180 (translated), by the calls of the model. -/
def call (c : Cfg) : Call → Out TT
  | .calculate t => do_calculate c t
  | .endOf .year t => end_of_year c t
  | .endOf .month t => end_of_month c t
  | .endOf .day t => end_of_day c t
  | .endOf .hour t => end_of_hour c t
  | .endOf .minute t => end_of_minute c t
  | .add a b => add c a b
  | .sub a b => sub c a b
  | .addTo .seconds n t => add_to_seconds c n t
  | .addTo .minutes n t => add_to_minutes c n t
  | .addTo .hours n t => add_to_hours c n t
  | .addTo .days n t => add_to_days c n t
  | .addTo .months n t => add_to_months c n t
  | .addTo .years n t => add_to_years c n t
  | .subFrom .seconds n t => sub_from_seconds c n t
  | .subFrom .minutes n t => sub_from_minutes c n t
  | .subFrom .hours n t => sub_from_hours c n t
  | .subFrom .days n t => sub_from_days c n t
  | .subFrom .months n t => sub_from_months c n t
  | .subFrom .years n t => sub_from_years c n t
  | .addToMoment m t => add_to_moment c m t
  | .subFromMoment m t => sub_from_moment c m t

theorem optMap_moment (c : Cfg) (o : Option Moment) :
    Rs.optMap o (TimeType.moment c) = (.ok (o.map TT.moment) : Out (Option TT)) := by cases o <;> rfl

theorem build_eq (c : Cfg) (p : Parts) :
    (do
      let t3 ← Rs.optAndThen (fromYmdOpt c (asI32 p.y) (asU32 p.mo) (asU32 p.d))
        (fun nd => .ok (nd.andHmsOpt (asU32 p.h) (asU32 p.mi) (asU32 p.s)))
      let t4 ← (OutE.ofOption t3
        (.outOfBounds (asI32 p.y) (asU32 p.mo) (asU32 p.h) (asU32 p.h) (asU32 p.mi) (asU32 p.s)) : Out Moment)
      let t5 ← TimeType.moment c t4
      (.ok t5) : Out TT) = Eval.buildMoment c p := by
  unfold Eval.buildMoment Rs.optAndThen
  cases fromYmdOpt c (asI32 p.y) (asU32 p.mo) (asU32 p.d) with
  | none => rfl
  | some nd =>
    simp only [OutE.ok_bind, Option.bind_some]
    cases nd.andHmsOpt (asU32 p.h) (asU32 p.mi) (asU32 p.s) <;> rfl

theorem adjust_add (c : Cfg) (y mo d h mi s : Int) :
    adjust_times_add c y mo d h mi s = (adjustTimesAdd c ⟨y, mo, d, h, mi, s⟩ >>= fun r => .ok (tuple r)) :=
  adjust_times_add_eq c ⟨y, mo, d, h, mi, s⟩

theorem adjust_sub (c : Cfg) (y mo d h mi s : Int) :
    adjust_times_sub c y mo d h mi s = (adjustTimesSub c ⟨y, mo, d, h, mi, s⟩ >>= fun r => .ok (tuple r)) :=
  adjust_times_sub_eq c ⟨y, mo, d, h, mi, s⟩

/-- The translated functions satisfy the recursion equations of the model. -/
theorem call_body (c : Cfg) (k : Call) : Eval.body c (call c) k = call c k := by
  cases k with
  | calculate t =>
    simp only [Eval.body, call]
    rw [do_calculate.eq_def]
    cases t <;> rfl
  | endOf k t =>
    cases k <;> simp only [Eval.body, Eval.endOfYear, Eval.endOfMonth, Eval.endOfDay, Eval.endOfHour,
      Eval.endOfMinute, call]
    · rw [end_of_year.eq_def]
      congr 1; funext v
      cases v <;> simp only
      rename_i m
      cases fromYmdOpt c m.year 12 31 with
      | none => rfl
      | some nd => simp only [Rs.optMap]; cases (nd.andHms 0 0 0 : Out Moment) <;> rfl
    · rw [end_of_month.eq_def]
      congr 1; funext v
      cases v <;> simp only
      rename_i m
      simp only [get_num_of_days_in_month_eq, OutE.ok_bind]
      cases fromYmdOpt c m.year m.month (asU32 (getNumOfDaysInMonth m.year m.month)) with
      | none => rfl
      | some nd => simp only [Rs.optMap]; cases (nd.andHms 0 0 0 : Out Moment) <;> rfl
    · rw [end_of_day.eq_def]
      congr 1; funext v
      cases v <;> simp only
      rename_i m
      cases fromYmdOpt c m.year m.month m.day with
      | none => rfl
      | some nd => simp only [Rs.optMap]; cases (nd.andHms 23 59 59 : Out Moment) <;> rfl
    · rw [end_of_hour.eq_def]
      congr 1; funext v
      cases v <;> simp only
      rename_i m
      cases fromYmdOpt c m.year m.month m.day with
      | none => rfl
      | some nd =>
        simp only [Rs.optAndThen, OutE.ok_bind, Option.bind_some]
        cases nd.andHmsOpt m.hour 59 59 <;> rfl
    · rw [end_of_minute.eq_def]
      congr 1; funext v
      cases v <;> simp only
      rename_i m
      cases fromYmdOpt c m.year m.month m.day with
      | none => rfl
      | some nd =>
        simp only [Rs.optAndThen, OutE.ok_bind, Option.bind_some]
        cases nd.andHmsOpt m.hour m.minute 59 <;> rfl
  | add a b =>
    simp only [Eval.body, call]
    rw [Source.add.eq_def]
    cases a <;> cases b <;> simp only [Eval.add, call, OutE.bind_assoc']
  | sub a b =>
    simp only [Eval.body, call]
    rw [Source.sub.eq_def]
    cases a <;> cases b <;> simp only [Eval.sub, call, OutE.bind_assoc']
  | addTo u n t =>
    cases u <;> simp only [Eval.body, call]
    · rw [add_to_seconds.eq_def]
      cases t <;> simp only [Eval.addToSeconds, call, mulL_cons, mulL_nil, bind_ok, OutE.bind_assoc']
    · rw [add_to_minutes.eq_def]
      cases t <;> simp only [Eval.addToMinutes, call, mulL_cons, mulL_nil, bind_ok, OutE.bind_assoc']
    · rw [add_to_hours.eq_def]
      cases t <;> simp only [Eval.addToHours, call, mulL_cons, mulL_nil, bind_ok, OutE.bind_assoc']
    · rw [add_to_days.eq_def]
      cases t <;> simp only [Eval.addToDays, call, mulL_cons, mulL_nil, bind_ok, OutE.bind_assoc']
    · rw [add_to_months.eq_def]
      cases t <;> simp only [Eval.addToMonths, call, mulL_cons, mulL_nil, bind_ok, OutE.bind_assoc']
    · rw [add_to_years.eq_def]
      cases t <;> simp only [Eval.addToYears, call, mulL_cons, mulL_nil, bind_ok, OutE.bind_assoc']
  | subFrom u n t =>
    cases u <;> simp only [Eval.body, call]
    · rw [sub_from_seconds.eq_def]
      cases t <;> simp only [Eval.subFromSeconds, call, mulL_cons, mulL_nil, bind_ok, OutE.bind_assoc']
    · rw [sub_from_minutes.eq_def]
      cases t <;> simp only [Eval.subFromMinutes, call, mulL_cons, mulL_nil, bind_ok, OutE.bind_assoc']
    · rw [sub_from_hours.eq_def]
      cases t <;> simp only [Eval.subFromHours, call, mulL_cons, mulL_nil, bind_ok, OutE.bind_assoc']
    · rw [sub_from_days.eq_def]
      cases t <;> simp only [Eval.subFromDays, call, mulL_cons, mulL_nil, bind_ok, OutE.bind_assoc']
    · rw [sub_from_months.eq_def]
      cases t <;> simp only [Eval.subFromMonths, call, mulL_cons, mulL_nil, bind_ok, OutE.bind_assoc']
    · rw [sub_from_years.eq_def]
      cases t <;> simp only [Eval.subFromYears, call, mulL_cons, mulL_nil, bind_ok, OutE.bind_assoc']
  | addToMoment m t =>
    simp only [Eval.body, call]
    rw [Source.add_to_moment.eq_def]
    cases t <;> simp only [Eval.addToMoment, call]
    all_goals
      congr 1; funext v
      simp only [adjust_add, OutE.bind_assoc', OutE.ok_bind, tuple]
      congr 1; funext p
      exact (build_eq c p).symm
  | subFromMoment m t =>
    simp only [Eval.body, call]
    rw [Source.sub_from_moment.eq_def]
    cases t <;> simp only [Eval.subFromMoment, call]
    all_goals
      congr 1; funext v
      simp only [adjust_sub, OutE.bind_assoc', OutE.ok_bind, tuple]
      congr 1; funext p
      exact (build_eq c p).symm

/-- Every call of the model returns what the translated source returns. -/
theorem call_good (c : Cfg) (k : Call) : Good (exec c k) (call c k) := by
  have H : ∀ n (k : Call), k.depth < n → Good (exec c k) (call c k) := by
    intro n
    induction n with
    | zero => intro k h; omega
    | succ n ih =>
      intro k h
      rw [exec_unfold, ← call_body]
      exact body_good c _ _ k (fun k' hk' => ih k' (by omega))
  exact H _ k (Nat.lt_succ_self _)

theorem call_eq (c : Cfg) (k : Call) : call c k = exec c k := (call_good c k).eq.symm

/-- `TimeType::calculate` as the source has it is the model's `calculate`. -/
theorem TimeType.calculate_eq (c : Cfg) (t : TT) : TimeType.calculate c t = Kairos.calculate c t :=
  call_eq c (.calculate t)

end Kairos.Source
