import Verif.Lemmas.Eval

/-! The Rust recursion equations, one per function. -/

namespace Kairos
variable (c : Cfg)

theorem exec_calculate (t : TT) : exec c (.calculate t) = Eval.doCalculate (exec c) t := exec_unfold ..
theorem exec_endOf_year (t : TT) : exec c (.endOf .year t) = Eval.endOfYear c (exec c) t := exec_unfold ..
theorem exec_endOf_month (t : TT) : exec c (.endOf .month t) = Eval.endOfMonth c (exec c) t := exec_unfold ..
theorem exec_endOf_day (t : TT) : exec c (.endOf .day t) = Eval.endOfDay c (exec c) t := exec_unfold ..
theorem exec_endOf_hour (t : TT) : exec c (.endOf .hour t) = Eval.endOfHour c (exec c) t := exec_unfold ..
theorem exec_endOf_minute (t : TT) : exec c (.endOf .minute t) = Eval.endOfMinute c (exec c) t := exec_unfold ..
theorem exec_add (a b : TT) : exec c (.add a b) = Eval.add (exec c) a b := exec_unfold ..
theorem exec_sub (a b : TT) : exec c (.sub a b) = Eval.sub (exec c) a b := exec_unfold ..
theorem exec_addTo_seconds (n : Int) (t : TT) : exec c (.addTo .seconds n t) = Eval.addToSeconds c (exec c) n t := exec_unfold ..
theorem exec_addTo_minutes (n : Int) (t : TT) : exec c (.addTo .minutes n t) = Eval.addToMinutes c (exec c) n t := exec_unfold ..
theorem exec_addTo_hours (n : Int) (t : TT) : exec c (.addTo .hours n t) = Eval.addToHours c (exec c) n t := exec_unfold ..
theorem exec_addTo_days (n : Int) (t : TT) : exec c (.addTo .days n t) = Eval.addToDays c (exec c) n t := exec_unfold ..
theorem exec_addTo_months (n : Int) (t : TT) : exec c (.addTo .months n t) = Eval.addToMonths c (exec c) n t := exec_unfold ..
theorem exec_addTo_years (n : Int) (t : TT) : exec c (.addTo .years n t) = Eval.addToYears c (exec c) n t := exec_unfold ..
theorem exec_subFrom_seconds (n : Int) (t : TT) : exec c (.subFrom .seconds n t) = Eval.subFromSeconds c (exec c) n t := exec_unfold ..
theorem exec_subFrom_minutes (n : Int) (t : TT) : exec c (.subFrom .minutes n t) = Eval.subFromMinutes c (exec c) n t := exec_unfold ..
theorem exec_subFrom_hours (n : Int) (t : TT) : exec c (.subFrom .hours n t) = Eval.subFromHours c (exec c) n t := exec_unfold ..
theorem exec_subFrom_days (n : Int) (t : TT) : exec c (.subFrom .days n t) = Eval.subFromDays c (exec c) n t := exec_unfold ..
theorem exec_subFrom_months (n : Int) (t : TT) : exec c (.subFrom .months n t) = Eval.subFromMonths c (exec c) n t := exec_unfold ..
theorem exec_subFrom_years (n : Int) (t : TT) : exec c (.subFrom .years n t) = Eval.subFromYears c (exec c) n t := exec_unfold ..
theorem exec_addToMoment (m : Moment) (t : TT) : exec c (.addToMoment m t) = Eval.addToMoment c (exec c) m t := exec_unfold ..
theorem exec_subFromMoment (m : Moment) (t : TT) : exec c (.subFromMoment m t) = Eval.subFromMoment c (exec c) m t := exec_unfold ..

/-- `calculate` on a sum, difference or end-of marker dispatches. -/
theorem calculate_eq (t : TT) : calculate c t = Eval.doCalculate (exec c) t := exec_calculate c t

@[simp] theorem TT.hadd_def (a b : TT) : a + b = .addition a b := rfl
@[simp] theorem TT.hsub_def (a b : TT) : a - b = .subtraction a b := rfl

theorem calculate_add (a b : TT) : calculate c (a + b) = exec c (.add a b) := calculate_eq ..
theorem calculate_sub (a b : TT) : calculate c (a - b) = exec c (.sub a b) := calculate_eq ..

theorem calculate_leaf {t : TT} (h : t.isLeaf) : calculate c t = .ok t := by
  rw [calculate_eq]
  cases t <;> simp_all [TT.isLeaf, TT.isAAmount, TT.isMoment, Eval.doCalculate]

theorem exec_calculate_leaf {t : TT} (h : t.isLeaf) : exec c (.calculate t) = .ok t :=
  calculate_leaf c h

theorem calculate_ne_oof (t : TT) : calculate c t ≠ .oof := exec_ne_oof c _

theorem calculate_isLeaf {c : Cfg} {t v : TT} (h : calculate c t = .ok v) : v.isLeaf := exec_leaf h

/-- Leaves are the six amounts and moments. -/
theorem leaf_cases {t : TT} (h : t.isLeaf) : t.isAAmount = true ∨ ∃ m, t = .moment m := by
  cases t <;> simp_all [TT.isLeaf, TT.isAAmount, TT.isMoment]

end Kairos
