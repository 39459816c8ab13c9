import Verif.Source.AgreeTimeType
import Verif.Source.Matcher
import Verif.Source.Filter
import Verif.Source.IterBuild

/-! The hand-written models of src/matcher.rs, of the filters of src/indicator.rs and of the
constructors of src/iter.rs agree with the mechanical translation of their text. -/

namespace Kairos.Source

theorem Day.matches_eq (c : Cfg) (d : Day) (t : TT) : Day.matches c d t = d.matches t := by
  simp only [Day.matches, Kairos.Day.matches, Day.into_eq, TimeType.get_moment_eq, TimeType.name_eq,
    OutE.ok_bind]
  cases t.getMoment <;> rfl

theorem Month.matches_eq (c : Cfg) (m : Month) (t : TT) : Month.matches c m t = m.matches t := by
  simp only [Month.matches, Kairos.Month.matches, Month.into_eq, TimeType.get_moment_eq,
    TimeType.name_eq, OutE.ok_bind]
  cases t.getMoment <;> rfl

theorem DayFilter.filter_eq (c : Cfg) (d : Day) (t : TT) :
    DayFilter.filter c d t = .ok (d.filter t) := by
  simp only [DayFilter.filter, Kairos.Day.filter, Day.into_eq, TimeType.get_moment_eq, OutE.ok_bind]
  cases t.getMoment <;> rfl

theorem MonthFilter.filter_eq (c : Cfg) (m : Month) (t : TT) :
    MonthFilter.filter c m t = .ok (m.filter t) := by
  simp only [MonthFilter.filter, Kairos.Month.filter, Month.into_eq, TimeType.get_moment_eq,
    OutE.ok_bind]
  cases t.getMoment <;> rfl

theorem Iter.build_eq (c : Cfg) (m : Moment) (inc : TT) :
    Iter.build c m inc = Kairos.Iter.build m inc := by
  simp only [Iter.build, Kairos.Iter.build, TimeType.is_a_amount_eq, OutE.ok_bind, TimeType.moment_eq]

theorem Minutely.minutely_eq (c : Cfg) (t : TT) (i : Int) :
    Minutely.minutely c t i = Ext.minutely t i := by
  cases t <;> simp only [Minutely.minutely, Ext.minutely, Ext.mk, Iter.build_eq] <;> rfl

theorem Hourly.hourly_eq (c : Cfg) (t : TT) (i : Int) : Hourly.hourly c t i = Ext.hourly t i := by
  cases t <;> simp only [Hourly.hourly, Ext.hourly, Ext.mk, Iter.build_eq] <;> rfl

theorem Daily.daily_eq (c : Cfg) (t : TT) (i : Int) : Daily.daily c t i = Ext.daily t i := by
  cases t <;> simp only [Daily.daily, Ext.daily, Ext.mk, Iter.build_eq] <;> rfl

theorem Weekly.weekly_eq (c : Cfg) (t : TT) (i : Int) : Weekly.weekly c t i = Ext.weekly c t i := by
  cases t <;> simp only [Weekly.weekly, Ext.weekly, Ext.mk, Iter.build_eq, OutE.bind_assoc'] <;> rfl

theorem Monthly.monthly_eq (c : Cfg) (t : TT) (i : Int) : Monthly.monthly c t i = Ext.monthly t i := by
  cases t <;> simp only [Monthly.monthly, Ext.monthly, Ext.mk, Iter.build_eq] <;> rfl

theorem Yearly.yearly_eq (c : Cfg) (t : TT) (i : Int) : Yearly.yearly c t i = Ext.yearly t i := by
  cases t <;> simp only [Yearly.yearly, Ext.yearly, Ext.mk, Iter.build_eq] <;> rfl

theorem Every.every_eq (c : Cfg) (t inc : TT) : Every.every c t inc = Ext.every t inc := by
  cases t <;> simp only [Every.every, Ext.every, Iter.build_eq]

end Kairos.Source
