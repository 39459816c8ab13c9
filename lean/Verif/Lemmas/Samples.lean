import Verif.Spec.Accepted

/-!
# Sample texts, used in examples only
-/

namespace Props
open Kairos Kairos.Parser Spec

/-- An instance of the ISO 8601 parsers that recognises nothing; used in examples only. -/
def noIso : Iso := ⟨fun _ => .error, fun _ => .error⟩

theorem noIso_spec (s : List Char) : NoIso noIso s := by
  constructor <;> (intro r d h; cases h)

theorem isoSane_noIso : IsoSane noIso :=
  ⟨fun _ _ _ h => by simp [noIso] at h, fun _ _ _ h => by simp [noIso] at h, fun _ _ _ h => by simp [noIso] at h,
    fun _ _ _ h => by simp [noIso] at h⟩

theorem sample_amounts : ExprText (.cons ⟨5, .minute⟩ .minus (.cons ⟨12, .day⟩ .plus (.single ⟨1, .week⟩)))
    " 5 mins - 0012 days+weekly ".toList := by
  have h1 : AmountText ⟨5, .minute⟩ " 5 mins".toList :=
    .number (b := " ".toList) (ds := "5".toList) (b' := " ".toList) (unit := .minute) (name := "mins")
      (by decide) (by decide) (by decide) (by decide) (by decide)
  have h2 : AmountText ⟨12, .day⟩ "0012 days".toList :=
    .number (b := []) (ds := "0012".toList) (b' := " ".toList) (unit := .day) (name := "days")
      (by decide) (by decide) (by decide) (by decide) (by decide)
  have h3 : ExprText (.single ⟨1, .week⟩) "weekly ".toList :=
    .single (t := "weekly".toList) (b := " ".toList) (.alias .week) (by decide)
  have h4 := ExprText.cons (op := .plus) (b := []) (b' := []) h2 (by decide) (by decide) h3
  exact ExprText.cons (op := .minus) (b := " ".toList) (b' := " ".toList) h1 (by decide) (by decide) h4

theorem sample_plus_minus : ExprText (.cons ⟨2, .hour⟩ .plus (.cons ⟨1, .hour⟩ .minus (.single ⟨5, .minute⟩)))
    "2hours + 1hour - 5min".toList := by
  have h1 : AmountText ⟨2, .hour⟩ "2hours".toList :=
    .number (b := []) (ds := "2".toList) (b' := []) (unit := .hour) (name := "hours")
      (by decide) (by decide) (by decide) (by decide) (by decide)
  have h2 : AmountText ⟨1, .hour⟩ "1hour".toList :=
    .number (b := []) (ds := "1".toList) (b' := []) (unit := .hour) (name := "hour")
      (by decide) (by decide) (by decide) (by decide) (by decide)
  have h3 : ExprText (.single ⟨5, .minute⟩) "5min".toList :=
    .single (b := []) (.number (b := []) (ds := "5".toList) (b' := []) (unit := .minute) (name := "min")
      (by decide) (by decide) (by decide) (by decide) (by decide)) (by decide)
  have h4 := ExprText.cons (op := .minus) (b := " ".toList) (b' := " ".toList) h2 (by decide) (by decide) h3
  exact ExprText.cons (op := .plus) (b := " ".toList) (b' := " ".toList) h1 (by decide) (by decide) h4

theorem sample_five_days : ExprText (.single ⟨5, .day⟩) "5days".toList :=
  .single (b := []) (.number (b := []) (ds := "5".toList) (b' := []) (unit := .day) (name := "days")
    (by decide) (by decide) (by decide) (by decide) (by decide)) (by decide)

theorem sample_date (rest : List Char) : DateText noIso ⟨.today, some (.minus, .single ⟨5, .day⟩)⟩ "today - 5days".toList rest :=
  .mk (dt := "today".toList) (.today _) (.some (b := " ".toList) (b' := " ".toList) (by decide) (by decide) sample_five_days)

theorem sample_every : IterText noIso ⟨.tomorrow, none⟩ .hour 3 (some (.times 5)) "tomorrow  every 3 hours 5 times".toList :=
  IterText.mk (b0 := []) (dt := "tomorrow".toList) (ot := []) (b1 := "  ".toList) (st := "every 3 hours".toList)
    (b2 := " ".toList) (ut := "5 times".toList) (by decide) (ExactText.tomorrow _) .none (by decide) (by decide)
    (StepText.every (b := " ".toList) (ds := "3".toList) (b' := " ".toList) (unit := .hour) (name := "hours")
      (by decide) (by decide) (by decide) (by decide) (by decide))
    (by decide) (BoundText.times (ds := "5".toList) (b := " ".toList) (by decide) (by decide) (by decide)) (by decide)

theorem sample_daily : IterText noIso ⟨.today, none⟩ .day 1 none "today daily".toList :=
  IterText.mk (b0 := []) (dt := "today".toList) (ot := []) (b1 := " ".toList) (st := "daily".toList) (b2 := []) (ut := [])
    (by decide) (ExactText.today _) .none (by decide) (by decide) (StepText.alias .day) (by decide) .none (by decide)

theorem sample_offset : IterText noIso ⟨.yesterday, some (.plus, .single ⟨5, .day⟩)⟩ .day 1 none "yesterday + 5days daily".toList :=
  IterText.mk (b0 := []) (dt := "yesterday".toList) (ot := " + 5days".toList) (b1 := " ".toList) (st := "daily".toList) (b2 := []) (ut := [])
    (by decide) (ExactText.yesterday _) (.some (b := " ".toList) (b' := " ".toList) (by decide) (by decide) sample_five_days) (by decide) (by decide)
    (StepText.alias .day) (by decide) .none (by decide)

theorem sample_week_until : IterText noIso ⟨.today, none⟩ .week 1 (some (.exact .tomorrow)) "today weekly until tomorrow".toList :=
  IterText.mk (b0 := []) (dt := "today".toList) (ot := []) (b1 := " ".toList) (st := "weekly".toList)
    (b2 := " ".toList) (ut := "until tomorrow".toList) (by decide) (ExactText.today _) .none (by decide) (by decide)
    (StepText.alias .week) (by decide)
    (BoundText.untilDate (b := " ".toList) (t := "tomorrow".toList) (by decide) (ExactText.tomorrow _)) (by decide)

theorem sample_month_times : IterText noIso ⟨.today, none⟩ .month 1 (some (.times 4)) "today monthly 4 times".toList :=
  IterText.mk (b0 := []) (dt := "today".toList) (ot := []) (b1 := " ".toList) (st := "monthly".toList)
    (b2 := " ".toList) (ut := "4 times".toList) (by decide) (ExactText.today _) .none (by decide) (by decide)
    (StepText.alias .month) (by decide)
    (BoundText.times (ds := "4".toList) (b := " ".toList) (by decide) (by decide) (by decide)) (by decide)

theorem sample_year_times : IterText noIso ⟨.today, none⟩ .year 1 (some (.times 4)) "today yearly 4 times".toList :=
  IterText.mk (b0 := []) (dt := "today".toList) (ot := []) (b1 := " ".toList) (st := "yearly".toList)
    (b2 := " ".toList) (ut := "4 times".toList) (by decide) (ExactText.today _) .none (by decide) (by decide)
    (StepText.alias .year) (by decide)
    (BoundText.times (ds := "4".toList) (b := " ".toList) (by decide) (by decide) (by decide)) (by decide)

theorem sample_month_until : IterText noIso ⟨.today, none⟩ .month 1 (some (.exact .tomorrow)) "today monthly until tomorrow".toList :=
  IterText.mk (b0 := []) (dt := "today".toList) (ot := []) (b1 := " ".toList) (st := "monthly".toList)
    (b2 := " ".toList) (ut := "until tomorrow".toList) (by decide) (ExactText.today _) .none (by decide) (by decide)
    (StepText.alias .month) (by decide)
    (BoundText.untilDate (b := " ".toList) (t := "tomorrow".toList) (by decide) (ExactText.tomorrow _)) (by decide)

theorem sample_year_until : IterText noIso ⟨.today, none⟩ .year 1 (some (.exact .tomorrow)) "today yearly until tomorrow".toList :=
  IterText.mk (b0 := []) (dt := "today".toList) (ot := []) (b1 := " ".toList) (st := "yearly".toList)
    (b2 := " ".toList) (ut := "until tomorrow".toList) (by decide) (ExactText.today _) .none (by decide) (by decide)
    (StepText.alias .year) (by decide)
    (BoundText.untilDate (b := " ".toList) (t := "tomorrow".toList) (by decide) (ExactText.tomorrow _)) (by decide)

end Props
