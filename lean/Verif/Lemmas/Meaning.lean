import Verif.Spec.Meaning
import Verif.Lemmas.Reference
import Verif.Lemmas.ParserValue

/-!
# What the parser makes of a text is what `Spec.Meaning` says
-/

namespace Spec
open Kairos Kairos.Parser Props

/-- The library's way of ending like this. -/
def Answer.out : Answer → Out TT
  | .value v => .ok v
  | .refused e => .err e
  | .overflow => .panic

@[simp] theorem out_value {a : Answer} {v : TT} : a.out = .ok v ↔ a = .value v := by cases a <;> simp [Answer.out]
@[simp] theorem out_refused {a : Answer} {e : ErrorKind} : a.out = .err e ↔ a = .refused e := by cases a <;> simp [Answer.out]
@[simp] theorem out_overflow {a : Answer} : a.out = .panic ↔ a = .overflow := by cases a <;> simp [Answer.out]

theorem out_andThen (a : Answer) (f : TT → Answer) : (a.andThen f).out = (a.out >>= fun v => (f v).out) := by cases a <;> rfl

theorem returned_out (a : Answer) : returned a = (a.out >>= fun t => .ok (.timeType t)) := by cases a <;> rfl

theorem weeks_means (c : Cfg) (n : Int) : TT.weeks c n = (amountMeans c ⟨n, .week⟩).out := by
  by_cases h : InI64 (7 * n)
  · rw [weeks_ok h]; simp [amountMeans, h, Answer.out, unitAmount]
  · unfold TT.weeks Cfg.mul
    have e : n * 7 = 7 * n := by omega
    rw [e]
    by_cases hd : c.profile = .debug
    · simp [amountMeans, h, hd, Answer.out, Cfg.chk]
    · rw [chk_signed c (fun ⟨x, _⟩ => hd x)]
      simp [amountMeans, h, hd, Answer.out]

theorem amount_means (c : Cfg) (a : Amount) : a.intoTimetype c = (amountMeans c a).out := by
  obtain ⟨n, u⟩ := a
  cases u <;> first | exact weeks_means c n | rfl

theorem amounts_mean (c : Cfg) (e : AmountExpr) : e.intoTimetype c = (amountsMean c e).out := by
  induction e with
  | single a => exact amount_means c a
  | cons a op e ih =>
    simp only [amountsMean, out_andThen, ← ih, ← amount_means]
    cases op <;> rfl

theorem newYear_means (c : Cfg) (y : Int) : newYear c y = (newYearMeans c y).out := by
  have hv : Cal.ValidDate y 1 1 := by simp [Cal.ValidDate, Cal.monthLen]
  unfold newYear newYearMeans fromYmdOpt
  by_cases h : c.minYear ≤ y ∧ y ≤ c.maxYear
  · rw [if_pos h, if_pos ⟨h.1, h.2, hv⟩]; rfl
  · rw [if_neg h, if_neg (fun x => h ⟨x.1, x.2.1⟩)]; rfl

theorem exact_means (c : Cfg) (now : Moment) (e : ExactDate) : e.intoTimetype c now = (exactMeans c now e).out := by
  cases e with
  | today => rfl
  | yesterday => rfl
  | tomorrow => rfl
  | iso8601DateTime t =>
    obtain ⟨d, h, mi, s, ms, th, tm⟩ := t
    cases d with
    | ymd y mo d =>
      simp only [ExactDate.intoTimetype, exactMeans, fromYmdOpt]
      by_cases h1 : c.minYear ≤ y ∧ y ≤ c.maxYear ∧ Cal.ValidDate y mo d
      · rw [if_pos h1]
        by_cases h2 : Cal.ValidTime h mi s
        · rw [if_pos ⟨h1.1, h1.2.1, h1.2.2, h2⟩]
          simp only [Date.andHmsOpt, Option.bind, if_pos h2]; rfl
        · rw [if_neg (fun x => h2 x.2.2.2)]
          simp only [Date.andHmsOpt, Option.bind, if_neg h2]; rfl
      · rw [if_neg h1, if_neg (fun x => h1 ⟨x.1, x.2.1, x.2.2.1⟩)]; rfl
    | week y w d =>
      simp only [ExactDate.intoTimetype, exactMeans, dayMeans, out_andThen, newYear_means, weeks_means]
      cases newYearMeans c y <;> cases amountMeans c ⟨w, .week⟩ <;> rfl
    | ordinal y n =>
      simp only [ExactDate.intoTimetype, exactMeans, dayMeans, out_andThen, newYear_means]
      cases newYearMeans c y <;> rfl
  | iso8601Date d =>
    cases d with
    | ymd y mo d =>
      simp only [ExactDate.intoTimetype, exactMeans, dayMeans, fromYmdOpt]
      split <;> rfl
    | week y w d => simp only [ExactDate.intoTimetype, exactMeans, dayMeans, out_andThen, newYear_means, weeks_means]; rfl
    | ordinal y n => simp only [ExactDate.intoTimetype, exactMeans, dayMeans, out_andThen, newYear_means]; rfl

theorem date_means (c : Cfg) (now : Moment) (d : PDate) : d.intoTimetype c now = (dateMeans c now d).out := by
  obtain ⟨e, o⟩ := d
  simp only [PDate.intoTimetype, dateMeans, out_andThen, exact_means]
  rcases o with _ | ⟨_ | _, a⟩
  · rfl
  · simp only [out_andThen, amounts_mean]; rfl
  · simp only [out_andThen, amounts_mean]; rfl

theorem date_value {c : Cfg} {now : Moment} {d : PDate} {v : TT} : dateMeans c now d = .value v ↔ d.intoTimetype c now = .ok v := by
  rw [date_means, out_value]
theorem date_refused {c : Cfg} {now : Moment} {d : PDate} {k : ErrorKind} :
    dateMeans c now d = .refused k ↔ d.intoTimetype c now = .err k := by
  rw [date_means, out_refused]
theorem date_overflow {c : Cfg} {now : Moment} {d : PDate} : dateMeans c now d = .overflow ↔ d.intoTimetype c now = .panic := by
  rw [date_means, out_overflow]
theorem exact_value {c : Cfg} {now : Moment} {e : ExactDate} {v : TT} :
    exactMeans c now e = .value v ↔ e.intoTimetype c now = .ok v := by
  rw [exact_means, out_value]
theorem exact_refused {c : Cfg} {now : Moment} {e : ExactDate} {k : ErrorKind} :
    exactMeans c now e = .refused k ↔ e.intoTimetype c now = .err k := by
  rw [exact_means, out_refused]
theorem exact_overflow {c : Cfg} {now : Moment} {e : ExactDate} :
    exactMeans c now e = .overflow ↔ e.intoTimetype c now = .panic := by
  rw [exact_means, out_overflow]
theorem amounts_value {c : Cfg} {e : AmountExpr} {v : TT} : amountsMean c e = .value v ↔ e.intoTimetype c = .ok v := by
  rw [amounts_mean, out_value]
theorem amounts_overflow {c : Cfg} {e : AmountExpr} : amountsMean c e = .overflow ↔ e.intoTimetype c = .panic := by
  rw [amounts_mean, out_overflow]

end Spec

/-- Goes back from what a text stands for to what the parser makes of it. -/
macro "unmean" : tactic => `(tactic| simp only [Spec.date_value, Spec.date_refused, Spec.date_overflow, Spec.exact_value,
  Spec.exact_refused, Spec.exact_overflow, Spec.amounts_value, Spec.amounts_overflow] at *)
