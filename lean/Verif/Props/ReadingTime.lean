import Verif.Lemmas.ParserCounted
import Verif.Spec.Length
import Verif.Props.Safety
import Verif.Props.Work
import Verif.Tests.Parser

/-! # C150 — how long reading a text takes -/

namespace Props
open Kairos Parser Spec Nom

/-- The steps `parse` takes to read a text, those of alternatives that were tried and given up included (`Model/NomCounted.lean`). -/
def stepsToRead (c : Cfg) (iso : Counted.CountedIso) (now now' : Moment) (s : List Char) : Nat :=
  (Counted.doParse c iso now now' s).2

/-- **C150, what is counted is what the parser does.** The counting parsers return what the parsers of the model return. -/
theorem C150_same_parser (c : Cfg) (iso : Counted.CountedIso) (now now' : Moment) (s : List Char) :
    (Counted.doParse c iso now now' s).1 = doParse c iso.erase now now' s :=
  congrFun (Counted.erase_doParse c iso now now') s

/-- **C150.** If the date parsers of iso8601 take at most `k` steps for each character left and `k` more, `parse` reads a text of `n`
characters, whatever it is, in at most `(6 k + 297) n + 6 k + 835` steps. -/
theorem C150_linear (c : Cfg) (iso : Counted.CountedIso) (k : Nat) (h : iso.Linear k) (now now' : Moment) (s : List Char) :
    stepsToRead c iso now now' s ≤ (6 * k + 297) * s.length + (6 * k + 835) :=
  (Counted.bound_doParse c h now now' s).1

/-- **C150, amounts.** Amounts alone are read in at most `94 n + 182` steps. -/
theorem C150_amounts (s : List Char) : (Counted.amountExpr s).1 = amountExpr s ∧ (Counted.amountExpr s).2 ≤ 94 * s.length + 182 :=
  ⟨congrFun Counted.erase_amountExpr s, (Counted.bound_amountExpr s).1⟩

/-! ### what has been read is no larger than the text -/

private theorem amountText_length {a : Amount} {t : List Char} (h : AmountText a t) : 2 ≤ t.length := by
  cases h with
  | @number b ds b' unit name hb hd hb' hn hmax =>
    have h1 : 0 < ds.length := List.length_pos_iff.mpr hd.1
    have h2 : ∀ u : TimeUnit, ∀ x ∈ spellings u, 0 < x.toList.length := by intro u; cases u <;> decide
    have h2 := h2 unit name hn
    simp only [List.length_append]
    omega
  | alias unit => cases unit <;> decide

private theorem exprText_length {e : AmountExpr} {t : List Char} (h : ExprText e t) : 3 * e.amounts ≤ t.length + 1 := by
  induction h with
  | single ha hb =>
    have := amountText_length ha
    simp only [AmountExpr.amounts, List.length_append]; omega
  | cons ha hb hb' he ih =>
    have := amountText_length ha
    simp only [AmountExpr.amounts, List.length_append, List.length_cons]; omega

private theorem amount_size {c : Cfg} {a : Amount} {v : TT} (h : a.intoTimetype c = .ok v) : v.size = 1 := by
  unfold Amount.intoTimetype at h
  split at h <;> first
    | (cases h; rfl)
    | (unfold TT.weeks at h
       rw [OutE.bind_eq_ok] at h
       obtain ⟨_, _, h⟩ := h
       cases h; rfl)

private theorem expr_size {c : Cfg} {e : AmountExpr} {v : TT} (h : e.intoTimetype c = .ok v) : v.size + 1 = 2 * e.amounts := by
  induction e generalizing v with
  | single a => have := amount_size h; simp only [AmountExpr.amounts]; omega
  | cons a op e ih =>
    cases op <;>
      (unfold AmountExpr.intoTimetype at h
       rw [OutE.bind_eq_ok] at h
       obtain ⟨x, hx, h⟩ := h
       rw [OutE.bind_eq_ok] at h
       obtain ⟨y, hy, h⟩ := h
       cases h
       have := amount_size hx
       have := ih hy
       simp only [TT.hadd_def, TT.hsub_def, TT.size, AmountExpr.amounts]
       omega)

private theorem newYear_size {c : Cfg} {y : Int} {v : TT} (h : newYear c y = .ok v) : v.size = 1 := by
  unfold newYear at h
  rw [OutE.bind_eq_ok] at h
  obtain ⟨_, _, h⟩ := h
  rw [OutE.bind_eq_ok] at h
  obtain ⟨_, _, h⟩ := h
  cases h; rfl

private theorem weeks_size {c : Cfg} {n : Int} {v : TT} (h : TT.weeks c n = .ok v) : v.size = 1 := by
  unfold TT.weeks at h
  rw [OutE.bind_eq_ok] at h
  obtain ⟨_, _, h⟩ := h
  cases h; rfl

private theorem exact_size {c : Cfg} {now : Moment} {e : ExactDate} {v : TT} (h : e.intoTimetype c now = .ok v) : v.size ≤ 11 := by
  unfold ExactDate.intoTimetype at h
  split at h
  · cases h; simp [TT.size]
  · cases h; simp [TT.hsub_def, TT.size]
  · cases h; simp [TT.hadd_def, TT.size]
  · rw [OutE.bind_eq_ok] at h
    obtain ⟨_, _, h⟩ := h
    rw [OutE.bind_eq_ok] at h
    obtain ⟨_, _, h⟩ := h
    cases h; simp [TT.size]
  · rw [OutE.bind_eq_ok] at h
    obtain ⟨_, h1, h⟩ := h
    rw [OutE.bind_eq_ok] at h
    obtain ⟨_, h2, h⟩ := h
    cases h; simp [TT.hadd_def, TT.size, newYear_size h1, weeks_size h2]
  · rw [OutE.bind_eq_ok] at h
    obtain ⟨_, h1, h⟩ := h
    cases h; simp [TT.hadd_def, TT.size, newYear_size h1]
  · rw [OutE.bind_eq_ok] at h
    obtain ⟨_, _, h⟩ := h
    cases h; simp [TT.size]
  · rw [OutE.bind_eq_ok] at h
    obtain ⟨_, h1, h⟩ := h
    rw [OutE.bind_eq_ok] at h
    obtain ⟨_, h2, h⟩ := h
    cases h; simp [TT.hadd_def, TT.size, newYear_size h1, weeks_size h2]
  · rw [OutE.bind_eq_ok] at h
    obtain ⟨_, h1, h⟩ := h
    cases h; simp [TT.hadd_def, TT.size, newYear_size h1]

/-- **C150, the size of what was read.** The expression that `parse` returns for a text of `n` characters has at most `n + 11` nodes. -/
theorem C150_size (c : Cfg) (iso : Iso) (hi : IsoSane iso) (now now' : Moment) (s : List Char) (t : TT)
    (h : parse c iso now now' s = .ok (.timeType t)) : t.size ≤ s.length + 11 := by
  rcases C65_only_dates_and_amounts c iso hi now now' s t h with ⟨tx, rest, d, rfl, hd, hm⟩ | ⟨tx, rest, e, rfl, he, hm⟩
  · unmean
    cases hd with
    | @mk dt ot _ e o he ho =>
      unfold PDate.intoTimetype at hm
      rw [OutE.bind_eq_ok] at hm
      obtain ⟨b, hb, hm⟩ := hm
      have hb := exact_size hb
      simp only [List.length_append]
      cases ho with
      | none => cases hm; omega
      | @some op e' b1 b2 t' _ _ he' =>
        have hl := exprText_length he'
        cases op <;>
          (simp only at hm
           rw [OutE.bind_eq_ok] at hm
           obtain ⟨a, ha, hm⟩ := hm
           have ha := expr_size ha
           cases hm
           simp only [TT.hadd_def, TT.hsub_def, TT.size, List.length_append, List.length_cons]
           omega)
  · unmean
    have h1 := exprText_length he
    have h2 := expr_size hm
    simp only [List.length_append]
    omega

example := C150_size (std .debug) Tests.Parser.extIso Tests.Parser.isoSane_extIso (at_ 2017 1 1 0 0 0) (at_ 2017 1 1 0 0 0)
  "5min".toList (.minutes 5) (by decide +kernel)

/-- **C150, calculating what was read.** Calculating it takes at most `2 n + 21` calls. -/
theorem C150_calculating (c : Cfg) (iso : Iso) (hi : IsoSane iso) (now now' : Moment) (s : List Char) (t : TT)
    (h : parse c iso now now' s = .ok (.timeType t)) :
    (Traced.run c (2 * t.size - 1) (.calculate t)).out = calculate c t ∧
    (Traced.run c (2 * t.size - 1) (.calculate t)).made.length + 1 ≤ 2 * s.length + 21 := by
  have h1 := C138_linear c t _ (Nat.le_refl _)
  have h2 := C150_size c iso hi now now' s t h
  exact ⟨C138_result c t _ (Nat.le_refl _), by omega⟩

/-! ### concrete cases -/

/-- Parsers for the two extended forms of ISO dates, said to take 25 and 15 steps. -/
def countedExt : Counted.CountedIso := ⟨fun i => (Tests.Parser.extIso.parseDatetime i, 25), fun i => (Tests.Parser.extIso.parseDate i, 15)⟩

theorem countedExt_linear : countedExt.Linear 25 :=
  ⟨fun i => ⟨by simp only [countedExt]; omega, fun r x h => (Tests.Parser.isoSane_extIso.datetimeRest i r x h).length_le⟩,
    fun i => ⟨by simp only [countedExt]; omega, fun r x h => (Tests.Parser.isoSane_extIso.dateRest i r x h).length_le⟩⟩

example (c : Cfg) (now now' : Moment) (s : List Char) : stepsToRead c countedExt now now' s ≤ 447 * s.length + 985 :=
  C150_linear c countedExt 25 countedExt_linear now now' s

/-- 20 characters, 167 steps: two attempts at a date fail, then the amounts are read. -/
example : stepsToRead (std .debug) countedExt (at_ 2017 1 1 0 0 0) (at_ 2017 1 1 0 0 0) "5min - 12days+weekly".toList = 167 := by
  decide +kernel

example := C150_calculating (std .debug) Tests.Parser.extIso Tests.Parser.isoSane_extIso (at_ 2017 1 1 0 0 0) (at_ 2017 1 1 0 0 0)
  "2017-03-04 + 5min - 12days".toList _ (show parse (std .debug) Tests.Parser.extIso (at_ 2017 1 1 0 0 0) (at_ 2017 1 1 0 0 0) _ =
    .ok (.timeType (.moment (at_ 2017 3 4 0 0 0) + (.minutes 5 - .days 12))) by decide +kernel)

end Props
