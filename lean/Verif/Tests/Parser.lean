import Verif.Model.ParserIterator
import Verif.Spec.Accepted
import Verif.Spec.Chain
import Verif.Lemmas.Parser

/-!
# The unit tests of `src/parser`, run on the model

The `iso8601` crate is a parameter of the model. The tests need an instance: `extIso` reads the two extended forms that the
tests use, `YYYY-MM-DD` and `YYYY-MM-DDThh:mm:ss`. `isoSane_extIso` shows that it meets what the theorems assume.
-/

namespace Tests.Parser
open Kairos Kairos.Parser Nom Spec

/-- Exactly `n` digits. -/
def digitsN (n : Nat) : P Int := fun i =>
  if (i.take n).length = n ∧ (i.take n).all isDigit then .done (i.drop n) (decimal (i.take n)) else .error

/-- `YYYY-MM-DD`. -/
def extDate : P IsoDate :=
  Nom.bind (digitsN 4) fun y => Nom.bind (tok "-") fun _ => Nom.bind (digitsN 2) fun m => Nom.bind (tok "-") fun _ =>
  Nom.bind (digitsN 2) fun d => ret (.ymd y m d)

/-- `YYYY-MM-DDThh:mm:ss`. -/
def extDatetime : P IsoDateTime :=
  Nom.bind extDate fun date => Nom.bind (tok "T") fun _ => Nom.bind (digitsN 2) fun h => Nom.bind (tok ":") fun _ =>
  Nom.bind (digitsN 2) fun mi => Nom.bind (tok ":") fun _ => Nom.bind (digitsN 2) fun s => ret ⟨date, h, mi, s, 0, 0, 0⟩

def extIso : Iso := ⟨extDatetime, extDate⟩

theorem digitsN_done {n : Nat} {i r : List Char} {x : Int} (h : digitsN n i = .done r x) :
    r = i.drop n ∧ 0 ≤ x ∧ x < 10 ^ n := by
  unfold digitsN at h
  split at h
  · rename_i hc
    cases h
    refine ⟨rfl, Int.natCast_nonneg _, ?_⟩
    have hd : ∀ l : List Char, l.all isDigit = true → decimal l < 10 ^ l.length := by
      intro l
      induction l with
      | nil => intro _; decide
      | cons d ds ih =>
        intro hl
        rw [List.all_cons, Bool.and_eq_true] at hl
        have h1 := ih hl.2
        have h2 : "0123456789".toList.idxOf d < 10 := by
          have : d ∈ "0123456789".toList := by
            have := hl.1
            simp only [isDigit, Bool.and_eq_true, decide_eq_true_eq] at this
            have h0 : 48 ≤ d.toNat := this.1
            have h9 : d.toNat ≤ 57 := this.2
            have hn : d = Char.ofNat d.toNat := (Char.ofNat_toNat d).symm
            have : d.toNat = 48 ∨ d.toNat = 49 ∨ d.toNat = 50 ∨ d.toNat = 51 ∨ d.toNat = 52 ∨ d.toNat = 53 ∨ d.toNat = 54
              ∨ d.toNat = 55 ∨ d.toNat = 56 ∨ d.toNat = 57 := by omega
            rcases this with h | h | h | h | h | h | h | h | h | h <;> (rw [hn, h]; decide)
          exact List.idxOf_lt_length_of_mem this
        rw [decimal, List.length_cons, Nat.pow_succ]
        have : "0123456789".toList.idxOf d * 10 ^ ds.length ≤ 9 * 10 ^ ds.length := Nat.mul_le_mul_right _ (by omega)
        omega
    have := hd _ hc.2
    rw [hc.1] at this
    exact_mod_cast this
  · cases h

theorem digitsN_suffix {n : Nat} {i r : List Char} {x : Int} (h : digitsN n i = .done r x) : r <:+ i :=
  (digitsN_done h).1 ▸ List.drop_suffix n i

theorem tok_suffix {t : String} {i r : List Char} {x : Unit} (h : tok t i = .done r x) : r <:+ i :=
  ⟨t.toList, (tag_done h).symm⟩

theorem extDate_done {i r : List Char} {d : IsoDate} (h : extDate i = .done r d) : r <:+ i ∧ DateTyped d := by
  unfold extDate at h
  obtain ⟨r1, y, h1, h⟩ := bind_done_iff.1 h
  obtain ⟨r2, _, h2, h⟩ := bind_done_iff.1 h
  obtain ⟨r3, m, h3, h⟩ := bind_done_iff.1 h
  obtain ⟨r4, _, h4, h⟩ := bind_done_iff.1 h
  obtain ⟨r5, d, h5, h⟩ := bind_done_iff.1 h
  obtain ⟨rfl, rfl⟩ := ret_done_iff.1 h
  refine ⟨(digitsN_suffix h5).trans ((tok_suffix h4).trans ((digitsN_suffix h3).trans ((tok_suffix h2).trans
    (digitsN_suffix h1)))), ?_⟩
  have h1 := digitsN_done h1
  have h3 := digitsN_done h3
  have h5 := digitsN_done h5
  simp only [DateTyped]
  omega

/-- The assumption of the theorems about dates holds of a parser that does read dates. -/
theorem isoSane_extIso : IsoSane extIso := by
  have key : ∀ i r d, extDatetime i = .done r d → r <:+ i ∧ DateTyped d.date ∧ (0 ≤ d.hour ∧ d.hour < 2 ^ 32) ∧
      (0 ≤ d.minute ∧ d.minute < 2 ^ 32) ∧ (0 ≤ d.second ∧ d.second < 2 ^ 32) := by
    intro i r d h
    unfold extDatetime at h
    obtain ⟨r1, y, h1, h⟩ := bind_done_iff.1 h
    obtain ⟨r2, _, h2, h⟩ := bind_done_iff.1 h
    obtain ⟨r3, m, h3, h⟩ := bind_done_iff.1 h
    obtain ⟨r4, _, h4, h⟩ := bind_done_iff.1 h
    obtain ⟨r5, d, h5, h⟩ := bind_done_iff.1 h
    obtain ⟨r6, _, h6, h⟩ := bind_done_iff.1 h
    obtain ⟨r7, s, h7, h⟩ := bind_done_iff.1 h
    obtain ⟨rfl, rfl⟩ := ret_done_iff.1 h
    refine ⟨(digitsN_suffix h7).trans ((tok_suffix h6).trans ((digitsN_suffix h5).trans ((tok_suffix h4).trans
      ((digitsN_suffix h3).trans ((tok_suffix h2).trans (extDate_done h1).1))))), (extDate_done h1).2, ?_⟩
    have h3 := digitsN_done h3
    have h5 := digitsN_done h5
    have h7 := digitsN_done h7
    dsimp only
    omega
  exact ⟨fun i r d h => (key i r d h).1, fun i r d h => (extDate_done h).1, fun i r d h => (key i r d h).2,
    fun i r d h => (extDate_done h).2⟩

/-- The tests run in the debug profile. -/
abbrev c : Cfg := std .debug
/-- In place of the current time. -/
def now : Moment := ⟨2017, 8, 16, 13, 37, 11, 123456789⟩

/-! ## src/parser/timetype.rs -/

/-- test_integer, 314 -/
example : ["2", "217"].map (fun s => integer s.toList) = [.done [] 2, .done [] 217] := by decide +kernel

/-- test_unit, 320 -/
example : ["second", "seconds", "sec", "secs", "s"].all (fun s => unitParser s.toList == .done [] .second) = true := by decide +kernel
example : ["minute", "minutes", "min", "mins"].all (fun s => unitParser s.toList == .done [] .minute) = true := by decide +kernel
example : ["hour", "hours", "hr", "hrs"].all (fun s => unitParser s.toList == .done [] .hour) = true := by decide +kernel
example : ["day", "days", "d"].all (fun s => unitParser s.toList == .done [] .day) = true := by decide +kernel
example : ["week", "weeks", "w"].all (fun s => unitParser s.toList == .done [] .week) = true := by decide +kernel
example : ["month", "months"].all (fun s => unitParser s.toList == .done [] .month) = true := by decide +kernel
example : ["year", "years", "yrs"].all (fun s => unitParser s.toList == .done [] .year) = true := by decide +kernel

/-- test_unit_alias, 348 -/
example : ["secondly", "minutely", "hourly", "daily", "weekly", "monthly", "yearly"].map (fun s => unitAlias s.toList)
    = [.done [] .secondly, .done [] .minutely, .done [] .hourly, .done [] .daily, .done [] .weekly, .done [] .monthly,
       .done [] .yearly] := by decide +kernel

/-- test_operator, 359 -/
example : ["+", "-"].map (fun s => operatorParser s.toList) = [.done [] .plus, .done [] .minus] := by decide +kernel

/-- test_amount, 365 -/
example : ["5s", "5min", "55hrs", "25days", "15weeks"].map (fun s => amountParser s.toList)
    = [.done [] ⟨5, .second⟩, .done [] ⟨5, .minute⟩, .done [] ⟨55, .hour⟩, .done [] ⟨25, .day⟩, .done [] ⟨15, .week⟩] := by
  decide +kernel

/-- test_unit_alias_with_amount_parser, 374 -/
example : ["secondly", "minutely", "hourly", "daily", "weekly", "monthly", "yearly"].map (fun s => amountParser s.toList)
    = [.done [] ⟨1, .second⟩, .done [] ⟨1, .minute⟩, .done [] ⟨1, .hour⟩, .done [] ⟨1, .day⟩, .done [] ⟨1, .week⟩,
       .done [] ⟨1, .month⟩, .done [] ⟨1, .year⟩] := by decide +kernel

/-- test_amountexpr_next, 386 -/
example : amountExprNext amountExpr "+ 12minutes".toList = .done [] (.plus, .single ⟨12, .minute⟩) := by decide +kernel

/-- test_amountexpr, 396 -/
example : amountExpr "5minutes".toList = .done [] (.single ⟨5, .minute⟩) := by decide +kernel
example : amountExpr "5min + 12min".toList = .done [] (.cons ⟨5, .minute⟩ .plus (.single ⟨12, .minute⟩)) := by decide +kernel

/-- test_parse_expressions_date, 419 -/
example : exactDateParser extIso "2017-01-01".toList = .done [] (.iso8601Date (.ymd 2017 1 1)) := by decide +kernel
/-- test_parse_expressions_datetime, 443 -/
example : exactDateParser extIso "2017-01-01T22:00:11".toList
    = .done [] (.iso8601DateTime ⟨.ymd 2017 1 1, 22, 0, 11, 0, 0, 0⟩) := by decide +kernel

/-- test_simple_date_1, 471 -/
example : exactDateParser extIso "today".toList = .done [] .today ∧ date extIso "today".toList = .done [] ⟨.today, none⟩ := by
  decide +kernel

/-- `date(s)`, `into_timetype`, `calculate`. -/
def dateValue (s : String) : Out TT :=
  match date extIso s.toList with
  | .done _ d => d.intoTimetype c now >>= calculate c
  | _ => .panic

/-- test_simple_date_2, 480 -/
example : dateValue "2017-01-01" = .ok (.moment (at_ 2017 1 1 0 0 0)) := by decide +kernel
/-- test_simple_date_3, 503 -/
example : dateValue "2017-01-01T01:02:03" = .ok (.moment (at_ 2017 1 1 1 2 3)) := by decide +kernel

/-- The getters seconds, minutes, hours, days, years of a value. -/
def readings (r : Out TT) : Out (List Int) := do
  let t ← r
  .ok [← t.getSeconds c, ← t.getMinutes c, ← t.getHours c, ← t.getDays c, ← t.getYears c]

/-- `amount_expr(s)`, `into_timetype`, `calculate`. -/
def amountValue (s : String) : Out TT :=
  match amountExpr s.toList with
  | .done _ a => a.intoTimetype c >>= calculate c
  | _ => .panic

/-- `timetype(s)`, `into_timetype`, `calculate`. -/
def timetypeValue (s : String) : Out TT :=
  match timetype extIso s.toList with
  | .done _ a => a.intoTimetype c now >>= calculate c
  | _ => .panic

/-- test_expressions_to_date, 526 -/
example : readings (amountValue "5min + 12min") = .ok [17 * 60, 17, 0, 0, 0] := by decide +kernel
/-- test_expressions_to_date_2, 544 -/
example : readings (amountValue "5min + 12min + 15hours") = .ok [17 * 60 + 15 * 60 * 60, 17 + 15 * 60, 15, 0, 0] := by
  decide +kernel
/-- test_expressions_to_date_3, 562 -/
example : dateValue "today + 5min + 12min" = .ok (.moment (at_ 2017 8 16 13 54 11)) := by decide +kernel
/-- test_expressions_to_date_4, 578 -/
example : dateValue "2017-01-01 + 5min + 12min" = .ok (.moment (at_ 2017 1 1 0 17 0)) := by decide +kernel
/-- test_expressions_to_timetype, 602 -/
example : readings (timetypeValue "5min + 12min + 15hours") = .ok [17 * 60 + 15 * 60 * 60, 17 + 15 * 60, 15, 0, 0] := by
  decide +kernel
/-- test_expressions_to_timetype_2, 620 -/
example : timetypeValue "today + 5min + 12min" = .ok (.moment (at_ 2017 8 16 13 54 11)) := by decide +kernel
/-- test_expressions_to_timetype_subtract, 636 -/
example : readings (timetypeValue "5min + 12min + 15hours - 1hour") = .ok [17 * 60 + 14 * 60 * 60, 17 + 14 * 60, 14, 0, 0] := by
  decide +kernel

/-! ## src/parser/iterator.rs -/

/-- test_iterspec, 157 -/
example : ["secondly", "minutely", "hourly", "daily", "weekly", "monthly", "yearly", "every 5min"].map
      (fun s => iterSpec s.toList)
    = [.done [] .secondly, .done [] .minutely, .done [] .hourly, .done [] .daily, .done [] .weekly, .done [] .monthly,
       .done [] .yearly, .done [] (.every 5 .minute)] := by decide +kernel

/-- `iterator(s)`, `into_user_iterator`, `n` calls of `next`. -/
def items (s : String) (n : Nat) : Out (List Item) :=
  match iterator extIso s.toList with
  | .done _ i => do
    let u ← i.intoUserIterator c now now
    .ok (callNext (UserIterator.next c) n u).2
  | _ => .panic

def moments (l : List Moment) : List Item := l.map fun m => some (.ok (.moment m))

/-- test_iterator_1, 169 -/
example : items "2017-01-01 hourly" 10 = .ok (moments ((List.range 10).map fun (h : Nat) => at_ 2017 1 1 h 0 0)) := by decide +kernel
/-- test_iterator_2, 193 -/
example : items "2017-01-01 every 2mins" 30 = .ok (moments ((List.range 30).map fun (k : Nat) => at_ 2017 1 1 0 (2 * k) 0)) := by
  decide +kernel
/-- test_iterator_3, 217 -/
example : items "2017-01-01 daily" 29 = .ok (moments ((List.range 29).map fun (k : Nat) => at_ 2017 1 (k + 1) 0 0 0)) := by decide +kernel
/-- test_iterator_4, 241 -/
example : items "2017-01-01 weekly" 3 = .ok (moments ((List.range 3).map fun (k : Nat) => at_ 2017 1 (1 + k * 7) 0 0 0)) := by
  decide +kernel
/-- test_until_spec_1, 265 -/
example : untilSpec extIso "until 2017-01-01T05:00:00".toList
    = .done [] (.exact (.iso8601DateTime ⟨.ymd 2017 1 1, 5, 0, 0, 0, 0, 0⟩)) := by decide +kernel
/-- test_until_iterator_1, 273 -/
example : items "2017-01-01 hourly until 2017-01-01T05:00:00" 6
    = .ok (moments ((List.range 5).map fun (h : Nat) => at_ 2017 1 1 h 0 0) ++ [none]) := by decide +kernel
/-- test_until_iterator_2, 304 -/
example : items "2017-01-01 every 2mins until 2017-01-01T00:10:00" 6
    = .ok (moments ((List.range 5).map fun (k : Nat) => at_ 2017 1 1 0 (2 * k) 0) ++ [none]) := by decide +kernel
/-- test_until_iterator_3, 334 -/
example : items "2017-01-01 daily until 2017-01-05" 5
    = .ok (moments ((List.range 4).map fun (k : Nat) => at_ 2017 1 (k + 1) 0 0 0) ++ [none]) := by decide +kernel
/-- test_until_iterator_4, 364 -/
example : items "2017-01-01 weekly until 2017-01-14" 3
    = .ok (moments ((List.range 2).map fun (k : Nat) => at_ 2017 1 (1 + k * 7) 0 0 0) ++ [none]) := by decide +kernel

end Tests.Parser
