import Verif.Lemmas.ParserParse
import Verif.Lemmas.ParserSound
import Verif.Props.ParserAmounts
import Verif.Props.Subtracting
import Verif.Lemmas.CalExists

/-!
# C52, C54–C57, C64: the text form of dates and iterators
-/

namespace Props
open Kairos Kairos.Parser Spec

/-! ## C52 -/

/-- **C52 (partial).** The wrapping build never panics in `parse`, whatever the text. Missing: the overflow-checked
build, see `C52_refuted`. -/
theorem C52_release_never_panics_partial (c : Cfg) (iso : Iso) (now now' : Moment) (s : List Char) :
    parse { c with profile := .release } iso now now' s ≠ .panic :=
  parse_release_np c iso now now' s

/-- **C52 refuted**, for every clock reading and every implementation of the ISO 8601 parsers that does not take these texts
for dates: the overflow-checked build panics on an amount with too many weeks … -/
theorem C52_refuted_weeks (iso : Iso) (now now' : Moment)
    (hi : NoIso iso "9223372036854775807weeks".toList) :
    parse (std .debug) iso now now' "9223372036854775807weeks".toList = .panic := by
  obtain ⟨t, h1, h2⟩ := C62_only_the_grammar "9223372036854775807weeks".toList []
    (.single ⟨9223372036854775807, .week⟩) (by decide +kernel)
  rw [List.append_nil] at h2
  rw [parse_wholeExpr (std .debug) iso now now' _ _ (h2 ▸ h1) hi
    (by rw [show pastBlanks "9223372036854775807weeks".toList = "9223372036854775807weeks".toList by decide]; exact hi)]
  rfl

example (now now' : Moment) := C52_refuted_weeks noIso now now' (noIso_spec _)

/-- … and on an iterator whose start overflows, although the numbers themselves fit. -/
theorem C52_refuted (iso : Iso) (now now' : Moment) :
    parse (std .debug) iso now now'
      "today + 9223372036854775807seconds + 9223372036854775807seconds daily".toList = .panic := by
  obtain ⟨t, h1, h2⟩ := C62_only_the_grammar "9223372036854775807seconds + 9223372036854775807seconds".toList []
    (.cons ⟨9223372036854775807, .second⟩ .plus (.single ⟨9223372036854775807, .second⟩)) (by decide +kernel)
  rw [List.append_nil] at h2
  have hE := h2 ▸ h1
  have hI : IterText iso ⟨.today, some (.plus, .cons ⟨9223372036854775807, .second⟩ .plus
      (.single ⟨9223372036854775807, .second⟩))⟩ .day 1 none
      "today + 9223372036854775807seconds + 9223372036854775807seconds daily".toList :=
    IterText.mk (b0 := []) (dt := "today".toList) (b1 := " ".toList) (st := "daily".toList) (b2 := []) (ut := [])
      (by decide) (ExactText.today _) (OffsetText.some (b := " ".toList) (b' := " ".toList) (by decide) (by decide) hE)
      (by decide) (by decide) (StepText.alias .day) (by decide) .none (by decide)
  obtain ⟨step, hs, e⟩ := parse_iterText (c := std .debug) (now := now) (now' := now') hI
  rw [e]
  have hk : calculate (std .debug) (TT.moment now + (TT.seconds 9223372036854775807 + .seconds 9223372036854775807)) = .panic := by
    have := (C08_amounts_combined_first (std .debug) now
      (.plus (.amt .second 9223372036854775807) (.amt .second 9223372036854775807))).1
    simp only [AmtTree.toTT, amt] at this
    rw [this]
    have hp : calculate (std .debug) (TT.seconds 9223372036854775807 + .seconds 9223372036854775807) = .panic := by
      decide +kernel
    rw [hp]; rfl
  unfold PIterator.intoUserIterator
  simp only [hs, unitToAmount, OutE.ok_bind, PDate.intoTimetype, ExactDate.intoTimetype, AmountExpr.intoTimetype,
    Amount.intoTimetype, intoNdt, hk, OutE.panic_bind]
  rfl

/-! ## C55 -/

/-- **C55.** `parse` always returns, and its errors are a parse error or an out-of-bounds date, never the error for
incomplete input. -/
theorem C55_definite (c : Cfg) (iso : Iso) (now now' : Moment) (s : List Char) :
    parse c iso now now' s ≠ .oof ∧
    ∀ e, parse c iso now now' s = .err e → e = .nomError ∨ ∃ Y M D H MI S, e = .outOfBounds Y M D H MI S := by
  rcases parse_cases c iso now now' s with ⟨r, it, -, e⟩ | ⟨-, r, t, -, e⟩ | ⟨-, -, e⟩
  · rw [e]
    have h := fin_iterator c now now' it
    cases hx : it.intoUserIterator c now now' with
    | oof => exact absurd hx h
    | ok a => simp [wrapIterator]
    | err a => simp [wrapIterator]
    | panic => simp [wrapIterator]
  · rw [e]
    have h := (bnd_timetype c now t).bind (f := fun v => (.ok (.timeType v) : Out Parsed)) fun _ => Bnd.ok _
    exact ⟨h.1, fun e he => .inr (h.2 e he)⟩
  · rw [e]
    exact ⟨by simp, fun e he => by cases he; exact .inl rfl⟩

/-- **C55.** A text that starts, after blanks, neither with a date nor with an amount is a parse error. -/
theorem C55_rejects (c : Cfg) (iso : Iso) (now now' : Moment) (s : List Char)
    (hi : IsoSane iso) (hd : ∀ b t rest d, Blanks b → s = b ++ (t ++ rest) → ¬ DateAt iso d t rest)
    (ha : ∀ e t rest, ExprText e t → s ≠ t ++ rest) :
    parse c iso now now' s = .err .nomError := by
  have hd1 : ∀ r d, date iso (s.dropWhile Nom.isSp) ≠ .done r d := by
    intro r d h
    obtain ⟨t, h1, h2⟩ := date_done hi h
    refine hd (s.takeWhile Nom.isSp) t r d (fun ch hc => ?_) (by rw [← h2, List.takeWhile_append_dropWhile]) h1
    exact (isSp_iff ch).1 (List.all_eq_true.1 (List.all_takeWhile (l := s) (p := Nom.isSp)) ch hc)
  have hd' : ∀ r d, date iso s ≠ .done r d := by
    intro r d h
    obtain ⟨t, h1, h2⟩ := date_done hi h
    exact hd [] t r d (by simp [Blanks]) h2 h1
  refine parse_none ?_ ?_
  · intro r it e
    unfold iterator at e
    rw [bind_opt_sp, bind_done_iff] at e
    obtain ⟨r', d, h1, -⟩ := e
    exact hd1 _ _ h1
  · intro r t e
    unfold timetype Nom.alt at e
    split at e
    · unfold Nom.alt at e
      split at e
      · cases e
      · rw [bind_done_iff] at e
        obtain ⟨r', a, h1, -⟩ := e
        obtain ⟨t, h2, h3⟩ := C62_only_the_grammar _ _ _ h1
        exact ha _ _ _ h2 h3
    · rw [bind_done_iff] at e
      obtain ⟨r', d, h1, -⟩ := e
      exact hd' _ _ h1

/-- Unfinished texts. -/
example : (∀ s ∈ ["", "5", "5 wee", "tod", "2017-", "+", "5 days +", "today +"],
    parse (std .debug) noIso (at_ 2017 1 1 0 0 0) (at_ 2017 1 1 0 0 0) s.toList ≠ .oof) := by
  intro s _; exact (C55_definite _ _ _ _ _).1

/-! ## C64 -/

theorem parse_dateOffset (c : Cfg) (iso : Iso) (now now' : Moment) (e : ExactDate) (b : TT) (t rest : List Char)
    (o : Option (Operator × AmountExpr)) (h : DateText iso ⟨e, o⟩ t rest) (hr : Stop rest)
    (hb : e.intoTimetype c now = .ok b) :
    parse c iso now now' (t ++ rest) =
      match o with
      | none => .ok (.timeType b)
      | some (.plus, a) => a.intoTimetype c >>= fun x => .ok (.timeType (b + x))
      | some (.minus, a) => a.intoTimetype c >>= fun x => .ok (.timeType (b - x)) := by
  rw [parse_dateText h hr]
  unfold PDate.intoTimetype
  simp only [hb, OutE.ok_bind]
  cases o with
  | none => rfl
  | some p =>
    obtain ⟨op, a⟩ := p
    cases op <;> simp only [OutE.bind_assoc', OutE.ok_bind]

/-- **C64.** The text of a date expression, followed by the end of the input or by something that cannot belong to it, is
parsed as that date plus or minus that amount expression. -/
theorem C64_date_text (c : Cfg) (iso : Iso) (now now' : Moment) (d : PDate) (t rest : List Char) (h : DateText iso d t rest)
    (hr : Stop rest) : parse c iso now now' (t ++ rest) = returned (dateMeans c now d) := by
  rw [parse_dateText h hr, returned_out, date_means]

example := C64_date_text (std .debug) noIso (at_ 2017 1 1 0 0 0) (at_ 2017 1 1 0 0 0) _ _ "!".toList
  (sample_date "!".toList) (by intro ch h; cases h; decide)

/-- **C64.** If the date is a moment `m` and the amounts add up to at most 2^63 - 1 seconds, the result calculates like
`m` plus or minus one single amount of exactly the seconds that the amount expression denotes. -/
theorem C64_value (c : Cfg) (iso : Iso) (now now' : Moment) (e : ExactDate) (m : Moment) (t rest : List Char)
    (op : Operator) (a : AmountExpr) (h : DateText iso ⟨e, some (op, a)⟩ t rest) (hr : Stop rest)
    (hb : exactMeans c now e = .value (.moment m)) (hm : exprMag a ≤ 9223372036854775807) :
    ∃ v u k, parse c iso now now' (t ++ rest) = .ok (.timeType v) ∧ k * u.secs = exprSecs a ∧
      calculate c v = calculate c (if op = .plus then .moment m + amt u k else .moment m - amt u k) := by
  unmean
  have ha : ∃ et, ExprText a et := by
    cases h with
    | mk he ho => cases ho with
      | some _ _ ha => exact ⟨_, ha⟩
  obtain ⟨et, ha⟩ := ha
  have hp := exprText_pos ha
  obtain ⟨k, h1, h2, h3⟩ := C05_amounts_succeed c a.tree (by rw [a.mag_tree hp]; exact hm)
  rw [a.secs_tree] at h2
  have hP := parse_dateOffset c iso now now' e _ t rest _ h hr hb
  rw [hP]
  have hw := a.into_tree (c := c) (weeksFit_of_mag hp hm)
  have h8 := C08_amounts_combined_first c m a.tree
  rw [h1] at h8
  cases op with
  | plus => exact ⟨.moment m + a.tree.toTT, _, k, by simp [hw], h2, by simpa using h8.1⟩
  | minus => exact ⟨.moment m - a.tree.toTT, _, k, by simp [hw], h2, by simpa using h8.2⟩

/-- `tomorrow` has an offset on its own, so only a stepwise reading works there; `today` is a moment. -/
example : DateText noIso ⟨.today, some (.minus, .single ⟨5, .day⟩)⟩ "today - 5days".toList [] ∧
    Stop [] ∧ exprMag (.single ⟨5, .day⟩) = 432000 := by
  refine ⟨?_, (by intro ch h; cases h), by decide⟩
  have h1 : AmountText ⟨5, .day⟩ "5days".toList :=
    .number (b := []) (ds := "5".toList) (b' := []) (unit := .day) (name := "days")
      (by decide) (by decide) (by decide) (by decide) (by decide)
  have h2 : ExprText (.single ⟨5, .day⟩) "5days".toList := .single (b := []) h1 (by decide)
  exact .mk (dt := "today".toList) (.today _) (.some (b := " ".toList) (b' := " ".toList) (by decide) (by decide) h2)

/-! ## C56 -/

theorem keyword_text (iso : Iso) (rest : List Char) :
    DateText iso ⟨.today, none⟩ "today".toList rest ∧ DateText iso ⟨.yesterday, none⟩ "yesterday".toList rest ∧
    DateText iso ⟨.tomorrow, none⟩ "tomorrow".toList rest := by
  refine ⟨?_, ?_, ?_⟩
  · exact DateText.mk (dt := "today".toList) (ot := []) (.today _) .none
  · exact DateText.mk (dt := "yesterday".toList) (ot := []) (.yesterday _) .none
  · exact DateText.mk (dt := "tomorrow".toList) (ot := []) (.tomorrow _) .none

/-- **C56.** `today` is the reading of the clock.
(Partial. Missing: the other two words; `yesterday` is wrong on some days, see `C56_refuted`.) -/
theorem C56_today_partial (c : Cfg) (iso : Iso) (now now' : Moment) (rest : List Char) (hr : Stop rest) :
    parse c iso now now' ("today".toList ++ rest) = .ok (.timeType (.moment now)) :=
  parse_dateOffset c iso now now' .today _ _ _ _ (keyword_text iso rest).1 hr rfl

example (now now' : Moment) := C56_today_partial (std .debug) noIso now now' "!".toList (by intro ch h; cases h; decide)

/-- **C56.** `tomorrow` calculates to exactly one day later, at the same time of day.
(Partial. Missing: the other two words; `yesterday` is wrong on some days, see `C56_refuted`.) -/
theorem C56_tomorrow_partial (c : Cfg) (hc : Sane c) (iso : Iso) (now now' : Moment) (rest : List Char) (hr : Stop rest)
    (hn : now.Valid c) (m' : Moment) (hm' : m'.Valid c) (hz : m'.nano = 0) (hi : m'.instant = now.instant + 86400) :
    ∃ t, parse c iso now now' ("tomorrow".toList ++ rest) = .ok (.timeType t) ∧ calculate c t = .ok (.moment m') :=
  ⟨_, parse_dateOffset c iso now now' .tomorrow _ _ _ _ (keyword_text iso rest).2.2 hr rfl,
    C16_up_to_30_days_partial c hc now m' hn hm' hz .day (by simp) 1 (by decide) (by decide) hi⟩

example := C56_tomorrow_partial (std .debug) (sane_std _) noIso (at_ 2016 12 31 12 0 0) (at_ 2016 12 31 12 0 0) [] (by intro ch h; cases h) (by decide)
  (at_ 2017 1 1 12 0 0) (by decide) rfl (by decide)

/-- **C56 (partial).** `yesterday` calculates to exactly one day earlier, if and only if it is not the first of March,
May, July, October or December; then it is an error. -/
theorem C56_yesterday_partial (c : Cfg) (hc : Sane c) (iso : Iso) (now now' : Moment) (rest : List Char) (hr : Stop rest)
    (hn : now.Valid c) (m' : Moment) (hm' : m'.Valid c) (hz : m'.nano = 0) (hi : m'.instant = now.instant - 86400) :
    ∃ t, parse c iso now now' ("yesterday".toList ++ rest) = .ok (.timeType t) ∧
      ((now.day = 1 ∧ (now.month = 3 ∨ now.month = 5 ∨ now.month = 7 ∨ now.month = 10 ∨ now.month = 12) ∧
        ∃ Y M D H MI S, calculate c t = .err (.outOfBounds Y M D H MI S)) ∨
      (¬ (now.day = 1 ∧ (now.month = 3 ∨ now.month = 5 ∨ now.month = 7 ∨ now.month = 10 ∨ now.month = 12)) ∧
        calculate c t = .ok (.moment m'))) := by
  refine ⟨_, parse_dateOffset c iso now now' .yesterday _ _ _ _ (keyword_text iso rest).2.1 hr rfl, ?_⟩
  have hiff := C21_exact_iff_partial c hc now m' hn hm' hz .day (by simp) 1 (by decide) hi
  simp only [amt] at hiff
  obtain ⟨a1, a2, a3, t, a7⟩ := id hn
  obtain ⟨b1, b2, b3, t', b7⟩ := id hm'
  obtain ⟨v1, v2, v3, v4⟩ := id a3
  have pv := prevMonth_valid (y := now.year) v1 v2
  have hdn : Cal.dayNumber m'.year m'.month m'.day = Cal.dayNumber now.year now.month now.day - 1 := by
    unfold Cal.ValidTime at t t'
    unfold Moment.instant Cal.instant at hi
    omega
  by_cases hd : now.day = 1
  · obtain ⟨e1, e2, e3⟩ := last_of_prev v1 v2 b3 (by rw [hdn, hd])
    have hidx := prev_index (y := now.year) (mo := now.month)
    rw [← e1, ← e2] at hidx
    have hlen : m'.day = Cal.monthLen m'.year m'.month := by rw [e3, ← e1, ← e2]
    have h31 : Cal.monthLen m'.year m'.month = 31 ↔
        ¬ (now.month = 3 ∨ now.month = 5 ∨ now.month = 7 ∨ now.month = 10 ∨ now.month = 12) := by
      have hmm : m'.month = if now.month = 1 then 12 else now.month - 1 := by
        rw [e2]; unfold prevMonth; split <;> rfl
      rw [hmm]
      rcases Cal.month_cases v1 v2 with h | h | h | h | h | h | h | h | h | h | h | h <;> rw [h] <;>
        simp [Cal.monthLen] <;> split <;> omega
    by_cases hmo : now.month = 3 ∨ now.month = 5 ∨ now.month = 7 ∨ now.month = 10 ∨ now.month = 12
    · left
      refine ⟨hd, hmo, ?_⟩
      have hl : ¬ Cal.monthLen m'.year m'.month = 31 := fun h => (h31.1 h) hmo
      rcases C21_days_partial c hc now hn 1 (by decide) (by decide) m'.year m'.month ⟨b3.1, b3.2.1⟩ hidx with
        ⟨g, -⟩ | ⟨-, -, g, -⟩ | ⟨-, -, g⟩
      · omega
      · have := Cal.monthLen_bounds (y := m'.year) b3.1 b3.2.1
        omega
      · exact g
    · right
      refine ⟨fun h => hmo h.2, hiff.2 ?_⟩
      exact .inr ⟨hidx, h31.2 hmo⟩
  · right
    refine ⟨fun h => hd h.1, hiff.2 (.inl ?_)⟩
    have := Cal.dayNumber_inj b3 (y' := now.year) (m' := now.month) (d' := now.day - 1) ⟨v1, v2, by omega, by omega⟩
      (by rw [hdn]; unfold Cal.dayNumber; omega)
    exact ⟨this.1, this.2.1⟩

example := C56_yesterday_partial (std .debug) (sane_std _) noIso (at_ 2017 3 1 12 0 0) (at_ 2017 3 1 12 0 0) [] (by intro ch h; cases h) (by decide)
  (at_ 2017 2 28 12 0 0) (by decide) rfl (by decide)

/-- **C56 refuted.** On 1 March 2017, `yesterday` is an error. -/
theorem C56_refuted (iso : Iso) (now' : Moment) :
    ∃ t, parse (std .debug) iso (at_ 2017 3 1 12 0 0) now' "yesterday".toList = .ok (.timeType t) ∧
      calculate (std .debug) t = .err (.outOfBounds 2017 2 12 12 0 0) := by
  refine ⟨_, parse_dateOffset _ iso _ now' .yesterday _ _ [] _ (keyword_text iso []).2.1 (by intro ch h; cases h) rfl, ?_⟩
  decide +kernel

example : (at_ 2017 3 1 12 0 0).Valid (std .debug) ∧ (at_ 2017 2 28 12 0 0).Valid (std .debug) ∧
    (at_ 2017 2 28 12 0 0).instant = (at_ 2017 3 1 12 0 0).instant - 86400 ∧
    (at_ 2017 1 1 12 0 0).instant = (at_ 2016 12 31 12 0 0).instant + 86400 := by decide

/-! ## C57 -/

/-- **C57 (partial).** A calendar date is midnight of that date; a date-time has that time of day (milliseconds and time
zone are dropped); what does not exist, or is out of chrono's range, is an OutOfBounds error. -/
theorem C57_calendar_dates_partial (c : Cfg) (iso : Iso) (now now' : Moment) (y mo d : Int) (t rest : List Char)
    (h : DateText iso ⟨.iso8601Date (.ymd y mo d), none⟩ t rest) (hr : Stop rest) :
    parse c iso now now' (t ++ rest) =
      if c.minYear ≤ y ∧ y ≤ c.maxYear ∧ Cal.ValidDate y mo d then .ok (.timeType (.moment ⟨y, mo, d, 0, 0, 0, 0⟩))
      else .err (.outOfBounds y mo d 0 0 0) := by
  rw [parse_dateText h hr]
  simp only [PDate.intoTimetype, ExactDate.intoTimetype, fromYmdOpt]
  split <;> rfl

example (iso : Iso) (now now' : Moment) (h0 : ∀ r d, iso.parseDatetime "2017-02-28".toList ≠ .done r d)
    (h : iso.parseDate "2017-02-28".toList = .done [] (.ymd 2017 2 28)) :
    parse (std .debug) iso now now' "2017-02-28".toList = .ok (.timeType (.moment (at_ 2017 2 28 0 0 0))) :=
  C57_calendar_dates_partial (std .debug) iso now now' 2017 2 28 "2017-02-28".toList [] (DateText.mk (dt := "2017-02-28".toList) (ot := [])
    (.date (x := '2') (by decide) (by refine ⟨?_, ?_, ?_⟩ <;> decide) h0 h) .none) (by intro ch h; cases h)

theorem C57_date_times_partial (c : Cfg) (iso : Iso) (now now' : Moment) (y mo d hh mi s ms th tm : Int) (t rest : List Char)
    (h : DateText iso ⟨.iso8601DateTime ⟨.ymd y mo d, hh, mi, s, ms, th, tm⟩, none⟩ t rest) (hr : Stop rest) :
    parse c iso now now' (t ++ rest) =
      if c.minYear ≤ y ∧ y ≤ c.maxYear ∧ Cal.ValidDate y mo d ∧ Cal.ValidTime hh mi s then
        .ok (.timeType (.moment ⟨y, mo, d, hh, mi, s, 0⟩))
      else .err (.outOfBounds y mo d hh mi s) := by
  rw [parse_dateText h hr]
  simp only [PDate.intoTimetype, ExactDate.intoTimetype, fromYmdOpt]
  by_cases h1 : c.minYear ≤ y ∧ y ≤ c.maxYear ∧ Cal.ValidDate y mo d
  · by_cases h2 : Cal.ValidTime hh mi s
    · simp [h1, h2, Date.andHmsOpt, OutE.ofOption]
    · simp [h1, h2, Date.andHmsOpt, OutE.ofOption]
  · have h1' : ¬ (c.minYear ≤ y ∧ y ≤ c.maxYear ∧ Cal.ValidDate y mo d ∧ Cal.ValidTime hh mi s) :=
      fun h => h1 ⟨h.1, h.2.1, h.2.2.1⟩
    simp only [if_neg h1, if_neg h1', OutE.ofOption, Option.bind, OutE.err_bind]

example (iso : Iso) (now now' : Moment) (t : List Char)
    (h : DateText iso ⟨.iso8601DateTime ⟨.ymd 2017 2 28, 23, 59, 60, 0, 0, 0⟩, none⟩ t []) :
    parse (std .debug) iso now now' (t ++ []) = .err (.outOfBounds 2017 2 28 23 59 60) :=
  C57_date_times_partial (std .debug) iso now now' 2017 2 28 23 59 60 0 0 0 t [] h (by intro ch h; cases h)

/-- The moment at midnight of a given day number, from 1 January of year `y` on. -/
theorem midnight_exists (c : Cfg) (y : Int) (h1 : c.minYear ≤ y) (h2 : y + 1 ≤ c.maxYear) (k : Int) (h0 : 0 ≤ k) (hk : k ≤ 380) :
    ∃ m' : Moment, m'.Valid c ∧ m'.nano = 0 ∧ m'.hour = 0 ∧ m'.minute = 0 ∧ m'.second = 0 ∧
      Cal.dayNumber m'.year m'.month m'.day = Cal.dayNumber y 1 1 + k ∧
      (m'.year = y ∨ (m'.year = y + 1 ∧ m'.month = 1 ∧ m'.day ≤ 30)) := by
  obtain ⟨y', mo, d, v, e⟩ := Cal.date_exists (Cal.dayNumber y 1 1 + k)
  have hd := Cal.dayOfYear_bounds v
  rw [Cal.dayNumber_eq, Cal.dayNumber_newYear] at e
  have yl := Cal.yearLen_bounds y
  have s1 := Cal.daysBeforeYear_succ y
  have s2 := Cal.daysBeforeYear_succ (y + 1)
  have yl2 := Cal.yearLen_bounds (y + 1)
  have hy : y' = y ∨ y' = y + 1 := by
    by_cases c1 : y' < y
    · have := Cal.daysBeforeYear_mono c1
      omega
    · by_cases c2 : y + 1 < y'
      · have := (Cal.daysBeforeYear_ge (y := y + 1 + 1) (y' := y') (by omega)).1
        omega
      · omega
  have hr : y' = y ∨ (y' = y + 1 ∧ mo = 1 ∧ d ≤ 30) := by
    rcases hy with rfl | rfl
    · exact .inl rfl
    · right
      have hm : mo = 1 := by
        by_cases hm : mo = 1
        · exact hm
        · exfalso
          have := Cal.daysBeforeMonth_mono (y + 1) (m := 1) (m' := mo) (by decide) v.2.1 (by have := v.1; omega)
          rw [Cal.daysBeforeMonth_one] at this
          have m1 : Cal.monthLen (y + 1) 1 = 31 := rfl
          unfold Cal.dayOfYear at *
          have := v.2.2.1
          omega
      subst hm
      refine ⟨rfl, rfl, ?_⟩
      unfold Cal.dayOfYear at *
      rw [Cal.daysBeforeMonth_one] at *
      omega
  refine ⟨⟨y', mo, d, 0, 0, 0, 0⟩, ⟨?_, ?_, v, by simp [Cal.ValidTime], by simp, by simp⟩, rfl, rfl, rfl, rfl, ?_, hr⟩
  · simp only; omega
  · simp only; omega
  · simp only; rw [Cal.dayNumber_eq, Cal.dayNumber_newYear]; omega

/-- Adding days to 1 January 00:00, up to 380 of them in total, is exact. -/
theorem newYear_plus (c : Cfg) (hc : Sane c) (y k : Int) (h1 : c.minYear ≤ y) (h2 : y + 1 ≤ c.maxYear) (h0 : 0 ≤ k) (hk : k ≤ 380)
    (m : Moment) (hm : m.Valid c) (ht : m.hour = 0 ∧ m.minute = 0 ∧ m.second = 0)
    (j : Int) (hjk : j ≤ k) (hd : Cal.dayNumber m.year m.month m.day = Cal.dayNumber y 1 1 + j)
    (hy : m.year = y ∨ (m.year = y + 1 ∧ m.month = 1 ∧ m.day ≤ 30)) :
    ∃ m' : Moment, calculate c (.moment m + .days (k - j)) = .ok (.moment m') ∧ m'.Valid c ∧ m'.nano = 0 ∧
      (m'.hour = 0 ∧ m'.minute = 0 ∧ m'.second = 0) ∧
      Cal.dayNumber m'.year m'.month m'.day = Cal.dayNumber y 1 1 + k ∧
      (m'.year = y ∨ (m'.year = y + 1 ∧ m'.month = 1 ∧ m'.day ≤ 30)) := by
  obtain ⟨m', v', z', t1, t2, t3, d', y'⟩ := midnight_exists c y h1 h2 k h0 hk
  refine ⟨m', ?_, v', z', ⟨t1, t2, t3⟩, d', y'⟩
  have := C16_exact_iff_partial c hc m m' hm v' z' .day (by simp) (k - j) (by omega) (by
    unfold Moment.instant Cal.instant
    rw [hd, d', ht.1, ht.2.1, ht.2.2, t1, t2, t3]
    simp only [TUnit.secs]
    omega)
  simp only [amt] at this
  rw [this]
  rcases y' with y' | y'
  · rcases hy with hy | hy
    · left; omega
    · exfalso
      have := (Cal.daysBeforeYear_mono (y := y) (y' := y + 1) (by omega))
      have a := Cal.dayOfYear_bounds v'.2.2.1
      have b := Cal.dayOfYear_bounds hm.2.2.1
      rw [Cal.dayNumber_eq] at hd d'
      rw [y'] at d' a
      rw [hy.1] at hd b
      omega
  · rcases hy with hy | hy
    · exact .inr ⟨by omega, .inl y'.2⟩
    · left; omega

theorem newYear_ok (c : Cfg) (y : Int) (h1 : c.minYear ≤ y) (h2 : y ≤ c.maxYear) :
    newYear c y = .ok (.moment ⟨y, 1, 1, 0, 0, 0, 0⟩) := by
  have : Cal.ValidDate y 1 1 := by simp [Cal.ValidDate, Cal.monthLen]
  simp only [newYear, fromYmdOpt, if_pos (show c.minYear ≤ y ∧ y ≤ c.maxYear ∧ Cal.ValidDate y 1 1 from ⟨h1, h2, this⟩)]
  rfl

/-- **C57 refuted for ordinal dates**, all of them: day `ddd` of a year becomes day `ddd + 1`. -/
theorem C57_refuted_ordinal (c : Cfg) (hc : Sane c) (iso : Iso) (now now' : Moment) (y ddd : Int) (t rest : List Char)
    (h : DateText iso ⟨.iso8601Date (.ordinal y ddd), none⟩ t rest) (hr : Stop rest)
    (h1 : c.minYear ≤ y) (h2 : y + 1 ≤ c.maxYear) (hd : 1 ≤ ddd ∧ ddd ≤ Cal.yearLen y) :
    ∃ v m', parse c iso now now' (t ++ rest) = .ok (.timeType v) ∧ calculate c v = .ok (.moment m') ∧
      m'.hour = 0 ∧ m'.minute = 0 ∧ m'.second = 0 ∧
      Cal.dayNumber m'.year m'.month m'.day = (Cal.dayNumber y 1 1 + (ddd - 1)) + 1 := by
  have yl := Cal.yearLen_bounds y
  have hv : (⟨y, 1, 1, 0, 0, 0, 0⟩ : Moment).Valid c :=
    ⟨h1, by simp only; omega, by simp [Cal.ValidDate, Cal.monthLen], by simp [Cal.ValidTime], by simp, by simp⟩
  obtain ⟨m', e, -, -, ht, hdn, -⟩ := newYear_plus c hc y ddd h1 h2 (by omega) (by omega) ⟨y, 1, 1, 0, 0, 0, 0⟩ hv
    ⟨rfl, rfl, rfl⟩ 0 (by omega) (by simp) (.inl rfl)
  refine ⟨_, m', ?_, e, ht.1, ht.2.1, ht.2.2, by omega⟩
  rw [parse_dateText h hr]
  simp only [PDate.intoTimetype, ExactDate.intoTimetype, newYear_ok c y h1 (by omega), OutE.ok_bind, Int.sub_zero]

/-- **C57 refuted for week dates**, all of them: the result is 5 to 11 days later than the ISO date. -/
theorem C57_refuted_week (c : Cfg) (hc : Sane c) (iso : Iso) (now now' : Moment) (y ww d : Int) (t rest : List Char)
    (h : DateText iso ⟨.iso8601Date (.week y ww d), none⟩ t rest) (hr : Stop rest)
    (h1 : c.minYear ≤ y) (h2 : y + 1 ≤ c.maxYear) (hw : 1 ≤ ww ∧ ww ≤ 53) (hd : 1 ≤ d ∧ d ≤ 7) :
    ∃ v m', parse c iso now now' (t ++ rest) = .ok (.timeType v) ∧ calculate c v = .ok (.moment m') ∧
      m'.hour = 0 ∧ m'.minute = 0 ∧ m'.second = 0 ∧
      isoWeekDay y ww d + 5 ≤ Cal.dayNumber m'.year m'.month m'.day ∧
      Cal.dayNumber m'.year m'.month m'.day ≤ isoWeekDay y ww d + 11 := by
  have hv : (⟨y, 1, 1, 0, 0, 0, 0⟩ : Moment).Valid c :=
    ⟨h1, by simp only; omega, by simp [Cal.ValidDate, Cal.monthLen], by simp [Cal.ValidTime], by simp, by simp⟩
  obtain ⟨m1, e1, v1, -, t1, d1, y1⟩ := newYear_plus c hc y (7 * ww) h1 h2 (by omega) (by omega) ⟨y, 1, 1, 0, 0, 0, 0⟩ hv
    ⟨rfl, rfl, rfl⟩ 0 (by omega) (by simp) (.inl rfl)
  obtain ⟨m', e2, -, -, ht, hdn, -⟩ := newYear_plus c hc y (7 * ww + d) h1 h2 (by omega) (by omega) m1 v1 t1 (7 * ww)
    (by omega) d1 y1
  rw [show 7 * ww + d - 7 * ww = d by omega] at e2
  rw [Int.sub_zero] at e1
  refine ⟨.moment ⟨y, 1, 1, 0, 0, 0, 0⟩ + .days (7 * ww) + .days d, m', ?_, ?_, ht.1, ht.2.1, ht.2.2, ?_⟩
  · rw [parse_dateText h hr]
    simp only [PDate.intoTimetype, ExactDate.intoTimetype, newYear_ok c y h1 (by omega), OutE.ok_bind,
      weeks_ok (c := c) (n := ww) (by unfold InI64; omega)]
  · have := (C07_chain_partial c (.moment ⟨y, 1, 1, 0, 0, 0, 0⟩) (.days (7 * ww)) .day d).1
    simp only [amt] at this
    rw [this, e1]
    exact e2
  · rw [hdn]
    unfold isoWeekDay Cal.weekday Cal.dayNumber
    omega

/-- `2017-001` is 1 January 2017 and `2017-W01-1` is 2 January 2017; the code says 2 and 9 January. -/
example : isoWeekDay 2017 1 1 = Cal.dayNumber 2017 1 2 ∧
    exactMeans (std .debug) (at_ 2017 1 1 0 0 0) (.iso8601Date (.ordinal 2017 1)) = .value (.moment (at_ 2017 1 1 0 0 0) + .days 1) ∧
    calculate (std .debug) (.moment (at_ 2017 1 1 0 0 0) + .days 7 + .days 1) = .ok (.moment (at_ 2017 1 9 0 0 0)) := by
  decide +kernel

/-- The hypotheses about the text hold if the ISO 8601 parser recognises a prefix that does not begin with a blank or a
keyword. -/
example (iso : Iso) (h0 : ∀ r d, iso.parseDatetime "2017-001".toList ≠ .done r d)
    (h : iso.parseDate "2017-001".toList = .done [] (.ordinal 2017 1)) :
    DateText iso ⟨.iso8601Date (.ordinal 2017 1), none⟩ "2017-001".toList [] :=
  DateText.mk (dt := "2017-001".toList) (ot := [])
    (.date (x := '2') (by decide) (by refine ⟨?_, ?_, ?_⟩ <;> decide) h0 h) .none

/-! ## C54 -/

/-- **C54.** The text of an iterator: `d` is its date expression, `n unit` its step, `u` its bound. If the date expression
evaluates to `m` (and the step is not an overflowing number of weeks), `parse` returns the iterator from `m` with that
step; with `times k` around it, or with `until` and the value of the second date. -/
theorem C54_iterator_text (c : Cfg) (iso : Iso) (now now' : Moment) (d : PDate) (unit : TimeUnit) (n : Int)
    (u : Option UntilSpec) (t : List Char) (h : IterText iso d unit n u t)
    (hw : unit = .week → InI64 (7 * n)) (v : TT) (m : Moment) (hv : dateMeans c now d = .value v)
    (hm : calculate c v = .ok (.moment m)) :
    (u = none → parse c iso now now' t = .ok (.iterator (.ok (.iterator ⟨.moment m, unitAmount unit n, false⟩)))) ∧
    (∀ k, u = some (.times k) → parse c iso now now' t =
      .ok (.iterator (.ok (.timesIter (timesNew ⟨.moment m, unitAmount unit n, false⟩ k))))) ∧
    (∀ e w m', u = some (.exact e) → exactMeans c now' e = .value w → calculate c w = .ok (.moment m') →
      parse c iso now now' t = .ok (.iterator (.ok (.untilIterator ⟨.moment m, unitAmount unit n, false⟩ m')))) := by
  unmean
  obtain ⟨step, hs, e⟩ := parse_iterText (c := c) (now := now) (now' := now') h
  rw [e]
  rw [unitToAmount_eq c n unit hw] at hs
  have hn : intoNdt c v = .ok m := by simp only [intoNdt, hm, OutE.ok_bind]; rfl
  have hbuild : Iter.build m (unitAmount unit n) = .ok ⟨.moment m, unitAmount unit n, false⟩ := by
    simp [Iter.build, unitAmount_isAAmount]
  refine ⟨?_, ?_, ?_⟩
  · rintro rfl
    simp only [PIterator.intoUserIterator, hs, hv, hn, hbuild, OutE.ok_bind, wrapIterator]
  · rintro k rfl
    simp only [PIterator.intoUserIterator, hs, hv, hn, hbuild, OutE.ok_bind, wrapIterator]
  · rintro e w m' rfl hw' hm'
    have hn' : intoNdt c w = .ok m' := by simp only [intoNdt, hm', OutE.ok_bind]; rfl
    simp only [PIterator.intoUserIterator, hs, hv, hn, hw', hn', hbuild, OutE.ok_bind, wrapIterator]

example := C54_iterator_text (std .debug) noIso (at_ 2017 2 28 8 30 0) (at_ 2017 2 28 8 30 0) _ _ _ _ _ sample_week_until (by decide)
  (.moment (at_ 2017 2 28 8 30 0)) (at_ 2017 2 28 8 30 0) rfl (by decide +kernel)

/-- **C54.** If the date does not evaluate, `parse` still succeeds, and holds the error. -/
theorem C54_bad_start (c : Cfg) (iso : Iso) (now now' : Moment) (d : PDate) (unit : TimeUnit) (n : Int)
    (u : Option UntilSpec) (t : List Char) (h : IterText iso d unit n u t)
    (hw : unit = .week → InI64 (7 * n)) (v : TT) (k : ErrorKind)
    (hv : dateMeans c now d = .refused k ∨ (dateMeans c now d = .value v ∧ calculate c v = .err k)) :
    parse c iso now now' t = .ok (.iterator (.error k)) := by
  unmean
  obtain ⟨step, hs, e⟩ := parse_iterText (c := c) (now := now) (now' := now') h
  rw [e]
  rw [unitToAmount_eq c n unit hw] at hs
  have : PIterator.intoUserIterator c now now' ⟨d, step, u⟩ = .err k := by
    unfold PIterator.intoUserIterator
    simp only [hs, OutE.ok_bind]
    rcases hv with hv | ⟨hv, hk⟩
    · split <;> simp only [hv, OutE.err_bind]
    · split <;> simp only [hv, OutE.ok_bind, intoNdt, hk, OutE.err_bind]
  rw [this]; rfl

/-- `"tomorrow  every 3 hours 5 times"` -/
example : IterText noIso ⟨.tomorrow, none⟩ .hour 3 (some (.times 5)) "tomorrow  every 3 hours 5 times".toList :=
  IterText.mk (b0 := []) (dt := "tomorrow".toList) (ot := []) (b1 := "  ".toList) (st := "every 3 hours".toList)
    (b2 := " ".toList) (ut := "5 times".toList) (by decide) (ExactText.tomorrow _) .none (by decide) (by decide)
    (StepText.every (b := " ".toList) (ds := "3".toList) (b' := " ".toList) (unit := .hour) (name := "hours")
      (by decide) (by decide) (by decide) (by decide) (by decide))
    (by decide) (BoundText.times (ds := "5".toList) (b := " ".toList) (by decide) (by decide) (by decide)) (by decide)

/-- `"today weekly until tomorrow"` -/
example : IterText noIso ⟨.today, none⟩ .week 1 (some (.exact .tomorrow)) "today weekly until tomorrow".toList :=
  IterText.mk (b0 := []) (dt := "today".toList) (ot := []) (b1 := " ".toList) (st := "weekly".toList)
    (b2 := " ".toList) (ut := "until tomorrow".toList) (by decide) (ExactText.today _) .none (by decide) (by decide)
    (StepText.alias .week) (by decide)
    (BoundText.untilDate (b := " ".toList) (t := "tomorrow".toList) (by decide) (ExactText.tomorrow _)) (by decide)

example : calculate (std .debug) (.moment (at_ 2017 2 28 8 30 0) + .days 1) = .ok (.moment (at_ 2017 3 1 8 30 0)) := by
  decide +kernel

end Props
