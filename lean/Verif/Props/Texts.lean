import Verif.Lemmas.Display
import Verif.Lemmas.Parser
import Verif.Lemmas.ErrorOperands
import Verif.Spec.Text
import Verif.Spec.Chain
import Verif.Props.Program

/-!
# C87, C88: the texts that are printed for results and errors
-/

namespace Props
open Kairos Kairos.Text Spec

/-! ## Numbers -/

theorem isDigit_mem {ch : Char} (h : ch.isDigit = true) : ch ∈ "0123456789".toList := (Parser.isDigit_iff ch).1 h

theorem decimal_value {ds : List Char} (h : ∀ ch ∈ ds, ch.isDigit = true) : decimal ds = Nat.ofDigitChars 10 ds 0 := by
  rw [Nat.ofDigitChars_eq_foldl, Parser.decimal_foldl (fun ch hc => isDigit_mem (h ch hc)), Nat.zero_mul, Nat.zero_add]

theorem numeral_digits (n : Nat) : Numeral (digits n) n := by
  refine ⟨⟨digits_ne_nil n, fun ch h => isDigit_mem (digits_isDigit n ch h)⟩, ?_⟩
  rw [decimal_value (digits_isDigit n), value_digits]

theorem numeral_pad (w n : Nat) : Numeral (pad w n) n := by
  refine ⟨⟨?_, fun ch h => isDigit_mem (pad_isDigit w n ch h)⟩, ?_⟩
  · unfold pad
    have := digits_ne_nil n
    simp [this]
  · rw [decimal_value (pad_isDigit w n), value_pad]

theorem numeralOf_pad {w n : Nat} (hw : 0 < w) (h : n < 10 ^ w) : NumeralOf w (pad w n) n :=
  ⟨numeral_pad w n, pad_length hw h⟩

theorem pad_length_le (w n : Nat) : w ≤ (pad w n).length := by
  unfold pad
  rw [List.length_append, List.length_replicate]
  omega

/-! ## C87 -/

theorem shown_of_proper {c : Cfg} {m : Moment} (h : Proper c m) : Shown m := by
  obtain ⟨⟨_, _, hd, ht, h1, h2⟩, h3⟩ := h
  unfold Cal.ValidDate at hd
  unfold Cal.ValidTime at ht
  unfold Shown
  omega

theorem allMoments_mono {P Q : Moment → Prop} (h : ∀ m, P m → Q m) : ∀ {t : TT}, AllMoments P t → AllMoments Q t
  | .moment _, ht => h _ ht
  | .addition _ _, ht => ⟨allMoments_mono h ht.1, allMoments_mono h ht.2⟩
  | .subtraction _ _, ht => ⟨allMoments_mono h ht.1, allMoments_mono h ht.2⟩
  | .endOfYear t, ht => allMoments_mono (t := t) h ht
  | .endOfMonth t, ht => allMoments_mono (t := t) h ht
  | .endOfDay t, ht => allMoments_mono (t := t) h ht
  | .endOfHour t, ht => allMoments_mono (t := t) h ht
  | .endOfMinute t, ht => allMoments_mono (t := t) h ht
  | .seconds _, _ => trivial
  | .minutes _, _ => trivial
  | .hours _, _ => trivial
  | .days _, _ => trivial
  | .months _, _ => trivial
  | .years _, _ => trivial

/-- **C87.** The program prints different values differently: from a printed line the value can be told, with its unit, to the nanosecond. -/
theorem C87_told_apart (c : Cfg) (t t' : TT) (ht : AllMoments (Proper c) t) (ht' : AllMoments (Proper c) t')
    (h : prettyPrint t = prettyPrint t') : t = t' :=
  form_inj (allMoments_mono (fun _ => shown_of_proper) ht) (allMoments_mono (fun _ => shown_of_proper) ht')
    (prettyPrint_form t) (prettyPrint_form t') h

/-- Both a leap second at the end of a minute and the moment a second before it are such values, and they are printed differently. -/
example (p : Profile) : AllMoments (Proper (std p)) (.moment { at_ 2016 12 31 23 59 59 with nano := 1000000000 }) ∧
    AllMoments (Proper (std p)) (.moment (at_ 2016 12 31 23 59 59)) ∧
    prettyPrint (.moment { at_ 2016 12 31 23 59 59 with nano := 1000000000 }) ≠ prettyPrint (.moment (at_ 2016 12 31 23 59 59)) := by
  have h1 : AllMoments (Proper (std p)) (.moment { at_ 2016 12 31 23 59 59 with nano := 1000000000 }) := by
    cases p <;> exact ⟨by decide +kernel, fun _ => rfl⟩
  have h2 : AllMoments (Proper (std p)) (.moment (at_ 2016 12 31 23 59 59)) := by
    cases p <;> exact ⟨by decide +kernel, fun _ => rfl⟩
  refine ⟨h1, h2, fun h => ?_⟩
  have := congrArg (fun t => t.getMoment.map Moment.nano) (C87_told_apart _ _ _ h1 h2 h)
  revert this
  decide

/-- **C87.** Expressions, too, are told apart by their debug text. -/
theorem C87_debug_told_apart (c : Cfg) (t t' : TT) (ht : AllMoments (Proper c) t) (ht' : AllMoments (Proper c) t')
    (h : debug t = debug t') : t = t' :=
  (debug_inj (r := []) (r' := []) (allMoments_mono (fun _ => shown_of_proper) ht)
    (allMoments_mono (fun _ => shown_of_proper) ht') (by simpa using h)).1

example (h : debug (.days 3 + .hours 2) = debug (.hours 2 + .days 3)) := C87_debug_told_apart (std .debug) (.days 3 + .hours 2) (.hours 2 + .days 3)
  (by simp [AllMoments, TT.hadd_def]) (by simp [AllMoments, TT.hadd_def]) h

/-- **C87.** An amount is printed as its number in decimal digits, with a `-` before it exactly if it is negative, a blank and the unit. -/
theorem C87_amount (u : TUnit) (n : Int) :
    ∃ ds, Numeral ds n.natAbs ∧
      prettyPrint (amt u n) = (if n < 0 then ['-'] else []) ++ ds ++ ' ' :: (unitLabel u).toList := by
  refine ⟨digits n.natAbs, numeral_digits _, ?_⟩
  have hs : prettyPrint (amt u n) = int n ++ ' ' :: (unitLabel u).toList := by
    cases u <;> simp [prettyPrint, amt, unitLabel]
  rw [hs]
  unfold int
  split <;> simp

/-- **C87.** A moment of the years 0 to 9999 without fraction is printed as `YYYY-MM-DD hh:mm:ss`, followed by a blank: numbers of four and two digits that
are its year, month, day, hour, minute and second. -/
theorem C87_moment (c : Cfg) (m : Moment) (hm : m.Valid c) (hy : 0 ≤ m.year ∧ m.year ≤ 9999) (hn : m.nano = 0) :
    ∃ y mo d h mi s, NumeralOf 4 y m.year ∧ NumeralOf 2 mo m.month ∧ NumeralOf 2 d m.day ∧ NumeralOf 2 h m.hour ∧
      NumeralOf 2 mi m.minute ∧ NumeralOf 2 s m.second ∧
      prettyPrint (.moment m) = y ++ '-' :: mo ++ '-' :: d ++ ' ' :: h ++ ':' :: mi ++ ':' :: s ++ [' '] := by
  obtain ⟨_, _, hd, ht, h1, h2⟩ := hm
  unfold Cal.ValidDate at hd
  have hlen := Cal.monthLen_bounds (y := m.year) hd.1 hd.2.1
  unfold Cal.ValidTime at ht
  have key : ∀ w (x : Int), 0 < w → 0 ≤ x → x < (10 ^ w : Nat) → NumeralOf w (pad w x.toNat) x := by
    intro w x hw h0 hx
    have := numeralOf_pad (n := x.toNat) hw (by omega)
    rwa [Int.toNat_of_nonneg h0] at this
  refine ⟨pad 4 m.year.toNat, pad 2 m.month.toNat, pad 2 m.day.toNat, pad 2 m.hour.toNat, pad 2 m.minute.toNat,
    pad 2 m.second.toNat, key _ _ (by decide) (by omega) (by omega), key _ _ (by decide) (by omega) (by omega),
    key _ _ (by decide) (by omega) (by omega), key _ _ (by decide) (by omega) (by omega),
    key _ _ (by decide) (by omega) (by omega), key _ _ (by decide) (by omega) (by omega), ?_⟩
  simp only [prettyPrint, moment, date, time, year, hn, hy, and_self, if_true]
  simp [fraction]

example := C87_moment (std .debug) (at_ 2017 2 28 8 30 0) (by decide) (by decide) rfl

/-- **C87.** Years outside 0 to 9999 are printed with a sign and at least four digits. -/
theorem C87_other_years (m : Moment) (hy : ¬ (0 ≤ m.year ∧ m.year ≤ 9999)) :
    ∃ y rest, Numeral y m.year.natAbs ∧ 4 ≤ y.length ∧
      prettyPrint (.moment m) = (if m.year < 0 then '-' else '+') :: y ++ '-' :: rest := by
  refine ⟨pad 4 m.year.natAbs, (pad 2 m.month.toNat ++ '-' :: pad 2 m.day.toNat) ++ ' ' :: (time m ++ [' ']),
    numeral_pad _ _, pad_length_le _ _, ?_⟩
  simp only [prettyPrint, moment, date, year, hy, if_false]
  simp

example := C87_other_years (at_ (-44) 3 15 0 0 0) (by decide)

/-- The texts are those of the lines the program prints (C74). -/
theorem line_prettyPrint (t : TT) : line (Main.prettyPrint t) = some (prettyPrint t) := by
  cases t <;> simp [line, Main.prettyPrint, prettyPrint]

/-- **C87.** `<date> every <n> <unit> <N> times` with a step of at most 30 days prints `N` lines, each the text of a moment, and no two of them are the
same. -/
theorem C87_times_lines (c : Cfg) (hc : Sane c) (iso : Parser.Iso) (now now' : Moment) (args : List (List Char)) (d : Parser.PDate)
    (unit : Parser.TimeUnit) (n N : Int) (h : IterText iso d unit n (some (.times N)) (Main.commandLine args))
    (hu : unit ≠ .month ∧ unit ≠ .year) (hn : 0 < n) (hmax : n * unitSecs unit ≤ 30 * 86400) (v : TT) (m : Moment)
    (hv : dateMeans c now d = .value v) (hcalc : calculate c v = .ok (.moment m)) (hm : Proper c m)
    (hrange : m.instant + N * (n * unitSecs unit) < Cal.instant (c.maxYear + 1) 1 1 0 0 0) (rounds : Nat) (hr : N < rounds) :
    ∃ ls : List (List Char), (ls.length : Int) = N ∧ (Main.main c iso now now' rounds args).ending = .finished ∧
      (Main.main c iso now now' rounds args).lines.map line = ls.map some ∧ ls.Nodup := by
  obtain ⟨ms, hlen, hmain, hms⟩ := C74_times c hc iso now now' args d unit n N h hu hmax v m hv hcalc hm.1 hrange rounds hr
  have hpos : 0 < n * unitSecs unit := Int.mul_pos hn (by cases unit <;> first | decide | exact absurd rfl hu.1 | exact absurd rfl hu.2)
  have proper : ∀ (k : Nat) r, ms[k]? = some r → Proper c r := by
    intro k r hk
    obtain ⟨h1, h2, h3⟩ := hms k r hk
    refine ⟨h1, fun hnano => ?_⟩
    by_cases h0 : k = 0
    · subst h0
      simp only [if_true] at h3
      have h2 : r.instant = m.instant := by simpa using h2
      obtain ⟨-, -, -, -, -, e⟩ := Cal.instant_inj h1.2.2.1 hm.1.2.2.1 h1.2.2.2.1 hm.1.2.2.2.1 h2
      rw [e]
      exact hm.2 (by omega)
    · rw [if_neg h0] at h3
      omega
  refine ⟨ms.map fun r => prettyPrint (.moment r), by simpa using hlen, by rw [hmain], ?_, ?_⟩
  · rw [hmain]
    simp [line, prettyPrint]
  · rw [List.nodup_iff_pairwise_ne, List.pairwise_iff_getElem]
    intro i j hi hj hij heq
    rw [List.length_map] at hj
    rw [List.getElem_map, List.getElem_map] at heq
    have hi' : ms[i]? = some (ms[i]'(by omega)) := List.getElem?_eq_getElem _
    have hj' : ms[j]? = some ms[j] := List.getElem?_eq_getElem _
    have e := TT.moment.inj (C87_told_apart c _ _ (proper i _ hi') (proper j _ hj') heq)
    have a := (hms i _ hi').2.1
    have b := (hms j _ hj').2.1
    rw [e, b] at a
    have : (i : Int) * (n * unitSecs unit) < j * (n * unitSecs unit) := Int.mul_lt_mul_of_pos_right (by omega) hpos
    omega

example : IterText noIso ⟨.today, none⟩ .day 1 (some (.times 3)) (Main.commandLine ["today".toList, "daily".toList, "3".toList, "times".toList]) ∧
    dateMeans (std .debug) (at_ 2017 1 1 0 0 0) ⟨.today, none⟩ = .value (.moment (at_ 2017 1 1 0 0 0)) := by
  refine ⟨?_, by decide +kernel⟩
  rw [show Main.commandLine ["today".toList, "daily".toList, "3".toList, "times".toList] = "today daily 3 times".toList by decide +kernel]
  exact IterText.mk (b0 := []) (dt := "today".toList) (ot := []) (b1 := " ".toList) (st := "daily".toList) (b2 := " ".toList)
    (ut := "3 times".toList) (by decide) (ExactText.today _) .none (by decide) (by decide) (StepText.alias .day) (by decide)
    (BoundText.times (ds := "3".toList) (b := " ".toList) (by decide) (by decide) (by decide)) (by decide)

/-- **C87.** The exclusion is needed: a leap second inside a minute (which chrono's constructors accept) prints like the second after. -/
theorem C87_leap_inside_a_minute : (⟨2018, 1, 1, 10, 0, 5, 1000000000⟩ : Moment).Valid (std .debug) ∧ (⟨2018, 1, 1, 10, 0, 6, 0⟩ : Moment).Valid (std .debug) ∧
    prettyPrint (.moment ⟨2018, 1, 1, 10, 0, 5, 1000000000⟩) = prettyPrint (.moment ⟨2018, 1, 1, 10, 0, 6, 0⟩) := by
  decide +kernel

example : prettyPrint (.moment ⟨2018, 1, 9, 10, 0, 6, 0⟩) = "2018-01-09 10:00:06 ".toList := by decide +kernel
example : prettyPrint (.moment ⟨-5, 12, 31, 23, 59, 59, 1500000000⟩) = "-0005-12-31 23:59:60.500 ".toList := by decide +kernel
example : prettyPrint (.seconds (-42)) = "-42 Seconds".toList := by decide +kernel
example : Proper (std .debug) ⟨2016, 12, 31, 23, 59, 59, 1500000000⟩ := by unfold Proper; decide +kernel
example : AllMoments (Proper (std .debug)) (.addition (.moment ⟨2018, 1, 1, 0, 0, 0, 0⟩) (.days 3)) :=
  ⟨show Proper (std .debug) _ by unfold Proper; decide +kernel, trivial⟩

/-! ## C88 -/

/-- An error of the library itself (the error of nom is passed on as it is), naming proper moments and a month to second of the type `u32`. -/
def OwnError (c : Cfg) (e : ErrorKind) : Prop :=
  e ≠ .nomError ∧ (∀ t ∈ operands e, AllMoments (Proper c) t) ∧
  ∀ y mo d h mi s, e = .outOfBounds y mo d h mi s → 0 ≤ mo ∧ 0 ≤ d ∧ 0 ≤ h ∧ 0 ≤ mi ∧ 0 ≤ s

theorem shown_of_own {c : Cfg} {e : ErrorKind} (h : OwnError c e) : ShownError e := by
  obtain ⟨h1, h2, h3⟩ := h
  have up : ∀ t, AllMoments (Proper c) t → AllMoments Shown t := fun t => allMoments_mono (fun _ => shown_of_proper)
  cases e with
  | cannotAdd a b => exact ⟨up _ (h2 a (by simp [operands])), up _ (h2 b (by simp [operands]))⟩
  | cannotSub a b => exact ⟨up _ (h2 a (by simp [operands])), up _ (h2 b (by simp [operands]))⟩
  | argumentErrorNotAnAmount t => exact up _ (h2 t (by simp [operands]))
  | cannotCalculateEndOfYearOn t => exact up _ (h2 t (by simp [operands]))
  | cannotCalculateEndOfMonthOn t => exact up _ (h2 t (by simp [operands]))
  | outOfBounds y mo d h mi s => exact h3 y mo d h mi s rfl
  | nomError => exact absurd rfl h1
  | _ => trivial

/-- **C88.** The text of an error identifies it: two errors with the same text are of the same kind and name the same expressions and numbers. -/
theorem C88_told_apart (c : Cfg) (e e' : ErrorKind) (he : OwnError c e) (he' : OwnError c e') (h : error e = error e') : e = e' :=
  error_inj (shown_of_own he) (shown_of_own he') h

example : error (.cannotAdd (.days 3) (.hours 2)) ≠ error (.cannotSub (.days 3) (.hours 2)) := fun h =>
  nomatch C88_told_apart (std .debug) (.cannotAdd (.days 3) (.hours 2)) (.cannotSub (.days 3) (.hours 2))
    ⟨(fun h => nomatch h), (by intro t ht; simp [operands] at ht; rcases ht with rfl | rfl <;> trivial), (fun _ _ _ _ _ _ e => nomatch e)⟩
    ⟨(fun h => nomatch h), (by intro t ht; simp [operands] at ht; rcases ht with rfl | rfl <;> trivial), (fun _ _ _ _ _ _ e => nomatch e)⟩ h

theorem own_of_calculate {c : Cfg} (hc : Sane c) {t : TT} {e : ErrorKind} (ht : AllMoments (Proper c) t)
    (h : calculate c t = .err e) : OwnError c e := by
  have h1 := (calculate_named (by have := hc.1; omega) (by have := hc.2.2; omega) (allMoments_mono (fun _ hm => hm.1) ht)).2 e h
  have h2 := (calculate_err_inv (P := Proper c) (fun m hm => ⟨hm.1, by rw [hm.2]; intro h; omega⟩) ht).2 e h
  cases e <;> simp only [Named] at h1 <;> refine ⟨(by intro h; cases h), ?_, ?_⟩ <;>
    first
    | (intro y mo d h mi s e; cases e; done)
    | (intro t ht; simp only [operands, List.mem_cons, List.not_mem_nil, or_false] at ht
       rcases ht with rfl | rfl
       · exact h2.1
       · exact h2.2)
    | (intro t ht; simp only [operands, List.mem_cons, List.not_mem_nil, or_false] at ht; subst ht; exact h2)
    | (intro t ht; cases ht; done)
    | (intro y mo d h mi s e; injection e; omega)

/-- **C88.** So the text of a failed `calculate` tells exactly which error it was. -/
theorem C88_calculate_told_apart (c : Cfg) (hc : Sane c) (t t' : TT) (ht : AllMoments (Proper c) t)
    (ht' : AllMoments (Proper c) t') (e e' : ErrorKind) (h : calculate c t = .err e) (h' : calculate c t' = .err e')
    (heq : error e = error e') : e = e' :=
  C88_told_apart c e e' (own_of_calculate hc ht h) (own_of_calculate hc ht' h') heq

example := C88_calculate_told_apart (std .debug) (sane_std _) (.moment (at_ 2017 6 15 7 8 9) + .moment (at_ 2017 6 15 7 8 9))
  (.moment (at_ 2017 6 15 7 8 9) + .moment (at_ 2017 6 15 7 8 9) + .days 2) (by simp [AllMoments, TT.hadd_def, Proper]; decide)
  (by simp [AllMoments, TT.hadd_def, Proper]; decide) 
  (.cannotAdd (.moment (at_ 2017 6 15 7 8 9)) (.moment (at_ 2017 6 15 7 8 9))) (.cannotAdd (.moment (at_ 2017 6 15 7 8 9)) (.moment (at_ 2017 6 15 7 8 9)))
  (by decide +kernel) (by decide +kernel) rfl

/-- **C88.** Which text each failed operation gives: the words for the operation and the two operands, left one first. -/
theorem C88_operation_text (a b : TT) :
    error (.cannotAdd a b) = "Cannot add: ".toList ++ debug a ++ " + ".toList ++ debug b ∧
    error (.cannotSub a b) = "Cannot subtract: ".toList ++ debug a ++ " - ".toList ++ debug b := by
  constructor <;> simp [error]

/-- **C88.** An out-of-bounds error shows its six numbers in decimal digits in the order year, month, day, hour, minute, second. -/
theorem C88_bounds_text (y mo d h mi s : Int) (h0 : 0 ≤ mo ∧ 0 ≤ d ∧ 0 ≤ h ∧ 0 ≤ mi ∧ 0 ≤ s) :
    ∃ ys mos ds hs mis ss, Numeral ys y.natAbs ∧ Numeral mos mo ∧ Numeral ds d ∧ Numeral hs h ∧ Numeral mis mi ∧ Numeral ss s ∧
      error (.outOfBounds y mo d h mi s) = "Out of bounds: ".toList ++ (if y < 0 then ['-'] else []) ++ ys ++ '-' :: mos ++ '-' :: ds ++
        'T' :: hs ++ ':' :: mis ++ ':' :: ss := by
  have key : ∀ x : Int, 0 ≤ x → Numeral (nat x) x := by
    intro x hx
    have := numeral_digits x.toNat
    rwa [Int.toNat_of_nonneg hx] at this
  refine ⟨digits y.natAbs, nat mo, nat d, nat h, nat mi, nat s, numeral_digits _, key _ h0.1, key _ h0.2.1, key _ h0.2.2.1,
    key _ h0.2.2.2.1, key _ h0.2.2.2.2, ?_⟩
  simp only [error, int]
  split <;> simp

example : error (.cannotAdd (.moment ⟨2018, 1, 9, 10, 0, 6, 0⟩) (.moment ⟨2018, 1, 9, 10, 0, 6, 0⟩))
    = "Cannot add: Moment(2018-01-09T10:00:06) + Moment(2018-01-09T10:00:06)".toList := by decide +kernel
example : calculate (std .debug) (.addition (.days 3) (.moment ⟨2018, 1, 9, 10, 0, 6, 0⟩))
    = .err (.cannotAdd (.days 3) (.moment ⟨2018, 1, 9, 10, 0, 6, 0⟩)) := by decide +kernel
example : OwnError (std .debug) (.outOfBounds 2018 2 30 10 0 0) := by
  refine ⟨by decide, by simp [operands], ?_⟩
  intro y mo d h mi s e
  injection e
  omega
example : OwnError (std .debug) (.cannotAdd (.days 3) (.moment ⟨2018, 1, 9, 10, 0, 6, 0⟩)) := by
  refine ⟨by decide, ?_, fun _ _ _ _ _ _ e => nomatch e⟩
  intro t ht
  simp only [operands, List.mem_cons, List.not_mem_nil, or_false] at ht
  rcases ht with rfl | rfl
  · trivial
  · exact show Proper (std .debug) _ by unfold Proper; decide +kernel

end Props
