import Verif.Props.Program

/-!
# C73, C74: texts of iterators in months and years
-/

namespace Props
open Kairos Kairos.Parser Kairos.Main Spec

/-- The same day and time in another year and month, as an item of an iterator: only the first item has a fraction of a second. -/
def itemIn (m : Moment) (k : Nat) (Y M : Int) : Moment := { m with year := Y, month := M, nano := if k = 0 then m.nano else 0 }

theorem itemIn_valid {c : Cfg} {m : Moment} (hm : m.Valid c) (k : Nat) {Y M : Int} (h1 : c.minYear ≤ Y) (h2 : Y ≤ c.maxYear)
    (h3 : 1 ≤ M) (h4 : M ≤ 12) (hd : m.day ≤ Cal.monthLen Y M) : (itemIn m k Y M).Valid c := by
  obtain ⟨-, -, ⟨-, -, a5, -⟩, t, a7⟩ := hm
  refine ⟨h1, h2, ⟨h3, h4, a5, hd⟩, t, ?_⟩
  unfold itemIn
  simp only; split <;> omega

/-- From a day up to the 28th: the item of `monthly(n)` at position `k`. -/
theorem months_item (c : Cfg) (hc : Sane c) (m : Moment) (hm : m.Valid c) (hd : m.day ≤ 28) (n : Int) (hn : 0 ≤ n)
    (hmax : n ≤ 24000000000) (k : Nat) :
    ∃ Y M : Int, 1 ≤ M ∧ M ≤ 12 ∧ Cal.monthIndex Y M = Cal.monthIndex m.year m.month + k * n ∧ c.minYear ≤ Y ∧
      (Y ≤ c.maxYear → (itemIn m k Y M).Valid c ∧
        nth (Iter.next c) k ⟨.moment m, .months n, false⟩ = some (.ok (.moment (itemIn m k Y M)))) ∧
      (c.maxYear < Y → ∃ Y' M' D H MI S,
        nth (Iter.next c) k ⟨.moment m, .months n, false⟩ = some (.err (.outOfBounds Y' M' D H MI S))) := by
  obtain ⟨Y, M, h1, h2, h3, h4⟩ := C35_monthly c hc m hm hd n hn hmax _ ((C33_build m (.months n)).1 ⟨.month, n, rfl⟩) k
  have hk : 0 ≤ (k : Int) * n := Int.mul_nonneg (Int.natCast_nonneg _) hn
  have hY : c.minYear ≤ Y := by
    have := hm.1; have := hm.2.2.1.1; have := hm.2.2.1.2.1
    unfold Cal.monthIndex at h3; omega
  refine ⟨Y, M, h1, h2, h3, hY, ?_, ?_⟩
  · intro hle
    refine ⟨itemIn_valid hm k hY hle h1 h2 (by have := Cal.monthLen_bounds (y := Y) h1 h2; omega), ?_⟩
    rcases h4 with ⟨-, h4⟩ | ⟨h4, -⟩
    · exact h4
    · omega
  · intro hlt
    rcases h4 with ⟨h4, -⟩ | ⟨-, h4⟩
    · omega
    · exact h4

/-- Not from 29 February: the item of `yearly(n)` at position `k`. -/
theorem years_item (c : Cfg) (hc : Sane c) (m : Moment) (hm : m.Valid c) (hd : ¬ (m.month = 2 ∧ m.day = 29)) (n : Int) (hn : 0 ≤ n)
    (hmax : n ≤ 2000000000) (k : Nat) :
    (m.year + k * n ≤ c.maxYear → (itemIn m k (m.year + k * n) m.month).Valid c ∧
      nth (Iter.next c) k ⟨.moment m, .years n, false⟩ = some (.ok (.moment (itemIn m k (m.year + k * n) m.month)))) ∧
    (c.maxYear < m.year + k * n → ∃ Y' M' D H MI S,
      nth (Iter.next c) k ⟨.moment m, .years n, false⟩ = some (.err (.outOfBounds Y' M' D H MI S))) := by
  have hk : 0 ≤ (k : Int) * n := Int.mul_nonneg (Int.natCast_nonneg _) hn
  have hmin := hm.1
  have hdate := hm.2.2.1
  have hlen : m.day ≤ Cal.monthLen (m.year + k * n) m.month := by
    by_cases h2 : m.month = 2
    · have h29 : m.day ≤ 28 := by
        have h := hdate.2.2.2
        rw [h2] at h
        have : Cal.monthLen m.year 2 ≤ 29 := by
          unfold Cal.monthLen; rw [if_pos rfl]; split <;> omega
        have : ¬ m.day = 29 := fun h => hd ⟨h2, h⟩
        omega
      have := Cal.monthLen_bounds (y := m.year + k * n) hdate.1 hdate.2.1
      omega
    · have : Cal.monthLen (m.year + k * n) m.month = Cal.monthLen m.year m.month := by
        unfold Cal.monthLen; rw [if_neg h2, if_neg h2]
      rw [this]; exact hdate.2.2.2
  rcases C35_yearly c hc m hm hd n (by omega) _ ((C33_build m (.years n)).1 ⟨.year, n, rfl⟩) k with ⟨-, h2, h3⟩ | ⟨h1, h2⟩
  · exact ⟨fun _ => ⟨itemIn_valid hm k (by omega) h2 hdate.1 hdate.2.1 hlen, h3⟩, fun h => by omega⟩
  · exact ⟨fun h => by omega, fun _ => h2⟩

/-- **C73 (months, no bound).** `<date> every <n> months` from a day up to the 28th: the item at every position `k` is the same day and time, `k * n`
months on, until the end of chrono's range. -/
theorem C73_months_unbounded (c : Cfg) (hc : Sane c) (iso : Iso) (now now' : Moment) (d : PDate) (n : Int)
    (t : List Char) (h : IterText iso d .month n none t) (hmax : n ≤ 24000000000) (v : TT) (m : Moment)
    (hv : dateMeans c now d = .value v) (hcalc : calculate c v = .ok (.moment m)) (hm : m.Valid c) (hd : m.day ≤ 28) :
    ∃ ui, parse c iso now now' t = .ok (.iterator (.ok ui)) ∧ ∀ k : Nat,
      ∃ Y M : Int, 1 ≤ M ∧ M ≤ 12 ∧ Cal.monthIndex Y M = Cal.monthIndex m.year m.month + k * n ∧
        (Y ≤ c.maxYear → nth (UserIterator.next c) k ui =
          some (.ok (.moment { m with year := Y, month := M, nano := if k = 0 then m.nano else 0 }))) ∧
        (c.maxYear < Y → ∃ Y' M' D H MI S,
          nth (UserIterator.next c) k ui = some (.err (.outOfBounds Y' M' D H MI S))) := by
  obtain ⟨hn, -⟩ := iterText_nonneg h
  refine ⟨_, (C54_iterator_text c iso now now' d .month n _ t h (by simp) v m hv hcalc).1 rfl, ?_⟩
  intro k
  rw [(C45_user_iterator c _ 0 m k).1]
  obtain ⟨Y, M, h1, h2, h3, -, h4, h5⟩ := months_item c hc m hm hd n hn hmax k
  exact ⟨Y, M, h1, h2, h3, fun h => (h4 h).2, h5⟩

example : IterText noIso ⟨.today, none⟩ .month 7 none "today every 7 months".toList :=
  IterText.mk (b0 := []) (dt := "today".toList) (ot := []) (b1 := " ".toList) (st := "every 7 months".toList) (b2 := []) (ut := [])
    (by decide) (ExactText.today _) OffsetText.none (by decide) (by decide)
    (StepText.every (b := " ".toList) (ds := "7".toList) (b' := " ".toList) (unit := .month) (name := "months")
      (by decide) (by decide) (by decide) (by decide) (by decide))
    (by decide) BoundText.none (by decide)

/-- … from 28 December 2017. -/
example : ∃ ui, parse (std .debug) noIso (at_ 2017 12 28 12 0 0) (at_ 2017 12 28 12 0 0) "today every 7 months".toList = .ok (.iterator (.ok ui)) ∧
    items (UserIterator.next (std .debug)) 3 ui = [some (.ok (.moment (at_ 2017 12 28 12 0 0))), some (.ok (.moment (at_ 2018 7 28 12 0 0))),
      some (.ok (.moment (at_ 2019 2 28 12 0 0)))] :=
  ⟨.iterator ⟨.moment (at_ 2017 12 28 12 0 0), .months 7, false⟩, by decide +kernel⟩

/-- **C73 (months, until).** `<date> every <n> months until <date>`, the second date on a full second: the same as long as this is before the second date,
and then the end (or the error, past chrono's last year). -/
theorem C73_months_until (c : Cfg) (hc : Sane c) (iso : Iso) (now now' : Moment) (d : PDate) (n : Int) (e : ExactDate)
    (t : List Char) (h : IterText iso d .month n (some (.exact e)) t) (hmax : n ≤ 24000000000) (v w : TT) (m ending : Moment)
    (hv : dateMeans c now d = .value v) (hcalc : calculate c v = .ok (.moment m)) (hm : m.Valid c) (hd : m.day ≤ 28)
    (hw : exactMeans c now' e = .value w) (hend : calculate c w = .ok (.moment ending)) (he : ending.Valid c) (hz : ending.nano = 0) :
    ∃ ui, parse c iso now now' t = .ok (.iterator (.ok ui)) ∧ ∀ k : Nat,
      ∃ Y M : Int, 1 ≤ M ∧ M ≤ 12 ∧ Cal.monthIndex Y M = Cal.monthIndex m.year m.month + k * n ∧
        (Y ≤ c.maxYear → nth (UserIterator.next c) k ui =
          if Cal.instant Y M m.day m.hour m.minute m.second < ending.instant
          then some (.ok (.moment { m with year := Y, month := M, nano := if k = 0 then m.nano else 0 })) else none) ∧
        (c.maxYear < Y → ∃ Y' M' D H MI S,
          nth (UserIterator.next c) k ui = some (.err (.outOfBounds Y' M' D H MI S))) := by
  obtain ⟨hn, -⟩ := iterText_nonneg h
  refine ⟨_, (C54_iterator_text c iso now now' d .month n _ t h (by simp) v m hv hcalc).2.2 e w ending rfl hw hend, ?_⟩
  intro k
  rw [(C45_user_iterator c _ 0 ending k).2.2]
  obtain ⟨Y, M, h1, h2, h3, -, h4, h5⟩ := months_item c hc m hm hd n hn hmax k
  refine ⟨Y, M, h1, h2, h3, fun h => ?_, fun h => ?_⟩
  · obtain ⟨g1, g2⟩ := h4 h
    have hnano := g1.2.2.2.2.1
    rw [show unitAmount .month n = .months n from rfl, (C41_until c _ ending _ k).1 _ g2 g1 he]
    have : ((itemIn m k Y M).instant < ending.instant ∨ (itemIn m k Y M).instant = ending.instant ∧ (itemIn m k Y M).nano < ending.nano) ↔
        Cal.instant Y M m.day m.hour m.minute m.second < ending.instant := by
      show Cal.instant Y M m.day m.hour m.minute m.second < _ ∨ _ ↔ _
      constructor
      · rintro (h | ⟨-, h⟩)
        · exact h
        · omega
      · exact .inl
    by_cases hlt : Cal.instant Y M m.day m.hour m.minute m.second < ending.instant
    · rw [if_pos (this.2 hlt), if_pos hlt]; rfl
    · rw [if_neg (mt this.1 hlt), if_neg hlt]
  · obtain ⟨Y', M', D, H, MI, S, g⟩ := h5 h
    exact ⟨Y', M', D, H, MI, S, (C41_until c _ ending _ k).2.1 _ g⟩

example := C73_months_until (std .debug) (sane_std _) noIso (at_ 2017 2 28 8 30 0) (at_ 2018 2 28 8 30 0) _ _ _ _ sample_month_until (by decide)
  (.moment (at_ 2017 2 28 8 30 0)) (.moment (at_ 2018 2 28 8 30 0) + .days 1) (at_ 2017 2 28 8 30 0) (at_ 2018 3 1 8 30 0) rfl (by decide +kernel) (by decide) (by decide)
  rfl (by decide +kernel) (by decide) rfl

/-- **C73 (years, no bound).** `<date> every <n> years`, not from 29 February: the item at every position `k` is the same date and time, `k * n` years
on, until the end of chrono's range. -/
theorem C73_years_unbounded (c : Cfg) (hc : Sane c) (iso : Iso) (now now' : Moment) (d : PDate) (n : Int)
    (t : List Char) (h : IterText iso d .year n none t) (hmax : n ≤ 2000000000) (v : TT) (m : Moment)
    (hv : dateMeans c now d = .value v) (hcalc : calculate c v = .ok (.moment m)) (hm : m.Valid c)
    (hd : ¬ (m.month = 2 ∧ m.day = 29)) :
    ∃ ui, parse c iso now now' t = .ok (.iterator (.ok ui)) ∧ ∀ k : Nat,
      (m.year + k * n ≤ c.maxYear → nth (UserIterator.next c) k ui =
        some (.ok (.moment { m with year := m.year + k * n, nano := if k = 0 then m.nano else 0 }))) ∧
      (c.maxYear < m.year + k * n → ∃ Y' M' D H MI S,
        nth (UserIterator.next c) k ui = some (.err (.outOfBounds Y' M' D H MI S))) := by
  obtain ⟨hn, -⟩ := iterText_nonneg h
  refine ⟨_, (C54_iterator_text c iso now now' d .year n _ t h (by simp) v m hv hcalc).1 rfl, ?_⟩
  intro k
  rw [(C45_user_iterator c _ 0 m k).1]
  obtain ⟨h4, h5⟩ := years_item c hc m hm hd n hn hmax k
  exact ⟨fun h => (h4 h).2, h5⟩

example : IterText noIso ⟨.today, none⟩ .year 1 none "today yearly".toList :=
  IterText.mk (b0 := []) (dt := "today".toList) (ot := []) (b1 := " ".toList) (st := "yearly".toList) (b2 := []) (ut := [])
    (by decide) (ExactText.today _) OffsetText.none (by decide) (by decide) (StepText.alias (unit := .year)) (by decide) BoundText.none (by decide)

/-- … from 28 February 2016, in a leap year. -/
example : ∃ ui, parse (std .debug) noIso (at_ 2016 2 28 12 0 0) (at_ 2016 2 28 12 0 0) "today yearly".toList = .ok (.iterator (.ok ui)) ∧
    items (UserIterator.next (std .debug)) 3 ui = [some (.ok (.moment (at_ 2016 2 28 12 0 0))), some (.ok (.moment (at_ 2017 2 28 12 0 0))),
      some (.ok (.moment (at_ 2018 2 28 12 0 0)))] :=
  ⟨.iterator ⟨.moment (at_ 2016 2 28 12 0 0), .years 1, false⟩, by decide +kernel⟩

/-- **C73 (years, until).** `<date> every <n> years until <date>`, the second date on a full second: the same as long as this is before the second date,
and then the end (or the error, past chrono's last year). -/
theorem C73_years_until (c : Cfg) (hc : Sane c) (iso : Iso) (now now' : Moment) (d : PDate) (n : Int) (e : ExactDate)
    (t : List Char) (h : IterText iso d .year n (some (.exact e)) t) (hmax : n ≤ 2000000000) (v w : TT) (m ending : Moment)
    (hv : dateMeans c now d = .value v) (hcalc : calculate c v = .ok (.moment m)) (hm : m.Valid c)
    (hd : ¬ (m.month = 2 ∧ m.day = 29))
    (hw : exactMeans c now' e = .value w) (hend : calculate c w = .ok (.moment ending)) (he : ending.Valid c) (hz : ending.nano = 0) :
    ∃ ui, parse c iso now now' t = .ok (.iterator (.ok ui)) ∧ ∀ k : Nat,
      (m.year + k * n ≤ c.maxYear → nth (UserIterator.next c) k ui =
        if Cal.instant (m.year + k * n) m.month m.day m.hour m.minute m.second < ending.instant
        then some (.ok (.moment { m with year := m.year + k * n, nano := if k = 0 then m.nano else 0 })) else none) ∧
      (c.maxYear < m.year + k * n → ∃ Y' M' D H MI S,
        nth (UserIterator.next c) k ui = some (.err (.outOfBounds Y' M' D H MI S))) := by
  obtain ⟨hn, -⟩ := iterText_nonneg h
  refine ⟨_, (C54_iterator_text c iso now now' d .year n _ t h (by simp) v m hv hcalc).2.2 e w ending rfl hw hend, ?_⟩
  intro k
  rw [(C45_user_iterator c _ 0 ending k).2.2]
  obtain ⟨h4, h5⟩ := years_item c hc m hm hd n hn hmax k
  generalize m.year + k * n = Y at h4 h5 ⊢
  refine ⟨fun h => ?_, fun h => ?_⟩
  · obtain ⟨g1, g2⟩ := h4 h
    have hnano := g1.2.2.2.2.1
    rw [show unitAmount .year n = .years n from rfl, (C41_until c _ ending _ k).1 _ g2 g1 he]
    have : ((itemIn m k Y m.month).instant < ending.instant ∨ (itemIn m k Y m.month).instant = ending.instant ∧ (itemIn m k Y m.month).nano < ending.nano) ↔
        Cal.instant Y m.month m.day m.hour m.minute m.second < ending.instant := by
      show Cal.instant Y m.month m.day m.hour m.minute m.second < _ ∨ _ ↔ _
      constructor
      · rintro (h | ⟨-, h⟩)
        · exact h
        · omega
      · exact .inl
    by_cases hlt : Cal.instant Y m.month m.day m.hour m.minute m.second < ending.instant
    · rw [if_pos (this.2 hlt), if_pos hlt]; rfl
    · rw [if_neg (mt this.1 hlt), if_neg hlt]
  · obtain ⟨Y', M', D, H, MI, S, g⟩ := h5 h
    exact ⟨Y', M', D, H, MI, S, (C41_until c _ ending _ k).2.1 _ g⟩

example := C73_years_until (std .debug) (sane_std _) noIso (at_ 2017 2 28 8 30 0) (at_ 2018 2 28 8 30 0) _ _ _ _ sample_year_until (by decide)
  (.moment (at_ 2017 2 28 8 30 0)) (.moment (at_ 2018 2 28 8 30 0) + .days 1) (at_ 2017 2 28 8 30 0) (at_ 2018 3 1 8 30 0) rfl (by decide +kernel) (by decide) (by decide)
  rfl (by decide +kernel) (by decide) rfl

/-- The program prints the moments of an iterator that ends after `L` of them. -/
theorem prints_moments (c : Cfg) (iso : Iso) (now now' : Moment) (args : List (List Char)) (ui : UserIterator)
    (hp : parse c iso now now' (commandLine args) = .ok (.iterator (.ok ui))) (f : Nat → Moment) (L rounds : Nat) (hr : L < rounds)
    (hi : ∀ k, k < L → nth (UserIterator.next c) k ui = some (.ok (.moment (f k))))
    (hend : nth (UserIterator.next c) L ui = none) :
    Main.main c iso now now' rounds args = ⟨(List.range L).map (.moment ∘ f), .finished⟩ := by
  unfold Main.main
  rw [hp]
  simp only
  have h := (C74_prints_the_items c ui ((List.range L).map (.moment ∘ f)) rounds (by simpa using hr) (by
    intro k t hk
    have hlt := (List.getElem?_eq_some_iff.1 hk).1
    simp at hlt
    rw [List.getElem?_map, List.getElem?_range hlt] at hk
    simp at hk
    rw [hi k hlt, ← hk])).1 (by simpa using hend)
  rw [h, List.map_map]
  rfl

/-- **C74 (months).** `<date> every <n> months <N> times` from a day up to the 28th, as long as the dates stay in chrono's range: the program prints exactly the
`N` dates, the same day and time `n` months apart, and finishes. -/
theorem C74_months (c : Cfg) (hc : Sane c) (iso : Iso) (now now' : Moment) (args : List (List Char)) (d : PDate)
    (n N : Int) (h : IterText iso d .month n (some (.times N)) (commandLine args)) (hmax : n ≤ 24000000000) (v : TT) (m : Moment)
    (hv : dateMeans c now d = .value v) (hcalc : calculate c v = .ok (.moment m)) (hm : m.Valid c) (hd : m.day ≤ 28)
    (hrange : Cal.monthIndex m.year m.month + N * n ≤ Cal.monthIndex c.maxYear 12) (rounds : Nat) (hr : N < rounds) :
    ∃ ms : List Moment, (ms.length : Int) = N ∧
      Main.main c iso now now' rounds args = ⟨ms.map .moment, .finished⟩ ∧
      ∀ (k : Nat) r, ms[k]? = some r → r.Valid c ∧ Cal.monthIndex r.year r.month = Cal.monthIndex m.year m.month + k * n ∧
        r.day = m.day ∧ r.hour = m.hour ∧ r.minute = m.minute ∧ r.second = m.second ∧ r.nano = if k = 0 then m.nano else 0 := by
  obtain ⟨hn, hN⟩ := iterText_nonneg h
  have hN := hN N rfl
  have hp := (C54_iterator_text c iso now now' d .month n _ _ h (by simp) v m hv hcalc).2.1 N rfl
  obtain ⟨L, hL⟩ : ∃ L : Nat, (L : Int) = N := ⟨N.toNat, by omega⟩
  have hf : ∀ k : Nat, ∃ r : Moment, k < L → nth (UserIterator.next c) k (.timesIter (timesNew ⟨.moment m, unitAmount .month n, false⟩ N)) =
      some (.ok (.moment r)) ∧ r.Valid c ∧ Cal.monthIndex r.year r.month = Cal.monthIndex m.year m.month + k * n ∧
        r.day = m.day ∧ r.hour = m.hour ∧ r.minute = m.minute ∧ r.second = m.second ∧ r.nano = if k = 0 then m.nano else 0 := by
    intro k
    obtain ⟨Y, M, h1, h2, h3, -, h4, -⟩ := months_item c hc m hm hd n hn hmax k
    refine ⟨itemIn m k Y M, fun hk => ?_⟩
    have : (k : Int) * n ≤ N * n := Int.mul_le_mul_of_nonneg_right (by omega) hn
    have hY : Y ≤ c.maxYear := by unfold Cal.monthIndex at h3 hrange; omega
    rw [(C45_user_iterator c _ N m k).2.1, (C40_times_partial c _ _ N hN.1 hN.2 k).1, if_pos (by omega)]
    exact ⟨(h4 hY).2, (h4 hY).1, h3, rfl, rfl, rfl, rfl, rfl⟩
  obtain ⟨f, hf⟩ := Classical.axiomOfChoice hf
  refine ⟨(List.range L).map f, by simpa using hL, ?_, ?_⟩
  · rw [prints_moments c iso now now' args _ hp f L rounds (by omega) (fun k hk => (hf k hk).1) (by
      rw [(C45_user_iterator c _ N m L).2.1, (C40_times_partial c _ _ N hN.1 hN.2 L).1, if_neg (by omega)])]
    simp
  · intro k r hk
    have hlt := (List.getElem?_eq_some_iff.1 hk).1
    simp at hlt
    rw [List.getElem?_map, List.getElem?_range hlt] at hk
    simp at hk
    rw [← hk]
    exact (hf k hlt).2

example := C74_months (std .debug) (sane_std _) noIso (at_ 2017 2 28 8 30 0) (at_ 2017 2 28 8 30 0) ["today monthly 4 times".toList] ⟨.today, none⟩ 1 4
  (by rw [show commandLine ["today monthly 4 times".toList] = "today monthly 4 times".toList by decide +kernel]; exact sample_month_times) (by decide)
  (.moment (at_ 2017 2 28 8 30 0)) (at_ 2017 2 28 8 30 0) rfl (by decide +kernel) (by decide) (by decide) (by decide) 5 (by decide)

/-- **C74 (years).** `<date> every <n> years <N> times`, not from 29 February, as long as the dates stay in chrono's range: the program prints exactly the `N`
dates, the same day and time every `n` years, and finishes. -/
theorem C74_years (c : Cfg) (hc : Sane c) (iso : Iso) (now now' : Moment) (args : List (List Char)) (d : PDate)
    (n N : Int) (h : IterText iso d .year n (some (.times N)) (commandLine args)) (hmax : n ≤ 2000000000) (v : TT) (m : Moment)
    (hv : dateMeans c now d = .value v) (hcalc : calculate c v = .ok (.moment m)) (hm : m.Valid c) (hd : ¬ (m.month = 2 ∧ m.day = 29))
    (hrange : m.year + N * n ≤ c.maxYear) (rounds : Nat) (hr : N < rounds) :
    Main.main c iso now now' rounds args = ⟨(List.range N.toNat).map fun (k : Nat) =>
      .moment { m with year := m.year + k * n, nano := if k = 0 then m.nano else 0 }, .finished⟩ := by
  obtain ⟨hn, hN⟩ := iterText_nonneg h
  have hN := hN N rfl
  have hp := (C54_iterator_text c iso now now' d .year n _ _ h (by simp) v m hv hcalc).2.1 N rfl
  rw [prints_moments c iso now now' args _ hp (fun k => { m with year := m.year + k * n, nano := if k = 0 then m.nano else 0 }) N.toNat rounds
    (by omega) ?_ ?_]
  · rfl
  · intro k hk
    have : (k : Int) * n ≤ N * n := Int.mul_le_mul_of_nonneg_right (by omega) hn
    rw [(C45_user_iterator c _ N m k).2.1, (C40_times_partial c _ _ N hN.1 hN.2 k).1, if_pos (by omega)]
    exact ((years_item c hc m hm hd n hn hmax k).1 (by omega)).2
  · rw [(C45_user_iterator c _ N m _).2.1, (C40_times_partial c _ _ N hN.1 hN.2 _).1, if_neg (by omega)]

example := C74_years (std .debug) (sane_std _) noIso (at_ 2017 2 28 8 30 0) (at_ 2017 2 28 8 30 0) ["today yearly 4 times".toList] ⟨.today, none⟩ 1 4
  (by rw [show commandLine ["today yearly 4 times".toList] = "today yearly 4 times".toList by decide +kernel]; exact sample_year_times) (by decide)
  (.moment (at_ 2017 2 28 8 30 0)) (at_ 2017 2 28 8 30 0) rfl (by decide +kernel) (by decide) (by decide) (by decide) 5 (by decide)

/-- **C74 (until).** `<date> every <n> <unit> until <date>` with a step of at most 30 days and a second date on a full second: the program prints exactly the
dates before the second one, `N` of them, each a step after the one before, and finishes (unless the first date that is not printed is past
chrono's last year). -/
theorem C74_until (c : Cfg) (hc : Sane c) (iso : Iso) (now now' : Moment) (args : List (List Char)) (d : PDate) (e : ExactDate)
    (unit : TimeUnit) (n : Int) (h : IterText iso d unit n (some (.exact e)) (commandLine args)) (hu : unit ≠ .month ∧ unit ≠ .year)
    (hmax : n * unitSecs unit ≤ 30 * 86400) (v w : TT) (m ending : Moment) (hv : dateMeans c now d = .value v)
    (hcalc : calculate c v = .ok (.moment m)) (hm : m.Valid c) (hw : exactMeans c now' e = .value w)
    (hend : calculate c w = .ok (.moment ending)) (he : ending.Valid c) (hz : ending.nano = 0) (N : Nat)
    (hN : ∀ k : Nat, k ≤ N → (k < N ↔ m.instant + k * (n * unitSecs unit) < ending.instant))
    (hrange : m.instant + N * (n * unitSecs unit) < Cal.instant (c.maxYear + 1) 1 1 0 0 0) (rounds : Nat) (hr : N < rounds) :
    ∃ ms : List Moment, ms.length = N ∧
      Main.main c iso now now' rounds args = ⟨ms.map .moment, .finished⟩ ∧
      ∀ (k : Nat) r, ms[k]? = some r → r.Valid c ∧ r.instant = m.instant + k * (n * unitSecs unit) ∧
        r.nano = if k = 0 then m.nano else 0 := by
  obtain ⟨ui, hp, hk⟩ := C73_until c hc iso now now' d unit n e _ h hu hmax v w m ending hv hcalc hm hw hend he hz
  have hf : ∀ k : Nat, ∃ r : Moment, k < N → nth (UserIterator.next c) k ui = some (.ok (.moment r)) ∧ r.Valid c ∧
      r.instant = m.instant + k * (n * unitSecs unit) ∧ r.nano = if k = 0 then m.nano else 0 := by
    intro k
    by_cases hlt : k < N
    · obtain ⟨r, hr⟩ := (hk k).1 ((hN k (Nat.le_of_lt hlt)).1 hlt)
      exact ⟨r, fun _ => hr⟩
    · exact ⟨m, fun h => absurd h hlt⟩
  obtain ⟨f, hf⟩ := Classical.axiomOfChoice hf
  refine ⟨(List.range N).map f, by simp, ?_, ?_⟩
  · rw [prints_moments c iso now now' args ui hp f N rounds hr (fun k hk => (hf k hk).1) ?_]
    · simp
    · have hnot := mt (hN N (Nat.le_refl _)).2 (Nat.lt_irrefl N)
      rcases (hk N).2 (by omega) with h | ⟨h, -⟩
      · exact h
      · omega
  · intro k r hk
    have hlt := (List.getElem?_eq_some_iff.1 hk).1
    simp at hlt
    rw [List.getElem?_map, List.getElem?_range hlt] at hk
    simp at hk
    rw [← hk]
    exact (hf k hlt).2

example := C74_until (std .debug) (sane_std _) noIso (at_ 2017 2 28 8 30 0) (at_ 2017 2 28 8 30 0) ["today weekly until tomorrow".toList] ⟨.today, none⟩ .tomorrow
  .week 1
  (by rw [show commandLine ["today weekly until tomorrow".toList] = "today weekly until tomorrow".toList by decide +kernel]; exact sample_week_until)
  (by decide) (by decide) (.moment (at_ 2017 2 28 8 30 0)) (.moment (at_ 2017 2 28 8 30 0) + .days 1) (at_ 2017 2 28 8 30 0) (at_ 2017 3 1 8 30 0) rfl
  (by decide +kernel) (by decide) rfl (by decide +kernel) (by decide) rfl 1 (by decide) (by decide) 5 (by decide)

/-- **C74 (months, until).** The same for `<date> every <n> months until <date>`, from a day up to the 28th. -/
theorem C74_months_until (c : Cfg) (hc : Sane c) (iso : Iso) (now now' : Moment) (args : List (List Char)) (d : PDate) (e : ExactDate)
    (n : Int) (h : IterText iso d .month n (some (.exact e)) (commandLine args)) (hmax : n ≤ 24000000000)
    (v w : TT) (m ending : Moment) (hv : dateMeans c now d = .value v)
    (hcalc : calculate c v = .ok (.moment m)) (hm : m.Valid c) (hd : m.day ≤ 28) (hw : exactMeans c now' e = .value w)
    (hend : calculate c w = .ok (.moment ending)) (he : ending.Valid c) (hz : ending.nano = 0) (N : Nat)
    (hN : ∀ (k : Nat) (Y M : Int), k ≤ N → 1 ≤ M → M ≤ 12 → Cal.monthIndex Y M = Cal.monthIndex m.year m.month + k * n →
      (k < N ↔ Cal.instant Y M m.day m.hour m.minute m.second < ending.instant))
    (hrange : Cal.monthIndex m.year m.month + N * n ≤ Cal.monthIndex c.maxYear 12) (rounds : Nat) (hr : N < rounds) :
    ∃ ms : List Moment, ms.length = N ∧
      Main.main c iso now now' rounds args = ⟨ms.map .moment, .finished⟩ ∧
      ∀ (k : Nat) r, ms[k]? = some r → 1 ≤ r.month ∧ r.month ≤ 12 ∧ Cal.monthIndex r.year r.month = Cal.monthIndex m.year m.month + k * n ∧
        r.day = m.day ∧ r.hour = m.hour ∧ r.minute = m.minute ∧ r.second = m.second ∧ r.nano = if k = 0 then m.nano else 0 := by
  obtain ⟨hn, -⟩ := iterText_nonneg h
  obtain ⟨ui, hp, hk⟩ := C73_months_until c hc iso now now' d n e _ h hmax v w m ending hv hcalc hm hd hw hend he hz
  have hY : ∀ k : Nat, k ≤ N → ∀ Y M : Int, 1 ≤ M → Cal.monthIndex Y M = Cal.monthIndex m.year m.month + k * n → Y ≤ c.maxYear := by
    intro k hle Y M h1 h3
    have : (k : Int) * n ≤ N * n := Int.mul_le_mul_of_nonneg_right (by omega) hn
    unfold Cal.monthIndex at h3 hrange; omega
  have hf : ∀ k : Nat, ∃ r : Moment, k < N → nth (UserIterator.next c) k ui = some (.ok (.moment r)) ∧
      1 ≤ r.month ∧ r.month ≤ 12 ∧ Cal.monthIndex r.year r.month = Cal.monthIndex m.year m.month + k * n ∧
        r.day = m.day ∧ r.hour = m.hour ∧ r.minute = m.minute ∧ r.second = m.second ∧ r.nano = if k = 0 then m.nano else 0 := by
    intro k
    obtain ⟨Y, M, h1, h2, h3, h4, -⟩ := hk k
    refine ⟨{ m with year := Y, month := M, nano := if k = 0 then m.nano else 0 }, fun hlt => ?_⟩
    rw [h4 (hY k (by omega) Y M h1 h3), if_pos ((hN k Y M (Nat.le_of_lt hlt) h1 h2 h3).1 hlt)]
    exact ⟨rfl, h1, h2, h3, rfl, rfl, rfl, rfl, rfl⟩
  obtain ⟨f, hf⟩ := Classical.axiomOfChoice hf
  refine ⟨(List.range N).map f, by simp, ?_, ?_⟩
  · rw [prints_moments c iso now now' args ui hp f N rounds hr (fun k hk => (hf k hk).1) ?_]
    · simp
    · obtain ⟨Y, M, h1, h2, h3, h4, -⟩ := hk N
      rw [h4 (hY N (Nat.le_refl _) Y M h1 h3), if_neg (mt (hN N Y M (Nat.le_refl _) h1 h2 h3).2 (Nat.lt_irrefl N))]
  · intro k r hk
    have hlt := (List.getElem?_eq_some_iff.1 hk).1
    simp at hlt
    rw [List.getElem?_map, List.getElem?_range hlt] at hk
    simp at hk
    rw [← hk]
    exact (hf k hlt).2

/-- From 28 February 2017 until 1 March 2018: thirteen months. -/
example : ∀ rounds, 13 < rounds → ∃ ms : List Moment, ms.length = 13 ∧
    Main.main (std .debug) noIso (at_ 2017 2 28 8 30 0) (at_ 2018 2 28 8 30 0) rounds ["today monthly until tomorrow".toList] = ⟨ms.map .moment, .finished⟩ := by
  intro rounds hr
  have hk : ∀ k : Nat, k < 14 → (k < 13 ↔ Cal.instant (2017 + ((k : Int) + 1) / 12) (((k : Int) + 1) % 12 + 1) 28 8 30 0 < (at_ 2018 3 1 8 30 0).instant) := by
    decide +kernel
  obtain ⟨ms, h1, h2, _⟩ := C74_months_until (std .debug) (sane_std _) noIso (at_ 2017 2 28 8 30 0) (at_ 2018 2 28 8 30 0)
    ["today monthly until tomorrow".toList] ⟨.today, none⟩ .tomorrow 1
    (by rw [show commandLine ["today monthly until tomorrow".toList] = "today monthly until tomorrow".toList by decide +kernel]; exact sample_month_until) (by decide)
    (.moment (at_ 2017 2 28 8 30 0)) (.moment (at_ 2018 2 28 8 30 0) + .days 1) (at_ 2017 2 28 8 30 0) (at_ 2018 3 1 8 30 0) rfl (by decide +kernel)
    (by decide) (by decide) rfl (by decide +kernel) (by decide) rfl 13
    (by
      intro k Y M hk' h1 h2 h
      have e1 : (at_ 2017 2 28 8 30 0).year = 2017 := rfl
      have e2 : (at_ 2017 2 28 8 30 0).month = 2 := rfl
      rw [e1, e2] at h
      simp only [Cal.monthIndex] at h
      have hY : Y = 2017 + ((k : Int) + 1) / 12 := by omega
      have hM : M = ((k : Int) + 1) % 12 + 1 := by omega
      rw [hY, hM]
      exact hk k (by omega)) (by decide) rounds hr
  exact ⟨ms, h1, h2⟩

/-- **C74 (years, until).** The same for `<date> every <n> years until <date>`, not from 29 February. -/
theorem C74_years_until (c : Cfg) (hc : Sane c) (iso : Iso) (now now' : Moment) (args : List (List Char)) (d : PDate) (e : ExactDate)
    (n : Int) (h : IterText iso d .year n (some (.exact e)) (commandLine args)) (hmax : n ≤ 2000000000)
    (v w : TT) (m ending : Moment) (hv : dateMeans c now d = .value v)
    (hcalc : calculate c v = .ok (.moment m)) (hm : m.Valid c) (hd : ¬ (m.month = 2 ∧ m.day = 29)) (hw : exactMeans c now' e = .value w)
    (hend : calculate c w = .ok (.moment ending)) (he : ending.Valid c) (hz : ending.nano = 0) (N : Nat)
    (hN : ∀ k : Nat, k ≤ N → (k < N ↔ Cal.instant (m.year + k * n) m.month m.day m.hour m.minute m.second < ending.instant))
    (hrange : m.year + N * n ≤ c.maxYear) (rounds : Nat) (hr : N < rounds) :
    Main.main c iso now now' rounds args = ⟨(List.range N).map fun (k : Nat) =>
      .moment { m with year := m.year + k * n, nano := if k = 0 then m.nano else 0 }, .finished⟩ := by
  obtain ⟨hn, -⟩ := iterText_nonneg h
  obtain ⟨ui, hp, hk⟩ := C73_years_until c hc iso now now' d n e _ h hmax v w m ending hv hcalc hm hd hw hend he hz
  have hY : ∀ k : Nat, k ≤ N → m.year + k * n ≤ c.maxYear := by
    intro k hle
    have : (k : Int) * n ≤ N * n := Int.mul_le_mul_of_nonneg_right (by omega) hn
    omega
  rw [prints_moments c iso now now' args ui hp (fun k => { m with year := m.year + k * n, nano := if k = 0 then m.nano else 0 }) N rounds hr ?_ ?_]
  · rfl
  · intro k hlt
    rw [(hk k).1 (hY k (by omega)), if_pos ((hN k (Nat.le_of_lt hlt)).1 hlt)]
  · rw [(hk N).1 (hY N (Nat.le_refl _)), if_neg (mt (hN N (Nat.le_refl _)).2 (Nat.lt_irrefl N))]

/-- The hypothesis on `N`, and what is printed: from noon on 28 February until midnight of 2 March (a clock that jumped ahead), every 20 hours. -/
example : ∀ k : Nat, k ≤ 3 → (k < 3 ↔ (at_ 2016 2 28 12 0 0).instant + k * (20 * unitSecs .hour) < (at_ 2016 3 2 0 0 0).instant) := by
  have h2 : (at_ 2016 3 2 0 0 0).instant = (at_ 2016 2 28 12 0 0).instant + 216000 := by decide +kernel
  intro k
  simp only [unitSecs]
  omega

example : Main.main (std .debug) noIso (at_ 2016 2 28 12 0 0) (at_ 2016 3 2 0 0 0) 10 ["today every 20 hours until today".toList] =
    ⟨[.moment (at_ 2016 2 28 12 0 0), .moment (at_ 2016 2 29 8 0 0), .moment (at_ 2016 3 1 4 0 0)], .finished⟩ := by
  decide +kernel

/-- `"today every 2 months 3 times"` meets the hypotheses of `C73_months` and `C74_months`, … -/
example : IterText noIso ⟨.today, none⟩ .month 2 (some (.times 3)) (commandLine ["today".toList, "every 2 months".toList, "3 times".toList]) :=
  IterText.mk (b0 := []) (dt := "today".toList) (ot := []) (b1 := " ".toList) (st := "every 2 months".toList) (b2 := " ".toList) (ut := "3 times".toList)
    (by decide) (ExactText.today _) OffsetText.none (by decide) (by decide)
    (StepText.every (b := " ".toList) (ds := "2".toList) (b' := " ".toList) (unit := .month) (name := "months")
      (by decide) (by decide) (by decide) (by decide) (by decide))
    (by decide) (BoundText.times (ds := "3".toList) (b := " ".toList) (by decide) (by decide) (by decide)) (by decide)

/-- … and this is what the program prints. -/
example : Main.main (std .debug) noIso (at_ 2017 12 28 12 0 0) (at_ 2017 12 28 12 0 0) 10
    ["today".toList, "every 2 months".toList, "3 times".toList] =
    ⟨[.moment (at_ 2017 12 28 12 0 0), .moment (at_ 2018 2 28 12 0 0), .moment (at_ 2018 4 28 12 0 0)], .finished⟩ := by
  decide +kernel

/-- `"today yearly until today"`: the clock is read again for the second date. -/
example : IterText noIso ⟨.today, none⟩ .year 1 (some (.exact .today)) "today yearly until today".toList :=
  IterText.mk (b0 := []) (dt := "today".toList) (ot := []) (b1 := " ".toList) (st := "yearly".toList) (b2 := " ".toList)
    (ut := "until today".toList) (by decide) (ExactText.today _) OffsetText.none (by decide) (by decide)
    (StepText.alias (unit := .year)) (by decide)
    (BoundText.untilDate (b := " ".toList) (t := "today".toList) (by decide) (ExactText.today _)) (by decide)

example : ∃ ui, parse (std .debug) noIso (at_ 2017 12 31 23 59 59) (at_ 2018 12 31 23 59 59) "today yearly until today".toList =
      .ok (.iterator (.ok ui)) ∧
    items (UserIterator.next (std .debug)) 3 ui = [some (.ok (.moment (at_ 2017 12 31 23 59 59))), none, none] :=
  ⟨.untilIterator ⟨.moment (at_ 2017 12 31 23 59 59), .years 1, false⟩ (at_ 2018 12 31 23 59 59), by decide +kernel⟩

/-- "today every 5 months until today", from 15 June 2017 to 15 April 2018: two dates, and the hypotheses of `C74_months_until`. -/
example : ∀ (k : Nat) (Y M : Int), k ≤ 2 → 1 ≤ M → M ≤ 12 → Cal.monthIndex Y M = Cal.monthIndex 2017 6 + k * 5 →
    (k < 2 ↔ Cal.instant Y M 15 12 0 0 < (at_ 2018 4 15 12 0 0).instant) := by
  intro k Y M hk h1 h2 h3
  unfold Cal.monthIndex at h3
  obtain rfl | rfl | rfl : k = 0 ∨ k = 1 ∨ k = 2 := by omega
  · obtain ⟨rfl, rfl⟩ : Y = 2017 ∧ M = 6 := by omega
    decide +kernel
  · obtain ⟨rfl, rfl⟩ : Y = 2017 ∧ M = 11 := by omega
    decide +kernel
  · obtain ⟨rfl, rfl⟩ : Y = 2018 ∧ M = 4 := by omega
    decide +kernel

example : Main.main (std .debug) noIso (at_ 2017 6 15 12 0 0) (at_ 2018 4 15 12 0 0) 10 ["today every 5 months until today".toList] =
    ⟨[.moment (at_ 2017 6 15 12 0 0), .moment (at_ 2017 11 15 12 0 0)], .finished⟩ := by
  decide +kernel

end Props
