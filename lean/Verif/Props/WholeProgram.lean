import Verif.Spec.Program
import Verif.Props.Reading
import Verif.Props.Walk
import Verif.Lemmas.ParserSafe

/-!
# C144: all that the command line program prints
-/

namespace Props
open Kairos Kairos.Parser Kairos.Main Spec Nom

/-! ### what is read is typed -/

/-- The numbers of an amount fit into 64 bits. -/
def ExprFits : AmountExpr → Prop
  | .single a => InI64 a.number
  | .cons a _ e => InI64 a.number ∧ ExprFits e

private theorem number_fits {t r : List Char} {n : Int} (h : readNumber t = some (n, r)) : 0 ≤ n ∧ n ≤ 9223372036854775807 := by
  unfold readNumber at h
  simp only at h
  split at h
  · rename_i hc
    simp only [Option.some.injEq, Prod.mk.injEq] at h
    obtain ⟨rfl, -⟩ := h
    have := hc.2
    omega
  · cases h

private theorem counted_fits {t : List Char} {q : Amount × List Char} (h : readCounted t = some q) : InI64 q.1.number := by
  unfold readCounted at h
  cases hn : readNumber t with
  | none => rw [hn] at h; cases h
  | some p =>
    rw [hn] at h
    simp only [Option.bind_some, Option.map_eq_some_iff] at h
    obtain ⟨w, -, rfl⟩ := h
    have := number_fits (r := p.2) (n := p.1) hn
    show InI64 p.1
    unfold InI64; omega

private theorem alias_fits {t : List Char} {q : Amount × List Char} (h : readAlias t = some q) : InI64 q.1.number := by
  unfold readAlias at h
  rw [Option.map_eq_some_iff] at h
  obtain ⟨w, -, rfl⟩ := h
  show InI64 1
  decide

private theorem amount_fits {t : List Char} {q : Amount × List Char} (h : readAmount t = some q) : InI64 q.1.number := by
  unfold readAmount at h
  rw [Option.or_eq_some_iff] at h
  rcases h with h | ⟨-, h⟩
  · exact alias_fits h
  · exact counted_fits h

private theorem step_fits {t : List Char} {q : Amount × List Char} (h : readStep t = some q) : InI64 q.1.number := by
  unfold readStep at h
  rw [Option.or_eq_some_iff] at h
  rcases h with h | ⟨-, h⟩
  · exact alias_fits h
  · rw [Option.bind_eq_some_iff] at h
    obtain ⟨w, -, h⟩ := h
    exact counted_fits h

private theorem amountsN_fit {n : Nat} : ∀ {t : List Char} {q : AmountExpr × List Char}, readAmountsN n t = some q → ExprFits q.1 := by
  induction n with
  | zero => intro t q h; cases h
  | succ n ih =>
    intro t q h
    unfold readAmountsN at h
    rw [Option.map_eq_some_iff] at h
    obtain ⟨⟨a, r⟩, ha, hq⟩ := h
    have fa : InI64 a.number := amount_fits ha
    simp only at hq
    cases hm : ((longest operatorWords (pastBlanks r)).bind fun (op, t) =>
        (readAmountsN n (pastBlanks t)).map fun (e, t) => (AmountExpr.cons a op e, t)) with
    | none => rw [hm] at hq; subst hq; exact fa
    | some q' =>
      rw [hm] at hq
      simp only [Option.getD_some] at hq
      subst hq
      rw [Option.bind_eq_some_iff] at hm
      obtain ⟨⟨op, r2⟩, -, hm⟩ := hm
      simp only [Option.map_eq_some_iff] at hm
      obtain ⟨⟨e, r3⟩, he, rfl⟩ := hm
      exact ⟨fa, ih he⟩

theorem exact_typed {iso : Iso} (hi : IsoSane iso) {t : List Char} {q : ExactDate × List Char}
    (h : readExact iso t = some q) : ExactTyped q.1 := by
  unfold readExact at h
  rw [Option.or_eq_some_iff, Option.or_eq_some_iff] at h
  rcases h with (h | ⟨-, h⟩) | ⟨-, h⟩
  · obtain ⟨w, hw, -⟩ := longest_some (a := q.1) (r := q.2) h
    simp only [dayWords, List.mem_cons, Prod.mk.injEq, List.not_mem_nil, or_false] at hw
    rcases hw with ⟨-, e⟩ | ⟨-, e⟩ | ⟨-, e⟩ <;> rw [e] <;> trivial
  · rw [Option.map_eq_some_iff] at h
    obtain ⟨p, hp, rfl⟩ := h
    exact hi.datetimeTyped _ _ _ (wir_some hp)
  · rw [Option.map_eq_some_iff] at h
    obtain ⟨p, hp, rfl⟩ := h
    exact hi.dateTyped _ _ _ (wir_some hp)

private theorem date_typed {iso : Iso} (hi : IsoSane iso) {t : List Char} {q : PDate × List Char}
    (h : readDate iso t = some q) : ExactTyped q.1.exact ∧ ∀ op e, q.1.offset = some (op, e) → ExprFits e := by
  unfold readDate at h
  rw [Option.map_eq_some_iff] at h
  obtain ⟨⟨x, r⟩, hx, hq⟩ := h
  have tx : ExactTyped x := exact_typed hi hx
  simp only at hq
  cases hm : ((longest operatorWords (pastBlanks r)).bind fun (op, t) =>
      (readAmounts (pastBlanks t)).map fun (a, t) => (PDate.mk x (some (op, a)), t)) with
  | none => rw [hm] at hq; subst hq; exact ⟨tx, fun op e h => by cases h⟩
  | some q' =>
    rw [hm] at hq
    simp only [Option.getD_some] at hq
    subst hq
    rw [Option.bind_eq_some_iff] at hm
    obtain ⟨⟨op, r2⟩, -, hm⟩ := hm
    simp only [Option.map_eq_some_iff] at hm
    obtain ⟨⟨e, r3⟩, he, rfl⟩ := hm
    exact ⟨tx, fun op' e' h => by cases h; exact amountsN_fit he⟩

/-! ### what it means is fit to be calculated -/

/-- Moments of the calendar, numbers of 64 bits. -/
def Fit (c : Cfg) (v : TT) : Prop := AllMoments (Moment.Valid c) v ∧ AmountsFit v

theorem amount_fit {c : Cfg} {a : Amount} (h : InI64 a.number) {v : TT} (e : amountMeans c a = .value v) :
    Fit c v ∧ ∃ u n, v = amt u n ∧ InI64 n := by
  unfold amountMeans at e
  split at e
  · split at e
    · cases e
    · cases e
      have : InI64 (signed64 (7 * a.number)) := by unfold signed64 InI64; omega
      exact ⟨⟨trivial, this⟩, .day, _, rfl, this⟩
  · rename_i hw
    cases e
    obtain ⟨n, u⟩ := a
    cases u
    case week =>
      have : InI64 (7 * n) := by
        simp only [true_and, Decidable.not_not] at hw
        exact hw
      exact ⟨⟨trivial, this⟩, .day, _, rfl, this⟩
    case second => exact ⟨⟨trivial, h⟩, .second, n, rfl, h⟩
    case minute => exact ⟨⟨trivial, h⟩, .minute, n, rfl, h⟩
    case hour => exact ⟨⟨trivial, h⟩, .hour, n, rfl, h⟩
    case day => exact ⟨⟨trivial, h⟩, .day, n, rfl, h⟩
    case month => exact ⟨⟨trivial, h⟩, .month, n, rfl, h⟩
    case year => exact ⟨⟨trivial, h⟩, .year, n, rfl, h⟩

private theorem andThen_value {a : Answer} {f : TT → Answer} {v : TT} (h : a.andThen f = .value v) :
    ∃ x, a = .value x ∧ f x = .value v := by
  cases a with
  | value x => exact ⟨x, rfl, h⟩
  | refused e => cases h
  | overflow => cases h

private theorem joined_fit {c : Cfg} {op : Operator} {x y : TT} (hx : Fit c x) (hy : Fit c y) : Fit c (joined op x y) := by
  cases op <;> exact ⟨⟨hx.1, hy.1⟩, hx.2, hy.2⟩

private theorem amounts_fit {c : Cfg} {e : AmountExpr} (h : ExprFits e) {v : TT} (hv : amountsMean c e = .value v) : Fit c v := by
  induction e generalizing v with
  | single a => exact (amount_fit h hv).1
  | cons a op e ih =>
    obtain ⟨x, hx, hv⟩ := andThen_value hv
    obtain ⟨y, hy, hv⟩ := andThen_value hv
    cases hv
    exact joined_fit (amount_fit h.1 hx).1 (ih h.2 hy)

private theorem total_fit {v : TT} (h : total v ≤ 3000000000000000) : AmountsFit v := by
  induction v with
  | seconds n | minutes n | hours n | days n | months n | years n =>
    simp only [total] at h
    show InI64 n
    unfold InI64; omega
  | moment m => trivial
  | addition a b iha ihb | subtraction a b iha ihb =>
    simp only [total] at h
    exact ⟨iha (by omega), ihb (by omega)⟩
  | endOfYear t ih | endOfMonth t ih | endOfDay t ih | endOfHour t ih | endOfMinute t ih => exact ih h

theorem exact_fit {c : Cfg} {now : Moment} (hn : now.Valid c) {e : ExactDate} (h : ExactTyped e) {v : TT}
    (hv : exactMeans c now e = .value v) : Fit c v := by
  have hs := (safe_exact c now hn h).2 v (exact_value.1 hv)
  exact ⟨hs.2, total_fit hs.1⟩

theorem date_fit {c : Cfg} {now : Moment} (hn : now.Valid c) {d : PDate} (h : ExactTyped d.exact)
    (ho : ∀ op e, d.offset = some (op, e) → ExprFits e) {v : TT} (hv : dateMeans c now d = .value v) : Fit c v := by
  obtain ⟨b, hb, hv⟩ := andThen_value hv
  have fb := exact_fit hn h hb
  cases hd : d.offset with
  | none => rw [hd] at hv; cases hv; exact fb
  | some p =>
    obtain ⟨op, e⟩ := p
    rw [hd] at hv
    obtain ⟨x, hx, hv⟩ := andThen_value hv
    cases hv
    exact joined_fit fb (amounts_fit (ho op e hd) hx)

/-! ### the lines -/

private theorem lineOf_eq (v : TT) : prettyPrint v = lineOf v := by cases v <;> rfl

private theorem value_line {c : Cfg} (hc : Sane c) {iso : Iso} {now now' : Moment} {rounds : Nat} {args : List (List Char)} {a : Answer}
    (ha : ∀ v, a = .value v → Fit c v) (hp : parse c iso now now' (commandLine args) = returned a) :
    Main.main c iso now now' rounds args = printsValue c a := by
  unfold Main.main
  rw [hp]
  cases a with
  | refused e => rfl
  | overflow => rfl
  | value v =>
    have hf := ha v rfl
    have hs := C141_every_expression c hc v hf.1 hf.2
    simp only [returned, printsValue]
    cases he : ending c v with
    | value w => rw [he] at hs; rw [show calculate c v = .ok w from hs]; simp only [lineOf_eq]
    | refused e => rw [he] at hs; rw [show calculate c v = .err e from hs]
    | overflow => rw [he] at hs; rw [show calculate c v = .panic from hs]

theorem momentOf_calculated {c : Cfg} (hc : Sane c) {a : Answer} (ha : ∀ v, a = .value v → Fit c v) :
    match calculated c a with
    | .value (.moment m) => momentOf c a = .ok m ∧ m.Valid c
    | .value _ => False
    | .refused e => momentOf c a = .err e
    | .overflow => momentOf c a = .panic := by
  cases a with
  | refused e => rfl
  | overflow => rfl
  | value v =>
    have hf := ha v rfl
    have hs := C141_every_expression c hc v hf.1 hf.2
    simp only [calculated, Answer.andThen, momentOf]
    cases he : ending c v with
    | value w =>
      rw [he] at hs
      have hcalc : calculate c v = .ok w := hs
      have hl := calculate_isLeaf hcalc
      rw [hcalc]
      cases w
      case moment m => exact ⟨rfl, C15_results_are_dates c v m hf.1 hcalc⟩
      all_goals first | rfl | (cases hl; done)
    | refused e => rw [he] at hs; rw [show calculate c v = .err e from hs]
    | overflow => rw [he] at hs; rw [show calculate c v = .panic from hs]

private theorem items_lines {c : Cfg} {ui : UserIterator} {item : Nat → Option Answer}
    (h : ∀ k, Returned (item k) (nth (UserIterator.next c) k ui)) (rounds : Nat) :
    ∀ k, printItems c rounds (after (UserIterator.next c) k ui) = printsItems item rounds k := by
  induction rounds with
  | zero => intro k; rfl
  | succ rounds ih =>
    intro k
    have hk := h k
    have hn := ih (k + 1)
    rw [nth_eq] at hk
    rw [after_succ'] at hn
    unfold printItems printsItems
    generalize UserIterator.next c (after (UserIterator.next c) k ui) = p at hk hn ⊢
    obtain ⟨ui', r⟩ := p
    simp only at hk hn
    cases hi : item k with
    | none =>
      rw [hi] at hk
      cases r with
      | none => rfl
      | some o => exact hk.elim
    | some a =>
      rw [hi] at hk
      cases r with
      | none => exact hk.elim
      | some o =>
        cases a with
        | value v => rw [show o = .ok v from hk]; simp only [hn, lineOf_eq]
        | refused e => rw [show o = .err e from hk]
        | overflow => rw [show o = .panic from hk]

/-- What is written for an iterator is typed. -/
def WrittenTyped (r : Repeated) : Prop :=
  (ExactTyped r.start.exact ∧ ∀ op e, r.start.offset = some (op, e) → ExprFits e) ∧ InI64 r.step.number ∧
  match r.bound with
  | none => True
  | some (.times n) => 0 ≤ n ∧ n ≤ 9223372036854775807
  | some (.exact e) => ExactTyped e

private theorem bound_typed {iso : Iso} (hi : IsoSane iso) {t : List Char} {q : UntilSpec × List Char}
    (h : readBound iso t = some q) : match q.1 with | .times n => 0 ≤ n ∧ n ≤ 9223372036854775807 | .exact e => ExactTyped e := by
  unfold readBound at h
  rw [Option.or_eq_some_iff] at h
  rcases h with h | ⟨-, h⟩
  · rw [Option.bind_eq_some_iff] at h
    obtain ⟨w, -, h⟩ := h
    rw [Option.map_eq_some_iff] at h
    obtain ⟨p, hp, rfl⟩ := h
    exact exact_typed hi hp
  · rw [Option.bind_eq_some_iff] at h
    obtain ⟨w, hw, h⟩ := h
    rw [Option.map_eq_some_iff] at h
    obtain ⟨p, hp, rfl⟩ := h
    exact number_fits (n := w.1) (r := w.2) hw

theorem iterator_typed {iso : Iso} (hi : IsoSane iso) {t : List Char} {q : Repeated × List Char}
    (h : readIterator iso t = some q) : WrittenTyped q.1 := by
  unfold readIterator at h
  rw [Option.bind_eq_some_iff] at h
  obtain ⟨⟨d, r⟩, hd, h⟩ := h
  simp only [Option.map_eq_some_iff] at h
  obtain ⟨⟨a, r2⟩, hs, hq⟩ := h
  have td := date_typed hi hd
  have ts := step_fits hs
  simp only at hq td ts
  cases hb : readBound iso (pastBlanks r2) with
  | none => rw [hb] at hq; subst hq; exact ⟨td, ts, trivial⟩
  | some p =>
    rw [hb] at hq
    simp only [Option.map_some, Option.getD_some] at hq
    subst hq
    refine ⟨td, ts, ?_⟩
    have := bound_typed hi hb
    obtain ⟨u, r3⟩ := p
    cases u <;> exact this


private theorem iterator_lines {c : Cfg} (hc : Sane c) {iso : Iso} {now now' : Moment} (hn : now.Valid c) (hn' : now'.Valid c)
    {rounds : Nat} {args : List (List Char)} {r : Repeated} (ht : WrittenTyped r)
    (hp : parse c iso now now' (commandLine args) = (Reading.iterator r).result c now now') :
    Main.main c iso now now' rounds args = printsIterator c now now' rounds r := by
  obtain ⟨⟨t1, t2⟩, t3, t4⟩ := ht
  have hmain : Main.main c iso now now' rounds args =
      match repeats c now now' r with
      | .ok ui => printItems c rounds ui
      | .err e => ⟨[.failedBuilding e], .finished⟩
      | .panic => ⟨[], .panicked⟩
      | .oof => ⟨[], .running⟩ := by
    unfold Main.main
    rw [hp, Reading.result]
    cases repeats c now now' r <;> rfl
  rw [hmain]
  unfold repeats printsIterator
  cases hs : amountMeans c r.step with
  | refused e => rfl
  | overflow => rfl
  | value step =>
    obtain ⟨-, u, n, rfl, hin⟩ := amount_fit t3 hs
    have hm := momentOf_calculated hc (fun v hv => date_fit hn t1 t2 hv)
    simp only
    cases hcal : calculated c (dateMeans c now r.start) with
    | refused e => rw [hcal] at hm; rw [show momentOf c (dateMeans c now r.start) = .err e from hm]
    | overflow => rw [hcal] at hm; rw [show momentOf c (dateMeans c now r.start) = .panic from hm]
    | value w =>
      rw [hcal] at hm
      cases w
      case moment m =>
        obtain ⟨h1, h2⟩ := hm
        rw [h1]
        have hit : Iter.build m (amt u n) = .ok ⟨.moment m, amt u n, false⟩ := by cases u <;> rfl
        simp only
        cases hb : r.bound with
        | none =>
          simp only [withLimit]
          exact items_lines (fun k => by
            rw [(C45_user_iterator c ⟨.moment m, amt u n, false⟩ 0 m k).1]
            exact C143_items c hc m h2 u n hin _ hit k) rounds 0
        | some b =>
          rw [hb] at t4
          cases b with
          | times N =>
            simp only [withLimit]
            exact items_lines (ui := .timesIter (timesNew ⟨.moment m, amt u n, false⟩ N)) (fun k => by
              rw [(C45_user_iterator c ⟨.moment m, amt u n, false⟩ N m k).2.1]
              exact C143_times c hc m h2 u n hin _ hit N t4.1 t4.2 k) rounds 0
          | exact e =>
            have hm' := momentOf_calculated hc (fun v hv => exact_fit hn' t4 hv)
            simp only [withLimit]
            cases hcal' : calculated c (exactMeans c now' e) with
            | refused e' => rw [hcal'] at hm'; rw [show momentOf c (exactMeans c now' e) = .err e' from hm']
            | overflow => rw [hcal'] at hm'; rw [show momentOf c (exactMeans c now' e) = .panic from hm']
            | value w' =>
              rw [hcal'] at hm'
              cases w'
              case moment limit =>
                obtain ⟨g1, g2⟩ := hm'
                rw [g1]
                exact items_lines (fun k => by
                  rw [(C45_user_iterator c ⟨.moment m, amt u n, false⟩ 0 limit k).2.2]
                  exact C143_until c hc m h2 u n hin _ hit limit g2 k) rounds 0
              all_goals exact hm'.elim
      all_goals exact hm.elim

/-- **C144.** All that the command line program does, whatever its arguments: the lines it prints, in order, and how it ends. It reads the text
as `Spec/Reader.lean` says, takes it for what `Spec/Meaning.lean` says, and calculates as `Spec/Ending.lean` and `Spec/Walk.lean` say. -/
theorem C144_program (c : Cfg) (hc : Sane c) (iso : Iso) (hi : IsoSane iso) (now now' : Moment) (hn : now.Valid c)
    (hn' : now'.Valid c) (rounds : Nat) (args : List (List Char)) :
    Main.main c iso now now' rounds args = prints c iso now now' rounds (commandLine args) := by
  have hp := C142_every_text c iso now now' (commandLine args)
  unfold prints
  unfold Spec.read at hp ⊢
  cases hit : readIterator iso (commandLine args) with
  | some q =>
    rw [hit] at hp
    exact iterator_lines hc hn hn' (iterator_typed hi hit) hp
  | none =>
    rw [hit] at hp
    cases hd : readDate iso (commandLine args) with
    | some q =>
      rw [hd] at hp
      have td := date_typed hi hd
      exact value_line hc (fun v hv => date_fit hn td.1 td.2 hv) hp
    | none =>
      rw [hd] at hp
      cases he : readAmounts (commandLine args) with
      | some q =>
        rw [he] at hp
        exact value_line hc (fun v hv => amounts_fit (amountsN_fit he) hv) hp
      | none =>
        rw [he] at hp
        unfold Main.main
        rw [hp]
        rfl

/-- A date that does not exist, a calculation that fails, an iterator, one that runs out of the calendar, and nonsense. -/
example : prints (std .debug) Tests.Parser.extIso (at_ 2017 6 15 0 0 0) (at_ 2017 6 15 0 0 0) 9 "2017-02-29 + 1 day".toList =
    ⟨[.error (.outOfBounds 2017 2 29 0 0 0)], .finished⟩ := by decide +kernel
example : prints (std .debug) noIso (at_ 2017 6 15 0 0 0) (at_ 2017 6 15 0 0 0) 9 "yesterday + 1 day".toList =
    ⟨[.errorCalculating (.cannotAdd (.days 1) (.moment (at_ 2017 6 14 0 0 0)))], .finished⟩ := by decide +kernel
example : prints (std .debug) Tests.Parser.extIso (at_ 2017 6 15 0 0 0) (at_ 2017 6 15 0 0 0) 9
      "2017-06-15 every 90 minutes until 2017-06-15T04:00:00".toList =
    ⟨[.moment (at_ 2017 6 15 0 0 0), .moment (at_ 2017 6 15 1 30 0), .moment (at_ 2017 6 15 3 0 0)], .finished⟩ := by decide +kernel
example : prints (std .debug) noIso (at_ 2017 6 15 0 0 0) (at_ 2017 6 15 0 0 0) 9 "tomorrow every 200000 years 3 times".toList =
    ⟨[.moment (at_ 2017 6 16 0 0 0), .moment (at_ 202017 6 16 0 0 0), .errorCalculating (.outOfBounds 402017 6 0 0 0 0)], .exit1⟩ := by
  decide +kernel
example : prints (std .debug) noIso (at_ 2017 6 15 0 0 0) (at_ 2017 6 15 0 0 0) 9 "5 mins - 30 secs now".toList =
    ⟨[.amount 270 "Seconds"], .finished⟩ := by decide +kernel
example (rounds : Nat) (args : List (List Char)) := C144_program (std .debug) (by decide) Tests.Parser.extIso
  Tests.Parser.isoSane_extIso (at_ 2017 6 15 0 0 0) (at_ 2017 6 15 0 0 0) (by decide) (by decide) rounds args

end Props
