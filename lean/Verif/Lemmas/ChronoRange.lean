import Verif.Spec.ChronoRange
import Verif.Spec.Sequence
import Verif.Lemmas.EvalEqs

/-! Two ranges of years, one within the other: every function either gives an error because of the narrower range or does the same. -/

namespace Kairos
open Spec Parser

variable {c c' : Cfg} {α β σ : Type}

/-- `x` is an error because of the narrower range, or `x` and `y` are the same. -/
def Narrow (c c' : Cfg) (x y : Out α) : Prop := (∃ e, TooNarrow c c' e ∧ x = .err e) ∨ x = y

theorem Narrow.refl (x : Out α) : Narrow c c' x x := .inr rfl

theorem Narrow.bind {x y : Out α} {f g : α → Out β} (h : Narrow c c' x y) (hf : ∀ a, Narrow c c' (f a) (g a)) :
    Narrow c c' (x >>= f) (y >>= g) := by
  rcases h with ⟨e, h1, rfl⟩ | rfl
  · exact .inl ⟨e, h1, rfl⟩
  · cases x with
    | ok a => exact hf a
    | err e => exact .inr rfl
    | panic => exact .inr rfl
    | oof => exact .inr rfl

/-- A date is the same in both ranges, or the year is one that only the wider range has. -/
theorem ymd_narrow (h : Wider c c') (y m d : Int) :
    fromYmdOpt c y m d = fromYmdOpt c' y m d ∨
      (fromYmdOpt c y m d = none ∧ (y < c.minYear ∨ c.maxYear < y) ∧ c'.minYear ≤ y ∧ y ≤ c'.maxYear) := by
  obtain ⟨-, h1, h2⟩ := h
  unfold fromYmdOpt
  by_cases hv : Cal.ValidDate y m d
  · by_cases ha : c.minYear ≤ y ∧ y ≤ c.maxYear
    · left
      rw [if_pos ⟨ha.1, ha.2, hv⟩, if_pos ⟨by omega, by omega, hv⟩]
    · by_cases hb : c'.minYear ≤ y ∧ y ≤ c'.maxYear
      · right
        exact ⟨if_neg (fun k => ha ⟨k.1, k.2.1⟩), by omega, hb.1, hb.2⟩
      · left
        rw [if_neg (fun k => ha ⟨k.1, k.2.1⟩), if_neg (fun k => hb ⟨k.1, k.2.1⟩)]
  · left
    rw [if_neg (fun k => hv k.2.2), if_neg (fun k => hv k.2.2)]

/-- Making something of a date, or else `OutOfBounds` with its year. -/
theorem made_narrow (h : Wider c c') (y m d : Int) (f : Date → Out α) (m' d' h' mi' s' : Int) :
    Narrow c c' (match fromYmdOpt c y m d with | some nd => f nd | none => .err (.outOfBounds y m' d' h' mi' s'))
      (match fromYmdOpt c' y m d with | some nd => f nd | none => .err (.outOfBounds y m' d' h' mi' s')) := by
  rcases ymd_narrow h y m d with e | ⟨e, g⟩
  · rw [e]; exact .refl _
  · rw [e]; exact .inl ⟨_, ⟨y, m', d', h', mi', s', rfl, g⟩, rfl⟩

theorem built_narrow (h : Wider c c') (y m d : Int) (g : Date → Option Moment) (f : Moment → Out α) (m' d' h' mi' s' : Int) :
    Narrow c c' (match (fromYmdOpt c y m d).bind g with | some r => f r | none => .err (.outOfBounds y m' d' h' mi' s'))
      (match (fromYmdOpt c' y m d).bind g with | some r => f r | none => .err (.outOfBounds y m' d' h' mi' s')) := by
  rcases ymd_narrow h y m d with e | ⟨e, k⟩
  · rw [e]; exact .refl _
  · rw [e]; exact .inl ⟨_, ⟨y, m', d', h', mi', s', rfl, k⟩, rfl⟩

theorem opt_narrow (h : Wider c c') (y m d : Int) (m' d' h' mi' s' : Int) :
    Narrow c c' (OutE.ofOption (fromYmdOpt c y m d) (ErrorKind.outOfBounds y m' d' h' mi' s'))
      (OutE.ofOption (fromYmdOpt c' y m d) (ErrorKind.outOfBounds y m' d' h' mi' s')) := by
  rcases ymd_narrow h y m d with e | ⟨e, g⟩
  · rw [e]; exact .refl _
  · rw [e]; exact .inl ⟨_, ⟨y, m', d', h', mi', s', rfl, g⟩, rfl⟩

/-- Arithmetic depends on the profile only. -/
theorem chk_same {ε : Type} (h : Wider c c') (x : Int) : (c'.chk x : OutE ε Int) = c.chk x := by
  unfold Cfg.chk; rw [h.1]

theorem mulL_same {ε : Type} (h : Wider c c') (l : List Int) : ∀ a : Int, (c'.mulL a l : OutE ε Int) = c.mulL a l := by
  induction l with
  | nil => exact fun a => rfl
  | cons k ks ih =>
    intro a
    unfold Cfg.mulL Cfg.mul
    rw [chk_same h]
    cases (c.chk (a * k) : OutE ε Int) with
    | ok p => exact ih p
    | err e => rfl
    | panic => rfl
    | oof => rfl

theorem weeks_same (h : Wider c c') (n : Int) : TT.weeks c' n = TT.weeks c n := by
  unfold TT.weeks Cfg.mul; rw [chk_same h]

theorem fix_same {ε : Type} (h : Wider c c') (b o n : Int) : (fix c' b o n : OutE ε (Int × Int)) = fix c b o n := by
  unfold fix Cfg.sub Cfg.add
  simp only [chk_same h]

theorem dayLoop_same {ε : Type} (h : Wider c c') (y : Int) (n : Nat) :
    ∀ mo d : Int, (dayLoop c' y n mo d : OutE ε (Int × Int)) = dayLoop c y n mo d := by
  induction n with
  | zero => exact fun _ _ => rfl
  | succ n ih =>
    intro mo d
    unfold dayLoop Cfg.sub Cfg.add
    simp only [chk_same h, ih]

theorem monthLoop_same {ε : Type} (h : Wider c c') (n : Nat) :
    ∀ y mo : Int, (monthLoop c' n y mo : OutE ε (Int × Int)) = monthLoop c n y mo := by
  induction n with
  | zero => exact fun _ _ => rfl
  | succ n ih =>
    intro y mo
    unfold monthLoop Cfg.sub Cfg.add
    simp only [chk_same h, ih]

theorem adjustAdd_same {ε : Type} (h : Wider c c') (p : Parts) : (adjustTimesAdd c' p : OutE ε Parts) = adjustTimesAdd c p := by
  unfold adjustTimesAdd
  simp only [fix_same h, dayLoop_same h, monthLoop_same h]

theorem adjustSub_same {ε : Type} (h : Wider c c') (p : Parts) : (adjustTimesSub c' p : OutE ε Parts) = adjustTimesSub c p := by
  unfold adjustTimesSub borrow Cfg.sub Cfg.add Cfg.abs
  simp only [chk_same h]

theorem build_narrow (h : Wider c c') (p : Parts) : Narrow c c' (Eval.buildMoment c p) (Eval.buildMoment c' p) :=
  built_narrow h _ _ _ _ _ _ _ _ _ _

theorem body_narrow (h : Wider c c') (R R' : Call → Out TT) (hR : ∀ k, Narrow c c' (R k) (R' k)) (k : Call) :
    Narrow c c' (Eval.body c R k) (Eval.body c' R' k) := by
  cases k with
  | calculate t =>
    simp only [Eval.body, Eval.doCalculate]
    cases t <;> simp only <;> first | exact Narrow.refl _ | exact hR _
  | endOf kind t =>
    cases kind <;>
      simp only [Eval.body, Eval.endOfYear, Eval.endOfMonth, Eval.endOfDay, Eval.endOfHour, Eval.endOfMinute] <;>
      (refine (hR _).bind ?_; intro v
       cases v <;> first | exact Narrow.refl _ | exact hR _ | exact made_narrow h _ _ _ _ _ _ _ _ _ | exact built_narrow h _ _ _ _ _ _ _ _ _ _)
  | add a b =>
    simp only [Eval.body]
    unfold Eval.add
    split <;> first
      | exact Narrow.refl _
      | exact hR _
      | exact (hR _).bind fun _ => hR _
      | exact (hR _).bind fun _ => (hR _).bind fun _ => hR _
  | sub a b =>
    simp only [Eval.body]
    unfold Eval.sub
    split <;> first
      | exact Narrow.refl _
      | exact hR _
      | exact (hR _).bind fun _ => hR _
      | exact (hR _).bind fun _ => (hR _).bind fun _ => hR _
  | addTo u n t =>
    cases u <;>
      simp only [Eval.body, Eval.addToSeconds, Eval.addToMinutes, Eval.addToHours, Eval.addToDays,
        Eval.addToMonths, Eval.addToYears, Cfg.add, chk_same h, mulL_same h] <;>
      cases t <;> simp only <;> first
        | exact Narrow.refl _
        | exact (hR _).bind fun _ => hR _
  | subFrom u n t =>
    cases u <;>
      simp only [Eval.body, Eval.subFromSeconds, Eval.subFromMinutes, Eval.subFromHours,
        Eval.subFromDays, Eval.subFromMonths, Eval.subFromYears, Cfg.sub, chk_same h, mulL_same h] <;>
      cases t <;> simp only <;> first
        | exact Narrow.refl _
        | exact (hR _).bind fun _ => hR _
  | addToMoment m t =>
    simp only [Eval.body, Eval.addToMoment, Cfg.add, chk_same h, adjustAdd_same h]
    cases t <;> simp only <;> first
      | exact Narrow.refl _
      | exact (hR _).bind fun _ => hR _
      | exact Narrow.bind (.refl _) fun _ => Narrow.bind (.refl _) fun _ => build_narrow h _
  | subFromMoment m t =>
    simp only [Eval.body, Eval.subFromMoment, Cfg.sub, chk_same h, adjustSub_same h]
    cases t <;> simp only <;> first
      | exact Narrow.refl _
      | exact (hR _).bind fun _ => hR _
      | exact Narrow.bind (.refl _) fun _ => Narrow.bind (.refl _) fun _ => build_narrow h _

theorem run_narrow (h : Wider c c') (n : Nat) (k : Call) : Narrow c c' (Eval.run c n k) (Eval.run c' n k) := by
  induction n generalizing k with
  | zero => exact .refl _
  | succ n ih => exact body_narrow h _ _ ih k

theorem calculate_narrow (h : Wider c c') (t : TT) : Narrow c c' (calculate c t) (calculate c' t) := run_narrow h _ _

/-! ## Iterators -/

/-- A call of `next` gives an error because of the narrower range, or does the same in both. -/
def StepNarrow (c c' : Cfg) (nx nx' : σ → σ × Item) : Prop :=
  ∀ s, (∃ e, TooNarrow c c' e ∧ (nx s).2 = some (.err e)) ∨ nx s = nx' s

theorem StepNarrow.nth {nx nx' : σ → σ × Item} (h : StepNarrow c c' nx nx') (n : Nat) :
    ∀ s, (∀ k, k < n → ∀ e, TooNarrow c c' e → Spec.nth nx k s ≠ some (.err e)) → ∀ k, k < n → Spec.nth nx' k s = Spec.nth nx k s := by
  induction n with
  | zero => intro s _ k hk; omega
  | succ n ih =>
    intro s hp k hk
    have heq : nx s = nx' s := (h s).resolve_left fun ⟨e, he, h0⟩ => hp 0 (by omega) e he h0
    cases k with
    | zero => show (nx' s).2 = (nx s).2; rw [heq]
    | succ k =>
      show Spec.nth nx' k (nx' s).1 = Spec.nth nx k (nx s).1
      rw [← heq]
      exact ih _ (fun j hj => hp (j + 1) (by omega)) k (by omega)

theorem recalculate_narrow (h : Wider c c') (it : Iter) :
    (∃ e, TooNarrow c c' e ∧ (it.recalculate c).2 = .err e) ∨ it.recalculate c = it.recalculate c' := by
  unfold Iter.recalculate
  rcases calculate_narrow h it.base with ⟨e, he, h'⟩ | h'
  · rw [h']; exact .inl ⟨e, he, rfl⟩
  · rw [h']; exact .inr rfl

theorem iter_narrow (h : Wider c c') : StepNarrow c c' (Iter.next c) (Iter.next c') := by
  intro it
  unfold Iter.next
  by_cases hf : it.hadFirst = true
  · simp only [hf, Bool.not_true, Bool.false_eq_true, if_false]
    rcases recalculate_narrow h { it with base := it.base + it.increment } with ⟨e, he, h'⟩ | h'
    · left
      refine ⟨e, he, ?_⟩
      show some ((Iter.recalculate _ _).2 >>= _) = _
      rw [h']; rfl
    · right
      unfold Iter.skip
      rw [h']
  · right
    simp only [hf, Bool.not_false, if_true]

theorem until_narrow (h : Wider c c') {nx nx' : σ → σ × Item} (hn : StepNarrow c c' nx nx') (e : Moment) :
    StepNarrow c c' (untilNext c nx e) (untilNext c' nx' e) := by
  intro s
  unfold untilNext
  rcases hn s with ⟨k, hk, h'⟩ | h'
  · left
    rcases hx : nx s with ⟨s', r⟩
    rw [hx] at h'
    simp only at h'
    subst h'
    exact ⟨k, hk, rfl⟩
  · rw [← h']
    rcases hx : nx s with ⟨s', r⟩
    cases r with
    | none => exact .inr rfl
    | some r =>
      cases r with
      | ok t =>
        simp only
        rcases calculate_narrow h t with ⟨k, hk, ht⟩ | ht
        · rw [ht]; exact .inl ⟨k, hk, rfl⟩
        · rw [ht]; exact .inr rfl
      | err e => exact .inr rfl
      | panic => exact .inr rfl
      | oof => exact .inr rfl

theorem times_narrow (h : Wider c c') {nx nx' : σ → σ × Item} (hn : StepNarrow c c' nx nx') :
    StepNarrow c c' (timesNext c nx) (timesNext c' nx') := by
  intro s
  unfold timesNext Cfg.add
  rw [chk_same h]
  by_cases ht : s.times = s.count
  · rw [if_pos ht, if_pos ht]; exact .inr rfl
  · rw [if_neg ht, if_neg ht]
    cases c.chk (ε := ErrorKind) (s.count + 1) with
    | ok n =>
      simp only
      rcases hn s.inner with h' | h'
      · exact .inl h'
      · rw [h']; exact .inr rfl
    | err e => exact .inr rfl
    | panic => exact .inr rfl
    | oof => exact .inr rfl

theorem filter_narrow {nx nx' : σ → σ × Item} (h : StepNarrow c c' nx nx') (p : TT → Out Bool) (fuel : Nat) :
    StepNarrow c c' (filterNext nx p fuel) (filterNext nx' p fuel) := by
  induction fuel with
  | zero => exact fun s => .inr rfl
  | succ n ih =>
    intro s
    unfold filterNext
    rcases h s with ⟨k, hk, h'⟩ | h'
    · left
      rcases hn : nx s with ⟨s', r⟩
      rw [hn] at h'
      simp only at h'
      subst h'
      exact ⟨k, hk, rfl⟩
    · rw [← h']
      rcases hn : nx s with ⟨s', r⟩
      cases r with
      | none => exact .inr rfl
      | some r =>
        cases r with
        | ok t =>
          simp only
          cases hp : p t with
          | ok b =>
            cases b with
            | true => exact .inr rfl
            | false => exact ih s'
          | err e => exact .inr rfl
          | panic => exact .inr rfl
          | oof => exact .inr rfl
        | err e => exact .inr rfl
        | panic => exact .inr rfl
        | oof => exact .inr rfl

theorem without_narrow {nx nx' : σ → σ × Item} (h : StepNarrow c c' nx nx') (p : TT → Out Bool) (fuel : Nat) :
    StepNarrow c c' (withoutNext nx p fuel) (withoutNext nx' p fuel) := by
  induction fuel with
  | zero => exact fun s => .inr rfl
  | succ n ih =>
    intro s
    unfold withoutNext
    rcases h s with ⟨k, hk, h'⟩ | h'
    · left
      rcases hn : nx s with ⟨s', r⟩
      rw [hn] at h'
      simp only at h'
      subst h'
      exact ⟨k, hk, rfl⟩
    · rw [← h']
      rcases hn : nx s with ⟨s', r⟩
      cases r with
      | none => exact .inr rfl
      | some r =>
        cases r with
        | ok t =>
          simp only
          cases hp : p t with
          | ok b =>
            cases b with
            | true => exact ih s'
            | false => exact .inr rfl
          | err e => exact .inr rfl
          | panic => exact .inr rfl
          | oof => exact .inr rfl
        | err e => exact .inr rfl
        | panic => exact .inr rfl
        | oof => exact .inr rfl

theorem user_narrow (h : Wider c c') : StepNarrow c c' (UserIterator.next c) (UserIterator.next c') := by
  intro u
  cases u with
  | iterator it =>
    rcases iter_narrow h it with h' | h'
    · exact .inl h'
    · right; unfold UserIterator.next; simp only; rw [h']
  | timesIter s =>
    rcases times_narrow h (iter_narrow h) s with h' | h'
    · exact .inl h'
    · right; unfold UserIterator.next; simp only; rw [h']
  | untilIterator it e =>
    rcases until_narrow h (iter_narrow h) e it with h' | h'
    · exact .inl h'
    · right; unfold UserIterator.next; simp only; rw [h']

/-! ## Texts -/

theorem amount_same (h : Wider c c') (a : Amount) : a.intoTimetype c' = a.intoTimetype c := by
  unfold Amount.intoTimetype
  split <;> first | rfl | exact weeks_same h _

theorem amountExpr_same (h : Wider c c') (a : AmountExpr) : a.intoTimetype c' = a.intoTimetype c := by
  induction a with
  | single a => exact amount_same h a
  | cons a op next ih => cases op <;> simp only [AmountExpr.intoTimetype, amount_same h, ih]

theorem newYear_narrow (h : Wider c c') (y : Int) : Narrow c c' (newYear c y) (newYear c' y) :=
  (opt_narrow h _ _ _ _ _ _ _ _).bind fun _ => .refl _

theorem exact_narrow (h : Wider c c') (now : Moment) (d : ExactDate) :
    Narrow c c' (d.intoTimetype c now) (d.intoTimetype c' now) := by
  unfold ExactDate.intoTimetype
  simp only [weeks_same h]
  split <;> first
    | exact .refl _
    | exact (opt_narrow h _ _ _ _ _ _ _ _).bind fun _ => .refl _
    | exact (newYear_narrow h _).bind fun _ => .refl _
    | (refine Narrow.bind ?_ fun _ => .refl _
       rename_i y m d _ _ _ _ _ _
       rcases ymd_narrow h y m d with e | ⟨e, g⟩
       · rw [e]; exact .refl _
       · rw [e]; exact .inl ⟨_, ⟨_, _, _, _, _, _, rfl, g⟩, rfl⟩)

theorem pdate_narrow (h : Wider c c') (now : Moment) (d : PDate) : Narrow c c' (d.intoTimetype c now) (d.intoTimetype c' now) := by
  unfold PDate.intoTimetype
  simp only [amountExpr_same h]
  exact (exact_narrow h now _).bind fun b => .refl _

theorem timetype_narrow (h : Wider c c') (now : Moment) (d : PTimeType) :
    Narrow c c' (d.intoTimetype c now) (d.intoTimetype c' now) := by
  cases d with
  | date d => exact pdate_narrow h now d
  | amountExpr a => exact .inr (amountExpr_same h a).symm

theorem recur_same (h : Wider c c') (s : Iterspec) : s.recur c' = s.recur c := by
  have hu : ∀ i u, unitToAmount c' i u = unitToAmount c i u := by
    intro i u
    cases u <;> first | rfl | exact weeks_same h _
  cases s <;> simp only [Iterspec.recur, hu]

theorem ndt_narrow (h : Wider c c') (t : TT) : Narrow c c' (intoNdt c t) (intoNdt c' t) :=
  (calculate_narrow h t).bind fun _ => .refl _

theorem piterator_narrow (h : Wider c c') (now now' : Moment) (p : PIterator) :
    Narrow c c' (p.intoUserIterator c now now') (p.intoUserIterator c' now now') := by
  unfold PIterator.intoUserIterator
  rw [recur_same h]
  refine Narrow.bind (.refl _) fun r => ?_
  split
  · exact (pdate_narrow h now _).bind fun _ => (ndt_narrow h _).bind fun _ => (exact_narrow h now' _).bind fun _ =>
      (ndt_narrow h _).bind fun _ => .refl _
  · exact (pdate_narrow h now _).bind fun _ => (ndt_narrow h _).bind fun _ => .refl _
  · exact (pdate_narrow h now _).bind fun _ => (ndt_narrow h _).bind fun _ => .refl _

theorem parse_narrow (h : Wider c c') (iso : Iso) (now now' : Moment) (s : List Char) :
    (∃ e, TooNarrow c c' e ∧ (parse c iso now now' s = .err e ∨ parse c iso now now' s = .ok (.iterator (.error e)))) ∨
      parse c iso now now' s = parse c' iso now now' s := by
  unfold parse doParse Nom.altComplete
  simp only [List.map, Nom.alt, Nom.complete, Nom.bind]
  have htt : ∀ p : PTimeType, (∃ e, TooNarrow c c' e ∧ ((p.intoTimetype c now >>= fun t => .ok (Parsed.timeType t)) = .err e ∨
      (p.intoTimetype c now >>= fun t => .ok (Parsed.timeType t)) = .ok (.iterator (.error e)))) ∨
      (p.intoTimetype c now >>= fun t => .ok (Parsed.timeType t)) = (p.intoTimetype c' now >>= fun t => .ok (Parsed.timeType t)) := by
    intro p
    rcases timetype_narrow h now p with ⟨e, he, h'⟩ | h'
    · exact .inl ⟨e, he, .inl (by rw [h']; rfl)⟩
    · exact .inr (by rw [h'])
  cases hi : iterator iso s with
  | done r p =>
    simp only [Nom.IRes.andThen]
    rcases piterator_narrow h now now' p with ⟨e, he, h'⟩ | h'
    · rw [h']; exact .inl ⟨e, he, .inr rfl⟩
    · rw [h']; exact .inr rfl
  | error =>
    simp only [Nom.IRes.andThen]
    cases ht : timetype iso s with
    | done r p => exact htt p
    | error => exact .inr rfl
    | incomplete => exact .inr rfl
  | incomplete =>
    simp only [Nom.IRes.andThen]
    cases ht : timetype iso s with
    | done r p => exact htt p
    | error => exact .inr rfl
    | incomplete => exact .inr rfl

end Kairos
