import Verif.Lemmas.Errors

/-! Invariant: the moments in the operands that errors name. -/

namespace Kairos
open Spec
variable {c : Cfg} {P : Moment → Prop}

/-- All moments in the expressions that the error names satisfy `P`. -/
def ErrM (P : Moment → Prop) : ErrorKind → Prop
  | .cannotAdd a b | .cannotSub a b => AllMoments P a ∧ AllMoments P b
  | .argumentErrorNotAnAmount t | .cannotCalculateEndOfYearOn t | .cannotCalculateEndOfMonthOn t => AllMoments P t
  | _ => True

/-- All moments in the value or in the error satisfy `P`. -/
def Eres (P : Moment → Prop) (r : Out TT) : Prop := (∀ v, r = .ok v → AllMoments P v) ∧ ∀ e, r = .err e → ErrM P e

theorem Eres.err {e : ErrorKind} (h : ErrM P e) : Eres P (.err e) :=
  ⟨(by intro v h; cases h), (by intro e' h'; cases h'; exact h)⟩
theorem Eres.ok {t : TT} (h : AllMoments P t) : Eres P (.ok t) :=
  ⟨(by intro v h'; cases h'; exact h), (by intro e' h'; cases h')⟩
theorem Eres.bind {α : Type} {x : Out α} {f : α → Out TT} (hx : ∀ e, x = .err e → ErrM P e)
    (hf : ∀ v, x = .ok v → Eres P (f v)) : Eres P (x >>= f) := by
  cases x with
  | ok v => exact hf v rfl
  | err e => exact Eres.err (hx e rfl)
  | panic => exact ⟨(by intro v h; cases h), (by intro v h; cases h)⟩
  | oof => exact ⟨(by intro v h; cases h), (by intro v h; cases h)⟩
theorem Eres.bind' {α : Type} {x : Out α} {f : α → Out TT} (hx : ∀ e, x ≠ .err e)
    (hf : ∀ v, Eres P (f v)) : Eres P (x >>= f) := Eres.bind (fun e h => absurd h (hx e)) (fun v _ => hf v)
theorem Eres.amt {v : TT} (h : v.isAAmount) : Eres P (.ok v) := Eres.ok (Res.amt h _ rfl)
theorem Eres.build (hP : ∀ m, Built c m → P m) (p : Parts) : Eres P (Eval.buildMoment c p) := by
  refine ⟨Res.build hP p, ?_⟩
  intro e h
  unfold Eval.buildMoment at h
  split at h
  · cases h
  · cases h; trivial

set_option linter.unusedSimpArgs false

theorem body_err_inv (hP : ∀ m, Built c m → P m) (R : Call → Out TT) (k : Call)
    (hR : ∀ k', CallM P k' → Eres P (R k')) (hk : CallM P k) : Eres P (Eval.body c R k) := by
  have bind2 : ∀ (k' : Call) (f : TT → Out TT), CallM P k' → (∀ v, AllMoments P v → Eres P (f v)) →
      Eres P (R k' >>= f) := fun k' f h1 h2 => Eres.bind (hR k' h1).2 fun v hv => h2 v ((hR k' h1).1 v hv)
  cases k with
  | calculate t =>
    simp only [Eval.body, Eval.doCalculate]
    cases t <;> simp only <;> first
      | exact Eres.amt rfl
      | (apply hR; exact hk)
      | exact Eres.ok hk
  | endOf kind t =>
    have hc := hR (.calculate t) hk
    have t0 : Cal.ValidTime 0 0 0 := by decide
    have t1 : Cal.ValidTime 23 59 59 := by decide
    cases kind <;>
      simp only [Eval.body, Eval.endOfYear, Eval.endOfMonth, Eval.endOfDay, Eval.endOfHour,
        Eval.endOfMinute] <;>
      (refine Eres.bind hc.2 ?_; intro v hv
       replace hv := hc.1 v hv
       cases v <;> first
         | exact Eres.err trivial
         | exact hR _ hv
         | exact Eres.err hv
         | (simp only; split
            · first
              | (rename_i nd hnd
                 obtain ⟨rfl, h1, h2, h3⟩ := fromYmdOpt_some c hnd
                 first
                 | rw [andHms_ok t0]
                 | rw [andHms_ok t1]
                 refine Eres.ok (t := .moment _) ?_
                 refine hP _ ⟨⟨h1, h2, h3, ?_, ?_, ?_⟩, rfl⟩ <;> first | exact t0 | exact t1 | simp)
              | (rename_i nd hnd
                 rw [Option.bind_eq_some_iff] at hnd
                 obtain ⟨nd, hnd, hm⟩ := hnd
                 obtain ⟨rfl, h1, h2, h3⟩ := fromYmdOpt_some c hnd
                 obtain ⟨rfl, h4⟩ := andHmsOpt_some hm
                 refine Eres.ok (t := .moment _) ?_
                 refine hP _ ⟨⟨h1, h2, h3, h4, ?_, ?_⟩, rfl⟩ <;> simp)
            · exact Eres.err trivial))
  | add a b =>
    simp only [Eval.body]
    simp only [CallM] at hk
    unfold Eval.add
    split <;> simp only [AllMoments] at hk <;>
    first
    | (refine Eres.err ?_; simp_all only [ErrM, CallM, AllMoments, and_self, and_true, true_and]; done)
    | (apply hR; simp_all only [CallM, AllMoments, and_self]; done)
    | (refine bind2 _ _ (by simp_all only [CallM, AllMoments, and_self]) ?_
       intro v hv
       first
       | (apply hR; simp_all only [CallM, AllMoments, and_self]; done)
       | (refine bind2 _ _ (by simp_all only [CallM, AllMoments, and_self]) ?_
          intro w hw
          apply hR; simp_all only [CallM, AllMoments, and_self]; done))
  | sub a b =>
    simp only [Eval.body]
    simp only [CallM] at hk
    unfold Eval.sub
    split <;> simp only [AllMoments] at hk <;>
    first
    | (refine Eres.err ?_; simp_all only [ErrM, CallM, AllMoments, and_self, and_true, true_and]; done)
    | (apply hR; simp_all only [CallM, AllMoments, and_self]; done)
    | (refine bind2 _ _ (by simp_all only [CallM, AllMoments, and_self]) ?_
       intro v hv
       first
       | (apply hR; simp_all only [CallM, AllMoments, and_self]; done)
       | (refine bind2 _ _ (by simp_all only [CallM, AllMoments, and_self]) ?_
          intro w hw
          apply hR; simp_all only [CallM, AllMoments, and_self]; done))
  | addTo u n t =>
    cases u <;>
      simp only [Eval.body, Eval.addToSeconds, Eval.addToMinutes, Eval.addToHours, Eval.addToDays,
        Eval.addToMonths, Eval.addToYears] <;>
      cases t <;> simp only <;>
      first
      | (refine Eres.err ?_; simp_all only [ErrM, CallM, AllMoments, and_self, and_true, true_and]; done)
      | (refine bind2 _ _ hk ?_; intro v hv; exact hR _ hv)
      | (refine Eres.bind' (fun e => by first | exact chk_ne_err c _ e | exact mulL_ne_err c _ _ e) ?_; intro _; first
         | exact Eres.amt rfl
         | (refine Eres.bind' (fun e => chk_ne_err c _ e) ?_; intro _; exact Eres.amt rfl))
  | subFrom u n t =>
    cases u <;>
      simp only [Eval.body, Eval.subFromSeconds, Eval.subFromMinutes, Eval.subFromHours,
        Eval.subFromDays, Eval.subFromMonths, Eval.subFromYears] <;>
      cases t <;> simp only <;>
      first
      | (refine Eres.err ?_; simp_all only [ErrM, CallM, AllMoments, and_self, and_true, true_and]; done)
      | (refine bind2 _ _ hk ?_; intro v hv; exact hR _ hv)
      | (refine Eres.bind' (fun e => by first | exact chk_ne_err c _ e | exact mulL_ne_err c _ _ e) ?_; intro _; first
         | exact Eres.amt rfl
         | (refine Eres.bind' (fun e => chk_ne_err c _ e) ?_; intro _; exact Eres.amt rfl))
  | addToMoment m t =>
    simp only [Eval.body, Eval.addToMoment]
    cases t <;> simp only <;>
      first
      | (refine Eres.err ?_; simp_all only [ErrM, CallM, AllMoments, and_self, and_true, true_and]; done)
      | (refine bind2 _ _ hk.2 ?_; intro v hv; exact hR _ ⟨hk.1, hv⟩)
      | (refine Eres.bind' (fun e => chk_ne_err c _ e) ?_; intro _
         refine Eres.bind' (fun e => by first | exact adjustTimesAdd_ne_err c _ e | exact adjustTimesSub_ne_err c _ e) ?_
         intro _; exact Eres.build hP _)
  | subFromMoment m t =>
    simp only [Eval.body, Eval.subFromMoment]
    cases t <;> simp only <;>
      first
      | (refine Eres.err ?_; simp_all only [ErrM, CallM, AllMoments, and_self, and_true, true_and]; done)
      | (refine bind2 _ _ hk.2 ?_; intro v hv; exact hR _ ⟨hk.1, hv⟩)
      | (refine Eres.bind' (fun e => chk_ne_err c _ e) ?_; intro _
         refine Eres.bind' (fun e => by first | exact adjustTimesAdd_ne_err c _ e | exact adjustTimesSub_ne_err c _ e) ?_
         intro _; exact Eres.build hP _)

theorem calculate_err_inv (hP : ∀ m, Built c m → P m) {t : TT} (ht : AllMoments P t) : Eres P (calculate c t) := by
  have : ∀ n k, CallM P k → Eres P (Eval.run c n k) := by
    intro n
    induction n with
    | zero => intro k _; exact ⟨(by intro v h; cases h), (by intro v h; cases h)⟩
    | succ n ih => intro k hk; unfold Eval.run; exact body_err_inv hP _ k ih hk
  exact this _ (.calculate t) ht

end Kairos
