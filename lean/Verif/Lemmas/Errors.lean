import Verif.Lemmas.Valid
import Verif.Lemmas.Operands

/-! Invariant: which errors the evaluator returns. -/

namespace Kairos
open Spec
variable {c : Cfg}

/-- The errors of the evaluator. -/
def Named : ErrorKind → Prop
  | .cannotAdd _ b => b.isMoment = true ∨ b.isEnd = true
  | .cannotSub _ b => b.isMoment = true ∨ b.isEnd = true
  | .cannotCalculateEndOfYearOn t => t.isAAmount = true
  | .cannotCalculateEndOfMonthOn t => t.isAAmount = true
  | .outOfBounds y mo d h mi s => (-2147483648 ≤ y ∧ y ≤ 2147483647) ∧ (0 ≤ mo ∧ mo < 4294967296) ∧ d = h ∧
      (0 ≤ h ∧ h < 4294967296) ∧ (0 ≤ mi ∧ mi < 4294967296) ∧ (0 ≤ s ∧ s < 4294967296)
  | _ => False

/-- An evaluated value with valid moments, or a known error. -/
def Nres (c : Cfg) (r : Out TT) : Prop :=
  (∀ v, r = .ok v → v.isLeaf ∧ AllMoments (·.Valid c) v) ∧ ∀ e, r = .err e → Named e

theorem Nres.err {e : ErrorKind} (h : Named e) : Nres c (.err e) :=
  ⟨(by intro v h; cases h), (by intro e' h'; cases h'; exact h)⟩
theorem Nres.bind {α : Type} {x : Out α} {f : α → Out TT} (hx : ∀ e, x = .err e → Named e)
    (hf : ∀ v, x = .ok v → Nres c (f v)) : Nres c (x >>= f) := by
  cases x with
  | ok v => exact hf v rfl
  | err e => exact Nres.err (hx e rfl)
  | panic => exact ⟨(by intro v h; cases h), (by intro v h; cases h)⟩
  | oof => exact ⟨(by intro v h; cases h), (by intro v h; cases h)⟩
theorem Nres.bind' {α : Type} {x : Out α} {f : α → Out TT} (hx : ∀ e, x ≠ .err e)
    (hf : ∀ v, Nres c (f v)) : Nres c (x >>= f) := Nres.bind (fun e h => absurd h (hx e)) (fun v _ => hf v)
theorem Nres.amt {v : TT} (h : v.isAAmount) : Nres c (.ok v) :=
  ⟨(by intro w hw; cases hw; exact ⟨by simp [TT.isLeaf, h], Res.amt h _ rfl⟩), (by intro e h; cases h)⟩
theorem Nres.moment {m : Moment} (h : m.Valid c) : Nres c (.ok (.moment m)) :=
  ⟨(by intro w hw; cases hw; exact ⟨rfl, h⟩), (by intro e h; cases h)⟩

theorem asI32_range (x : Int) : -2147483648 ≤ asI32 x ∧ asI32 x ≤ 2147483647 := by
  unfold asI32; rw [Int.bmod_def]; omega
theorem asU32_range (x : Int) : 0 ≤ asU32 x ∧ asU32 x < 4294967296 := by
  unfold asU32; omega

theorem Nres.build (p : Parts) : Nres c (Eval.buildMoment c p) := by
  cases h : Eval.buildMoment c p with
  | ok v => obtain ⟨m, rfl, -, hb⟩ := buildMoment_ok h; exact Nres.moment hb.1
  | err e =>
    unfold Eval.buildMoment at h
    split at h
    · cases h
    · cases h
      exact Nres.err ⟨asI32_range _, asU32_range _, rfl, asU32_range _, asU32_range _, asU32_range _⟩
  | panic => exact ⟨(by intro v h; cases h), (by intro v h; cases h)⟩
  | oof => exact ⟨(by intro v h; cases h), (by intro v h; cases h)⟩

set_option linter.unusedSimpArgs false

theorem body_named (hc1 : -2147483648 ≤ c.minYear) (hc2 : c.maxYear ≤ 2147483647) (R : Call → Out TT) (k : Call)
    (hR : ∀ k', CallM (·.Valid c) k' → Nres c (R k')) (hk : CallM (·.Valid c) k) : Nres c (Eval.body c R k) := by
  have bind2 : ∀ (k' : Call) (f : TT → Out TT), CallM (·.Valid c) k' →
      (∀ v, v.isLeaf → AllMoments (·.Valid c) v → Nres c (f v)) → Nres c (R k' >>= f) :=
    fun k' f h1 h2 => Nres.bind (hR k' h1).2 fun v hv => h2 v ((hR k' h1).1 v hv).1 ((hR k' h1).1 v hv).2
  cases k with
  | calculate t =>
    simp only [Eval.body, Eval.doCalculate]
    cases t <;> simp only <;> first
      | exact Nres.amt rfl
      | (apply hR; exact hk)
      | exact Nres.moment hk
  | endOf kind t =>
    have key : ∀ m : Moment, m.Valid c → Nres c (endVal c kind (.moment m)) := by
      intro m hm
      obtain ⟨w, hw⟩ := endVal_valid c hc1 hc2 kind hm
      obtain ⟨r, rfl, hr, -⟩ := endVal_ok c hw
      rw [hw]; exact Nres.moment hr
    cases kind <;>
      simp only [Eval.body, Eval.endOfYear, Eval.endOfMonth, Eval.endOfDay, Eval.endOfHour, Eval.endOfMinute] <;>
      (refine bind2 _ _ hk ?_
       intro v hl hv
       cases v <;> first
         | exact Nres.err rfl
         | (cases hl; done)
         | (have := key _ hv; rw [endVal_moment] at this; exact this))
  | add a b =>
    simp only [Eval.body]
    simp only [CallM] at hk
    unfold Eval.add
    split <;> simp only [AllMoments] at hk <;>
    first
    | (refine Nres.err ?_; simp [Named, TT.isMoment, TT.isEnd]; done)
    | (apply hR; simp_all only [CallM, AllMoments, and_self]; done)
    | (refine bind2 _ _ (by simp_all only [CallM, AllMoments, and_self]) ?_
       intro v _ hv
       first
       | (apply hR; simp_all only [CallM, AllMoments, and_self]; done)
       | (refine bind2 _ _ (by simp_all only [CallM, AllMoments, and_self]) ?_
          intro w _ hw
          apply hR; simp_all only [CallM, AllMoments, and_self]; done))
  | sub a b =>
    simp only [Eval.body]
    simp only [CallM] at hk
    unfold Eval.sub
    split <;> simp only [AllMoments] at hk <;>
    first
    | (refine Nres.err ?_; simp [Named, TT.isMoment, TT.isEnd]; done)
    | (apply hR; simp_all only [CallM, AllMoments, and_self]; done)
    | (refine bind2 _ _ (by simp_all only [CallM, AllMoments, and_self]) ?_
       intro v _ hv
       first
       | (apply hR; simp_all only [CallM, AllMoments, and_self]; done)
       | (refine bind2 _ _ (by simp_all only [CallM, AllMoments, and_self]) ?_
          intro w _ hw
          apply hR; simp_all only [CallM, AllMoments, and_self]; done))
  | addTo u n t =>
    cases u <;>
      simp only [Eval.body, Eval.addToSeconds, Eval.addToMinutes, Eval.addToHours, Eval.addToDays,
        Eval.addToMonths, Eval.addToYears] <;>
      cases t <;> simp only <;>
      first
      | (refine Nres.err ?_; simp [Named, TT.isMoment, TT.isEnd]; done)
      | (refine bind2 _ _ hk ?_; intro v _ hv; exact hR _ hv)
      | (refine Nres.bind' (fun e => by first | exact chk_ne_err c _ e | exact mulL_ne_err c _ _ e) ?_; intro _; first
         | exact Nres.amt rfl
         | (refine Nres.bind' (fun e => chk_ne_err c _ e) ?_; intro _; exact Nres.amt rfl))
  | subFrom u n t =>
    cases u <;>
      simp only [Eval.body, Eval.subFromSeconds, Eval.subFromMinutes, Eval.subFromHours,
        Eval.subFromDays, Eval.subFromMonths, Eval.subFromYears] <;>
      cases t <;> simp only <;>
      first
      | (refine Nres.err ?_; simp [Named, TT.isMoment, TT.isEnd]; done)
      | (refine bind2 _ _ hk ?_; intro v _ hv; exact hR _ hv)
      | (refine Nres.bind' (fun e => by first | exact chk_ne_err c _ e | exact mulL_ne_err c _ _ e) ?_; intro _; first
         | exact Nres.amt rfl
         | (refine Nres.bind' (fun e => chk_ne_err c _ e) ?_; intro _; exact Nres.amt rfl))
  | addToMoment m t =>
    simp only [Eval.body, Eval.addToMoment]
    cases t <;> simp only <;>
      first
      | (refine Nres.err ?_; simp [Named, TT.isMoment, TT.isEnd]; done)
      | (refine bind2 _ _ hk.2 ?_; intro v _ hv; exact hR _ ⟨hk.1, hv⟩)
      | (refine Nres.bind' (fun e => chk_ne_err c _ e) ?_; intro _
         refine Nres.bind' (fun e => adjustTimesAdd_ne_err c _ e) ?_; intro _; exact Nres.build _)
  | subFromMoment m t =>
    simp only [Eval.body, Eval.subFromMoment]
    cases t <;> simp only <;>
      first
      | (refine Nres.err ?_; simp [Named, TT.isMoment, TT.isEnd]; done)
      | (refine bind2 _ _ hk.2 ?_; intro v _ hv; exact hR _ ⟨hk.1, hv⟩)
      | (refine Nres.bind' (fun e => chk_ne_err c _ e) ?_; intro _
         refine Nres.bind' (fun e => adjustTimesSub_ne_err c _ e) ?_; intro _; exact Nres.build _)

theorem calculate_named (hc1 : -2147483648 ≤ c.minYear) (hc2 : c.maxYear ≤ 2147483647) {t : TT}
    (ht : AllMoments (·.Valid c) t) : Nres c (calculate c t) := by
  have : ∀ n k, CallM (·.Valid c) k → Nres c (Eval.run c n k) := by
    intro n
    induction n with
    | zero => intro k _; exact ⟨(by intro v h; cases h), (by intro v h; cases h)⟩
    | succ n ih => intro k hk; unfold Eval.run; exact body_named hc1 hc2 _ k ih hk
  exact this _ (.calculate t) ht

end Kairos
